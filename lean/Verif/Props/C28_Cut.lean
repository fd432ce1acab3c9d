import Verif.Proof.CutLater
import Verif.Proof.SamplesWF
import Verif.Props.C28_Truncation
/-!
# C28: where a file may end without the parser noticing

`d.without p` (`Verif/Spec/Cut.lean`) is the object `d` with the part `p`, and all parts that follow it, empty and zero.
-/

namespace Genie

theorem LaterPart.split {v : Version} {d : DatFile} (hd : DatFile.WFAt v d) (p : LaterPart) {cut : Bytes}
    (hc : joinB (p.before v d) = .ok cut) :
    ∃ tail, joinB (p.after v d) = .ok tail ∧ DatFile.toBytes d = .ok (cut ++ tail) ∧
      DatFile.toBytes (d.without p) = .ok (cut ++ List.replicate p.zeros 0) := by
  obtain ⟨bs, e2, -⟩ := DatFile.reads hd
  have e3 := p.toBytes hd
  rw [e2, ← joinB_append] at e3
  obtain ⟨b, tail, h1, h2, h3⟩ := joinB_cons_eq_ok.1 e3.symm
  rw [hc] at h1
  have := Except.ok.inj h1
  subst this
  refine ⟨tail, h2, by rw [e2, h3], ?_⟩
  rw [p.toBytes (p.without_wf hd), p.before_without]
  exact joinB_append_ok hc (p.after_without v d)

theorem LaterPart.without_size (v : Version) (d : DatFile) (p : LaterPart) : (d.without p).size v ≤ d.size v := by
  have h1 : TechTree.size v TechTree.zero = 8 := rfl
  have h2 : RandomMaps.size v ⟨0, [], []⟩ = 8 := rfl
  have h3 : 8 ≤ TechTree.size v d.tech_tree := by unfold TechTree.size; omega
  have h4 : 8 ≤ RandomMaps.size v d.random_maps := by unfold RandomMaps.size; omega
  cases p <;> simp only [DatFile.without, DatFile.size, List.map_nil, List.sum_nil, h1, h2] <;> omega

/-- Every file may end exactly before the random maps, the effects, the unit headers, the civilizations, the techs, or the rest: it is
read without an exception, and all of it from there on is silently empty.  (`cut` is the file up to that part: followed by `tail` it is the
encoding of the object, followed by zeros it is the encoding of the object without those parts.) -/
theorem C28_cut_before_part (v : Version) (d : DatFile) (hd : DatFile.WFAt v d) (p : LaterPart) :
    ∃ cut tail, DatFile.toBytes d = .ok (cut ++ tail) ∧ DatFile.toBytes (d.without p) = .ok (cut ++ List.replicate p.zeros 0) ∧
      p.zeros ≤ tail.length ∧ DatFile.ofData cut = .ok (d.without p) := by
  obtain ⟨cut, e1, r1⟩ := p.reads hd
  obtain ⟨tail, -, h2, h3⟩ := p.split hd e1
  have hv : d.version = v.value := by
    have key : ∀ q ∈ versionNames, q.1 = q.2.value := by decide
    exact key _ hd.version
  refine ⟨cut, tail, h2, h3, ?_, ?_⟩
  · have s1 := C23_datfile_size v d _ hv h2
    have s2 := C23_datfile_size v (d.without p) _ (by cases p <;> exact hv) h3
    have s3 := p.without_size v d
    rw [List.length_append] at s1 s2
    rw [List.length_replicate] at s2
    omega
  · obtain ⟨h', e, -⟩ := p.atEnd d ⟨cut, 0 + cut.length, v, false⟩ (by simp)
    have := (r1 (ByteHandler.new cut) (by simp [ByteHandler.new])).trans e
    unfold DatFile.ofData
    rw [this]

/-- But a file that ends before the last 39 bytes of the terrain block (those after its last float) is never accepted: whatever the cut,
an exception is raised.  (`front` is the file up to and including the terrain block, characterised as in `C28_cut_before_part`.) -/
theorem C28_early_cut_raises (v : Version) (d : DatFile) (hd : DatFile.WFAt v d) (front tail : Bytes)
    (h1 : DatFile.toBytes d = .ok (front ++ tail)) (h2 : DatFile.toBytes (d.without .random_maps) = .ok (front ++ List.replicate 56 0))
    (k : Nat) (hk : k + 39 < front.length) : ∃ e, DatFile.ofData ((front ++ tail).take k) = .error e := by
  obtain ⟨cut, e1, -⟩ := LaterPart.reads hd .random_maps
  obtain ⟨tail', e2, e3, e4⟩ := LaterPart.split hd .random_maps e1
  rw [h2] at e4
  have := List.append_cancel_right (Except.ok.inj e4)
  subst this
  rw [h1] at e3
  have := List.append_cancel_left (Except.ok.inj e3)
  subst this
  obtain ⟨bs, e5, n⟩ := DatFile.needs hd tail.length ⟨tail, e2, rfl⟩
  rw [h1] at e5
  have := Except.ok.inj e5
  subst this
  have := n ((front ++ tail).take k) (List.take_prefix _ _)
  unfold DatFile.ofData
  cases hc : DatFile.fromBytes (ByteHandler.new ((front ++ tail).take k)) with
  | error e => exact ⟨e, rfl⟩
  | ok r =>
    exfalso
    have := this ⟨r, hc⟩
    rw [List.length_append, List.length_take, List.length_append] at this
    omega

/-- A prefix of the encoded random maps is read to its end. -/
theorem RandomMaps.cut_end {v : Version} {x : RandomMaps} (hx : RandomMaps.WF v x) {front b : Bytes} (hm : RandomMaps.toBytes v x = .ok b)
    {k : Nat} (hk : k < b.length) {r : RandomMaps} {h' : ByteHandler}
    (hr : RandomMaps.fromBytes ⟨front ++ b.take k, 0 + front.length, v, false⟩ = .ok (r, h')) : h'.content.length ≤ h'.offset := by
  obtain ⟨n, l, rfl, st⟩ := (RandomMaps.good v).ok (h := ⟨front ++ b.take k, 0 + front.length, v, false⟩) rfl hr
  simp only
  apply Nat.le_of_not_lt
  intro hlt
  have g1 := st.frame (by simp only; omega) ⟨b, 0, v, false⟩ rfl (by
    simp only [Nat.zero_add, List.drop_left', List.drop_zero]
    exact (List.take_prefix _ _).trans (List.take_prefix _ _))
  obtain ⟨b', g2, g3⟩ := RandomMaps.rw hx
  have : b' = b := Except.ok.inj (g2.symm.trans hm)
  subst this
  have g4 := g3 ⟨b', 0, v, false⟩ rfl (by simp)
  rw [g1] at g4
  simp only [Except.ok.injEq, Prod.mk.injEq, ByteHandler.mk.injEq, Nat.zero_add, true_and] at g4
  rw [List.length_append, List.length_take] at hlt
  omega

theorem DatFile.tailRandomMaps_ok (d : DatFile) {h h' : ByteHandler} {r : RandomMaps} (hr : RandomMaps.fromBytes h = .ok (r, h'))
    (hend : h'.content.length ≤ h'.offset) :
    ∃ h'', DatFile.tailRandomMaps d h = .ok ({ d.without .effects with random_maps := r }, h'') := by
  obtain ⟨h'', e, -⟩ := DatFile.effectsAtEnd { d with random_maps := r } h' hend
  refine ⟨h'', ?_⟩
  unfold DatFile.tailRandomMaps
  exact (bind_ok hr).trans e

theorem LaterPart.after_random_maps {v : Version} {d : DatFile} {tail : Bytes}
    (h : joinB (LaterPart.after v d .random_maps) = .ok tail) : ∃ b t, RandomMaps.toBytes v d.random_maps = .ok b ∧ b ++ t = tail := by
  simp only [LaterPart.after] at h
  rw [List.cons_append] at h
  obtain ⟨b, t, f1, -, f3⟩ := joinB_cons_eq_ok.1 h
  exact ⟨b, t, f1, f3.symm⟩

/-- A file that ends inside the random maps is accepted, without any effects, unit headers, civilizations and techs. -/
theorem C28_cut_inside_random_maps (v : Version) (d : DatFile) (hd : DatFile.WFAt v d) (front tail maps : Bytes)
    (h1 : DatFile.toBytes d = .ok (front ++ tail)) (h2 : DatFile.toBytes (d.without .random_maps) = .ok (front ++ List.replicate 56 0))
    (hm : RandomMaps.toBytes v d.random_maps = .ok maps) (k : Nat) (hk : k < maps.length) :
    maps <+: tail ∧ ∃ r, DatFile.ofData (front ++ maps.take k) = .ok { d.without .effects with random_maps := r } := by
  obtain ⟨cut, e1, r1⟩ := LaterPart.reads hd .random_maps
  obtain ⟨tail', e2, e3, e4⟩ := LaterPart.split hd .random_maps e1
  rw [h2] at e4
  have := List.append_cancel_right (Except.ok.inj e4)
  subst this
  rw [h1] at e3
  have := List.append_cancel_left (Except.ok.inj e3)
  subst this
  obtain ⟨b, t, f1, f3⟩ := LaterPart.after_random_maps e2
  have : b = maps := Except.ok.inj (f1.symm.trans hm)
  subst this
  refine ⟨⟨t, f3⟩, ?_⟩
  have hf := r1 (ByteHandler.new (front ++ b.take k)) (by simp [ByteHandler.new])
  obtain ⟨r, h', hr⟩ := RandomMaps.total ⟨front ++ b.take k, 0 + front.length, v, false⟩
  obtain ⟨h'', e⟩ := DatFile.tailRandomMaps_ok d hr (RandomMaps.cut_end hd.random_maps hm hk hr)
  refine ⟨r, ?_⟩
  have := hf.trans e
  unfold DatFile.ofData
  rw [this]

/-- The sample file meets the hypotheses: of its 89782 bytes, 83955 are its front and 560 its random maps. -/
example : DatFile.WFAt .VER_88 (Sample.datFile .VER_88) ∧
    (Sample.datFile .VER_88).size .VER_88 = 89782 ∧
    ((Sample.datFile .VER_88).without .random_maps).size .VER_88 = 83955 + 56 ∧
    (resultOf (RandomMaps.toBytes .VER_88 (Sample.datFile .VER_88).random_maps)).map List.length = some 560 :=
  ⟨Sample.datFile_wf _ (by decide), by decide +kernel, by decide +kernel, by decide +kernel⟩

/-- And the sample file does lose something without its later parts. -/
example : ((Sample.datFile .VER_88).without .effects).civs.length = 0 ∧ (Sample.datFile .VER_88).civs.length ≠ 0 := by decide +kernel

end Genie
