import Verif.Proof.ZeroFill
import Verif.Proof.SamplesWF
import Verif.Props.C11_C15_RoundTrip
import Verif.Props.C23_Sizes
import Verif.Model.Io
/-!
# C28: truncated files
-/

namespace Genie

/-- Cut a file anywhere before the end of what a parse of the whole consumes: the parse of the rest raises, or it
runs past the end of the data. -/
theorem C28_truncation_detectable (bs : Bytes) (d : DatFile) (h' : ByteHandler)
    (hr : DatFile.fromBytes (ByteHandler.new bs) = .ok (d, h')) (k : Nat) (hk : k < h'.offset) :
    (∃ e, DatFile.fromBytes (ByteHandler.new (bs.take k)) = .error e) ∨
    (∃ d2 h2, DatFile.fromBytes (ByteHandler.new (bs.take k)) = .ok (d2, h2) ∧ ¬ Within h2) := by
  cases hc : DatFile.fromBytes (ByteHandler.new (bs.take k)) with
  | error e => exact Or.inl ⟨e, rfl⟩
  | ok p =>
    obtain ⟨d2, h2⟩ := p
    refine Or.inr ⟨d2, h2, rfl, fun hw => ?_⟩
    obtain ⟨n, l, v, rfl, st⟩ := DatFile.goodFile.ok hc
    unfold Within at hw
    simp only [ByteHandler.new, Nat.zero_add] at hw
    have := st.frame (by simpa [ByteHandler.new] using hw) (ByteHandler.new bs) (by
      simp only [ByteHandler.new, List.drop_zero]
      exact (List.take_prefix _ _).trans (List.take_prefix _ _))
    rw [hr] at this
    simp only [Except.ok.injEq, Prod.mk.injEq, ByteHandler.mk.injEq, ByteHandler.new, Nat.zero_add] at this
    rw [this.2] at hk
    rw [List.length_take] at hw
    simp only at hk
    omega

/-- The same for every record class, at any place of any content. -/
theorem C28_record_truncation_detectable (c : RecordClass) (h h' : ByteHandler) (x : c.Obj)
    (hr : c.fromBytes h = .ok (x, h')) (k : Nat) (hk : k < h'.offset) :
    (∃ e, c.fromBytes { h with content := h.content.take k } = .error e) ∨
    (∃ x2 h2, c.fromBytes { h with content := h.content.take k } = .ok (x2, h2) ∧ ¬ Within h2) := by
  cases hc : c.fromBytes { h with content := h.content.take k } with
  | error e => exact Or.inl ⟨e, rfl⟩
  | ok p =>
    obtain ⟨x2, h2⟩ := p
    refine Or.inr ⟨x2, h2, rfl, fun hw => ?_⟩
    obtain ⟨n, l, rfl, st⟩ := (c.good h.version).ok (h := { h with content := h.content.take k }) rfl hc
    unfold Within at hw
    simp only at hw
    have := st.frame hw h rfl (by
      refine (List.take_prefix _ _).trans ?_
      simp only [List.drop_take]
      exact List.take_prefix _ _)
    rw [hr] at this
    simp only [Except.ok.injEq, Prod.mk.injEq] at this
    rw [this.2] at hk
    rw [List.length_take] at hw
    simp only at hk
    omega

/-- It is not true that truncated files raise: *every* well-formed file, cut anywhere inside its tech tree (its last
part, at least 8 bytes), still parses, to the same object except for the tech tree. -/
theorem C28_silent_truncation (v : Version) (d : DatFile) (hd : DatFile.WFAt v d) :
    ∃ front tree, TechTree.toBytes v d.tech_tree = .ok tree ∧ DatFile.toBytes d = .ok (front ++ tree) ∧ 8 ≤ tree.length ∧
      ∀ k, k ≤ tree.length → ∃ t h', DatFile.fromBytes (ByteHandler.new (front ++ tree.take k)) =
        .ok ({ d with tech_tree := t }, h') := by
  obtain ⟨front, tree, h1, h2, h3⟩ := DatFile.readsToTechTree hd
  refine ⟨front, tree, h2, h1, ?_, fun k _ => ?_⟩
  · rw [C23_record_size .TechTree v d.tech_tree tree h2]
    show 8 ≤ TechTree.size v d.tech_tree
    unfold TechTree.size
    omega
  rw [h3 (ByteHandler.new (front ++ tree.take k)) ⟨tree.take k, rfl⟩]
  obtain ⟨t, h', ht⟩ := TechTree.total { (ByteHandler.new (front ++ tree.take k)) with
    offset := (ByteHandler.new (front ++ tree.take k)).offset + front.length, version := v }
  exact ⟨t, h', bind_ok ht⟩

/-- The missing values are zero-filled: a file cut inside its tech tree gives the same object as the cut file followed by any number
of zero bytes, if the last byte left is below 128. -/
theorem C28_zero_filled (v : Version) (d : DatFile) (hd : DatFile.WFAt v d) (front tree : Bytes)
    (ht : TechTree.toBytes v d.tech_tree = .ok tree) (hb : DatFile.toBytes d = .ok (front ++ tree)) (k : Nat) (hk : k ≤ tree.length)
    (hl : ∀ b, (front ++ tree.take k).getLast? = some b → b.toNat < 128) (m : Nat) :
    ∃ t, DatFile.ofData (front ++ tree.take k) = .ok { d with tech_tree := t } ∧
      DatFile.ofData (front ++ tree.take k ++ List.replicate m 0) = .ok { d with tech_tree := t } := by
  obtain ⟨front', tree', h1, h2, h3⟩ := DatFile.readsToTechTree hd
  rw [ht] at h2
  have e := Except.ok.inj h2
  subst e
  rw [hb] at h1
  have e := List.append_cancel_right (Except.ok.inj h1)
  subst e
  clear hb h1 ht
  generalize tree.take k = cut at *
  have e1 := h3 (ByteHandler.new (front ++ cut)) ⟨cut, rfl⟩
  have e2 := h3 (ByteHandler.new (front ++ cut ++ List.replicate m 0)) ⟨cut ++ List.replicate m 0, (List.append_assoc _ _ _).symm⟩
  have hp : Padded m ⟨front ++ cut, 0 + front.length, v, false⟩ ⟨front ++ cut ++ List.replicate m 0, 0 + front.length, v, false⟩ :=
    ⟨rfl, rfl, rfl⟩
  obtain ⟨t, h', ht'⟩ := TechTree.total ⟨front ++ cut, 0 + front.length, v, false⟩
  obtain ⟨-, g', hg, -⟩ := TechTree.zeroFill m ⟨front ++ cut, 0 + front.length, v, false⟩ _ hl hp t h' ht'
  have f1 := e1.trans (bind_ok ht')
  have f2 := e2.trans (bind_ok hg)
  exact ⟨t, by unfold DatFile.ofData; rw [f1]; rfl, by unfold DatFile.ofData; rw [f2]; rfl⟩

/-- Without the condition on the last byte a cut signed integer is not zero-filled but sign-extended: a 32-bit `255` of which only the
first byte is left is read as `-1`. -/
theorem C28_sign_extension : (resultOf (readInt32 true (ByteHandler.new (natLE 4 255)))).map (·.1) = some 255 ∧
    (resultOf (readInt32 true (ByteHandler.new ((natLE 4 255).take 1)))).map (·.1) = some (-1) := by decide +kernel

/-- The sample file meets the hypotheses; its tech tree has 598 bytes. -/
example : DatFile.WFAt .VER_88 (Sample.datFile .VER_88) ∧
    ((resultOf (TechTree.toBytes .VER_88 (Sample.datFile .VER_88).tech_tree)).map List.length) = some 598 :=
  ⟨Sample.datFile_wf _ (by decide), by decide +kernel⟩

/-- A run: of a tech tree of 598 bytes only the first 100 are left; the age in it keeps its buildings, its modes are zero, and the offset
ends far behind the data. -/
example : (resultOf (TechTree.toBytes .VER_88 Sample.techTree)).bind (fun bs =>
      (resultOf (TechTree.fromBytes (ByteHandler.new (bs.take 100)))).map
        fun r => (r.1.tech_tree_ages.map fun a => (a.buildings, a.common.mode), r.2.offset)) =
    some ([([12, 68], List.replicate 10 0)], 578) := by decide +kernel

end Genie
