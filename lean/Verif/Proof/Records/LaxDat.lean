import Verif.Proof.Records.LaxUnits
import Verif.Proof.Records.DatFile
import Verif.Proof.Header
/-! # A whole file is read as its items -/

namespace Genie

theorem TerrainRestriction.lax (v : Version) (n : Int) :
    Lax v (TerrainRestriction.fromBytesWithCount n)
      (fun x => x.passable_buildable_dmg_multiplier.length = n.toNat ∧ x.terrain_pass_graphics.length = n.toNat)
      (fun x bs => ReadAsM (TerrainRestriction.layout v x) bs) := by
  unfold TerrainRestriction.fromBytesWithCount
  refine Lax.bind (Lax.floatArray n) fun a h_a => ?_
  refine Lax.bind (Lax.classArray n (TerrainPassGraphic.lax v)) fun b h_b => ?_
  refine Lax.pure ⟨h_a, h_b⟩ ?_
  intro b1 k1 b0 k0
  simp only [TerrainRestriction.layout]
  exact .requiresCons (.cons k0 (.cons k1 ReadAsM.nil))

theorem Lax.restrictions (v : Version) (size n : Int) :
    Lax v (readClassArrayWithParam TerrainRestriction.fromBytesWithCount size n)
      (fun l => l.length = size.toNat ∧ ∀ x ∈ l, x.passable_buildable_dmg_multiplier.length = n.toNat)
      (fun l bs => ReadAsM (Layout.each (TerrainRestriction.layout v) l) bs) :=
  Lax.mono (Lax.array size (TerrainRestriction.lax v n) fun _ _ h => h) (fun _ h => ⟨h.1, fun x hx => (h.2 x hx).1⟩) fun _ _ _ h => h

theorem terrainItems_readAsM {x : DatFile} {n : Int} {bs : MBytes} (h : IntReadM 2 true n bs)
    (hx : ∀ r ∈ x.terrain_restrictions, r.passable_buildable_dmg_multiplier.length = n.toNat) :
    ReadAsM x.terrainItems bs := by
  unfold DatFile.terrainItems DatFile.terrainCount
  cases hr : x.terrain_restrictions with
  | nil =>
    rw [if_pos rfl]
    refine ReadAsM.item ⟨?_, ?_⟩
    · by_cases hz : leNat bs.bytes = 0
      · left
        rw [← natLE_leNat bs.bytes, hz, h.1.1]; rfl
      · exact .inr ⟨h.1.1, hz⟩
    · have := h.2
      unfold Item.FillOk
      simpa [Item.strict, Item.signed, SFilled] using this
  | cons r rs =>
    rw [if_neg (by simp)]
    exact h.count (hx r (by rw [hr]; simp))

theorem feeds_take_zeros (rest : Bytes) (n : Nat) :
    Feeds rest (there (rest.take n) ++ missing (List.replicate (n - (rest.take n).length) 0)) := by
  refine ⟨_, _, rfl, List.take_prefix _ _, fun h => ?_⟩
  have : n - (rest.take n).length ≠ 0 := by
    intro e; rw [e] at h; exact h rfl
  rw [List.length_take] at this
  exact List.take_of_length_le (by omega)

/-- The body of a file. -/
theorem Lax.header {body : PyStr → Reader β} {Q : β → Prop} {P : Version → β → MBytes → Prop}
    (h : ∀ s v, (s, v) ∈ versionNames →
      Lax v (body s) Q (fun b bs2 => ∀ bs1, ReadAsM [.fixedText 8 s] bs1 → P v b (bs1 ++ bs2)))
    {hd hd' : ByteHandler} {b : β}
    (hr : (do
        let version ← readString 8
        let content_version ← Genie.liftPy (Version.ofStr version)
        setVersion content_version
        body version : Reader β) hd = .ok (b, hd')) :
    ∃ m, Feeds (hd.content.drop hd.offset) m ∧ hd'.offset = hd.offset + m.length ∧ P hd'.version b m := by
  rw [header_eq] at hr
  cases hs : String_from_bytes ((hd.content.drop hd.offset).take 8) with
  | error e => rw [hs] at hr; cases hr
  | ok s =>
    rw [hs] at hr
    simp only at hr
    cases hw' : Version.ofStr s with
    | error e => rw [hw'] at hr; cases hr
    | ok w =>
      rw [hw'] at hr
      simp only at hr
      have hn := versionNames_of_read (by rw [List.length_take]; omega) hs hw'
      obtain ⟨h1, -, -, m2, f2, h3, h5⟩ := h s w hn _ rfl _ _ hr
      simp only at h1 f2 h3 h5
      generalize hm : there ((hd.content.drop hd.offset).take 8) ++ missing (List.replicate (8 - ((hd.content.drop hd.offset).take 8).length) 0) = m1
      have f1 : Feeds (hd.content.drop hd.offset) m1 := hm ▸ feeds_take_zeros _ 8
      have l1 : m1.length = 8 := by
        rw [← hm]; simp only [List.length_append, there_length, missing_length, List.length_replicate, List.length_take]; omega
      have b1 : m1.bytes = (hd.content.drop hd.offset).take 8 ++ List.replicate (8 - ((hd.content.drop hd.offset).take 8).length) 0 := by
        rw [← hm, bytes_append, bytes_there, bytes_missing]
      refine ⟨m1 ++ m2, f1.append (by rw [l1, List.drop_drop]; exact f2), by rw [List.length_append, h3, l1]; omega, ?_⟩
      rw [h1]
      refine h5 m1 (ReadAsM.item ⟨.inl ?_, ?_⟩)
      · have := writeString_of_fromBytes (n := 8) (s := s) (c := m1.bytes) (by omega) (by rw [bytes_length]; exact l1)
          (by rw [b1, String_from_bytes_zeros]; exact hs)
        have e := ((Writes.fixedText 8 s).ok _ this).2
        rw [e]; simp [layoutBytes]
      · unfold Item.FillOk
        simp only [Item.strict, Item.signed]
        rw [← hm]
        exact zeroFilled_zeros _ _

set_option maxRecDepth 2000 in
/-- A whole file is read as its items. -/
theorem DatFile.laxM {h h' : ByteHandler} {d : DatFile} (hr : DatFile.fromBytes h = .ok (d, h')) :
    ∃ m, Feeds (h.content.drop h.offset) m ∧ h'.offset = h.offset + m.length ∧
      ((d.version, h'.version) ∈ versionNames ∧ ReadAsM (d.layoutAt h'.version) m) := by
  refine Lax.header (Q := fun _ => True) (P := fun v x bs => (x.version, v) ∈ versionNames ∧ ReadAsM (x.layoutAt v) bs) ?_ hr
  intro version v h_version
  refine Lax.bind (Lax.int16) fun terrain_restrictions_size h_terrain_restrictions_size => ?_
  refine Lax.bind (Lax.int16) fun terrains_used_1 h_terrains_used_1 => ?_
  refine Lax.bind (Lax.int32Array _) fun float_ptr_terrain_tables h_float_ptr_terrain_tables => ?_
  refine Lax.bind (Lax.int32Array _) fun terrain_pass_graphic_pointers h_terrain_pass_graphic_pointers => ?_
  refine Lax.bind (Lax.restrictions v _ _) fun terrain_restrictions h_terrain_restrictions => ?_
  refine Lax.noteLossy ?_
  refine Lax.bind (Lax.int16) fun player_colours_size h_player_colours_size => ?_
  refine Lax.bind (Lax.classArray _ (PlayerColour.lax v)) fun player_colours h_player_colours => ?_
  refine Lax.bind (Lax.int16) fun sounds_size h_sounds_size => ?_
  refine Lax.bind (Lax.classArray _ (Sound.lax v)) fun sounds h_sounds => ?_
  refine Lax.bind (Lax.int16) fun graphics_size h_graphics_size => ?_
  refine Lax.bind (Lax.pointers _) fun graphic_pointers h_graphic_pointers => ?_
  refine Lax.bind (Lax.classArrayWithPointers h_graphic_pointers (Graphic.lax v)) fun graphics h_graphics => ?_
  refine Lax.bind (Lax.class_ (TerrainBlock.lax v)) fun terrain_block h_terrain_block => ?_
  refine Lax.bind (Lax.class_ (RandomMaps.lax v)) fun random_maps h_random_maps => ?_
  refine Lax.bind (Lax.int32) fun effects_size h_effects_size => ?_
  refine Lax.bind (Lax.classArray _ (Effect.lax v)) fun effects h_effects => ?_
  refine Lax.bind (Lax.int32) fun unit_headers_size h_unit_headers_size => ?_
  refine Lax.bind (Lax.classArray _ (UnitHeaders.lax v)) fun unit_headers h_unit_headers => ?_
  refine Lax.bind (Lax.int16) fun civs_size h_civs_size => ?_
  refine Lax.bind (Lax.classArray _ (Civ.lax v)) fun civs h_civs => ?_
  refine Lax.bind (Lax.int16) fun techs_size h_techs_size => ?_
  refine Lax.bind (Lax.classArray _ (Tech.lax v)) fun techs h_techs => ?_
  refine Lax.bind (Lax.int32) fun time_slice h_time_slice => ?_
  refine Lax.bind (Lax.int32) fun unit_kill_rate h_unit_kill_rate => ?_
  refine Lax.bind (Lax.int32) fun unit_kill_total h_unit_kill_total => ?_
  refine Lax.bind (Lax.int32) fun unit_hit_point_rate h_unit_hit_point_rate => ?_
  refine Lax.bind (Lax.int32) fun unit_hit_point_total h_unit_hit_point_total => ?_
  refine Lax.bind (Lax.int32) fun razing_kill_rate h_razing_kill_rate => ?_
  refine Lax.bind (Lax.int32) fun razing_kill_total h_razing_kill_total => ?_
  refine Lax.bind (Lax.class_ (TechTree.lax v)) fun tech_tree h_tech_tree => ?_
  have hg : graphics.length = graphics_size.toNat := by
    have := congrArg List.length h_graphics
    rw [List.length_map, List.length_map] at this; omega
  refine Lax.pure trivial ?_
  intro b30 k30 b29 k29 b28 k28 b27 k27 b26 k26 b25 k25 b24 k24 b23 k23 b22 k22 b21 k21 b20 k20 b19 k19 b18 k18 b17 k17 b16 k16 b15 k15 b14 k14 b13 k13 b12 k12 b11 k11 b10 k10 b9 k9 b8 k8 b7 k7 b6 k6 b4 k4 b3 k3 b2 k2 b1 k1 b0 k0 bh kh
  refine ⟨h_version, ?_⟩
  simp only [DatFile.layoutAt]
  refine .requiresCons (.requiresCons (.cons kh (.cons (k0.count h_terrain_restrictions.1) (.cons (terrainItems_readAsM k1 h_terrain_restrictions.2) (.cons k2 (.cons k3 (.cons k4 (.cons (k6.count h_player_colours) (.cons k7 (.cons (k8.count h_sounds) (.cons k9 (.cons (k10.count hg) (.cons (pointers_readAsM k11.1 k11.2 h_graphics) (.cons k12 (.cons k13 (.cons k14 (.cons (k15.count h_effects) (.cons k16 (.cons (k17.count h_unit_headers) (.cons k18 (.cons (k19.count h_civs) (.cons k20 (.cons (k21.count h_techs) (.cons k22 (.cons k23.int (.cons k24.int (.cons k25.int (.cons k26.int (.cons k27.int (.cons k28.int (.cons k29.int (.cons k30 ReadAsM.nil))))))))))))))))))))))))))))))))

/-- The same, in terms of the data at hand. -/
theorem DatFile.taken {h h' : ByteHandler} {d : DatFile} (hr : DatFile.fromBytes h = .ok (d, h')) :
    (d.version, h'.version) ∈ versionNames ∧ h.offset ≤ h'.offset ∧
      TakenAs (d.layoutAt h'.version) (h.content.drop h.offset) (h'.offset - h.offset) := by
  obtain ⟨m, f, e, hv, hm⟩ := DatFile.laxM hr
  refine ⟨hv, by omega, ?_⟩
  rw [e, Nat.add_sub_cancel_left]
  exact hm.taken f

theorem Lax.taken {v : Version} {r : Reader α} {Q : α → Prop} {f : α → List Item} (hl : Lax v r Q (fun x m => ReadAsM (f x) m))
    {h h' : ByteHandler} {x : α} (hv : h.version = v) (hr : r h = .ok (x, h')) :
    h.offset ≤ h'.offset ∧ TakenAs (f x) (h.content.drop h.offset) (h'.offset - h.offset) := by
  obtain ⟨-, -, -, m, fd, e, hm⟩ := hl h hv x h' hr
  refine ⟨by omega, ?_⟩
  rw [e, Nat.add_sub_cancel_left]
  exact hm.taken fd

end Genie
