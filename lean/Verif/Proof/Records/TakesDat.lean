import Verif.Proof.Records.TakesCiv
import Verif.Proof.Header
import Verif.Proof.Records.DatFile
/-! # Whatever is accepted for the items of a file is read -/

namespace Genie

theorem terrainItems_taken {v : Version} {x : DatFile} {n : Nat} (hn : n ≤ 32767) (h : AllOf (TerrainRestriction.WF v n) x.terrain_restrictions) :
    TakesR v (readInt16 true) x.terrainItems (fun i => AllOf (TerrainRestriction.WF v i.toNat) x.terrain_restrictions) := by
  unfold DatFile.terrainItems DatFile.terrainCount
  cases hr : x.terrain_restrictions with
  | nil =>
    rw [if_pos rfl]
    refine TakesR.intItem (w := 2) (fun c hc => ⟨?_, by simp [AllOf]⟩) (.inr rfl)
    rcases hc with rfl | ⟨h1, -⟩
    · rfl
    · exact h1
  | cons r rs =>
    rw [if_neg (by simp)]
    rw [hr] at h
    have e := (h r (by simp)).passable_buildable_dmg_multiplier.1
    dsimp only
    rw [e]
    refine (count_takes (v := v) (w := 2) (s := true) (n := n) (by omega) (by omega)).mono ?_
    intro a ha
    rw [ha]; exact h

/-- Reading a file: the version header selects the version at which the rest is read. -/
theorem Takes.header {s : PyStr} {v : Version} {body : PyStr → Reader β} {l : List (List Item)} {b : β}
    (hs : (s, v) ∈ versionNames) (h : Takes v (body s) l.flatten b) {rest : Bytes} {n : Nat} (hb : TakenAs ([.fixedText 8 s] :: l).flatten rest n)
    (hd : ByteHandler) (hp : hd.content.drop hd.offset = rest) :
    ∃ f, (do
        let version ← readString 8
        let content_version ← Genie.liftPy (Version.ofStr version)
        setVersion content_version
        body version : Reader β) hd =
      .ok (b, { hd with offset := hd.offset + n, version := v, lossy := f }) := by
  rw [List.flatten_cons] at hb
  obtain ⟨n1, n2, r1, r2, rfl⟩ := hb.split
  obtain ⟨c, hc, rfl⟩ := r1.single
  obtain ⟨h1, w1, e1, l1, d1⟩ := versionNames_spec hs
  have hb1 : c = w1 := by
    rw [((Writes.fixedText 8 s).ok _ e1).2]
    rcases hc.1 with h | h
    · rw [h]; simp [layoutBytes]
    · exact h.elim
  subst hb1
  obtain ⟨⟨k, z⟩, -⟩ := ZeroNext.take (b := c) (c := []) (by simpa using hc.zeroNext rfl)
  rw [l1] at z r2
  have ht : String_from_bytes ((hd.content.drop hd.offset).take 8) = .ok s := by
    rw [← d1, hp, z]
    unfold String_from_bytes
    rw [rstripNul_append_replicate]
  rw [header_eq, ht]
  simp only [h1]
  obtain ⟨a, f, rfl, e2⟩ := h _ n2 r2 { hd with
      offset := hd.offset + 8
      version := v
      lossy := hd.lossy || decide (hd.content.length < hd.offset + 8) } rfl (by simp only; rw [← hp, List.drop_drop])
  refine ⟨f, ?_⟩
  rw [e2]
  simp [Nat.add_assoc, l1]

theorem TakenAs.requires_tail {c : Prop} [Decidable c] {e : PyErr} {l : List (List Item)} {rest : Bytes} {n : Nat}
    (h : TakenAs (Layout.requires c e :: l).flatten rest n) : TakenAs l.flatten rest n := by
  rw [List.flatten_cons] at h
  obtain ⟨n1, n2, r1, r2, rfl⟩ := h.split
  rw [taken_requires r1] at r2 ⊢
  simpa using r2

set_option maxRecDepth 2000 in
/-- Whatever is accepted for the items of a well-formed file is read as that file. -/
theorem DatFile.takes {v : Version} {x : DatFile} (h : DatFile.WFAt v x) {rest : Bytes} {n : Nat}
    (hb : TakenAs (x.layoutAt v) rest n) (hd : ByteHandler) (hp : hd.content.drop hd.offset = rest) :
    ∃ f, DatFile.fromBytes hd = .ok (x, { hd with offset := hd.offset + n, version := v, lossy := f }) := by
  obtain ⟨x_version, x_float_ptr_terrain_tables, x_terrain_pass_graphic_pointers, x_terrain_restrictions, x_player_colours, x_sounds, x_graphics, x_terrain_block, x_random_maps, x_effects, x_unit_headers, x_civs, x_techs, x_time_slice, x_unit_kill_rate, x_unit_kill_total, x_unit_hit_point_rate, x_unit_hit_point_total, x_razing_kill_rate, x_razing_kill_total, x_tech_tree⟩ := x
  obtain ⟨h_version, h_float_ptr_terrain_tables, h_terrain_pass_graphic_pointers, h_terrain_restrictions, h_player_colours, h_sounds, h_graphics, h_terrain_block, h_random_maps, h_effects, h_unit_headers, h_civs, h_techs, h_time_slice, h_unit_kill_rate, h_unit_kill_total, h_unit_hit_point_rate, h_unit_hit_point_total, h_razing_kill_rate, h_razing_kill_total, h_tech_tree⟩ := h
  dsimp only at h_version h_float_ptr_terrain_tables h_terrain_pass_graphic_pointers h_terrain_restrictions h_player_colours h_sounds h_graphics h_terrain_block h_random_maps h_effects h_unit_headers h_civs h_techs h_time_slice h_unit_kill_rate h_unit_kill_total h_unit_hit_point_rate h_unit_hit_point_total h_razing_kill_rate h_razing_kill_total h_tech_tree
  obtain ⟨k, hk, h_tr⟩ := h_terrain_restrictions
  have h_items := terrainItems_taken (x := ⟨x_version, x_float_ptr_terrain_tables, x_terrain_pass_graphic_pointers, x_terrain_restrictions, x_player_colours, x_sounds, x_graphics, x_terrain_block, x_random_maps, x_effects, x_unit_headers, x_civs, x_techs, x_time_slice, x_unit_kill_rate, x_unit_kill_total, x_unit_hit_point_rate, x_unit_hit_point_total, x_razing_kill_rate, x_razing_kill_total, x_tech_tree⟩) hk h_tr.2
  unfold DatFile.layoutAt at hb
  replace hb := TakenAs.requires_tail (TakenAs.requires_tail hb)
  unfold DatFile.fromBytes
  refine Takes.header h_version ?_ hb hd hp
  clear hb hp hd
  refine TakesR.bind (TakesR.countI16 h_tr.1) fun size h_size => ?_
  refine TakesR.bind h_items fun used h_used => ?_
  refine Takes.bind (Takes.int32Array (by rw [h_float_ptr_terrain_tables.1]; exact h_size) h_float_ptr_terrain_tables.2) ?_
  refine Takes.bind (Takes.int32Array (by rw [h_terrain_pass_graphic_pointers.1]; exact h_size) h_terrain_pass_graphic_pointers.2) ?_
  refine Takes.bind (Takes.array (by exact h_size) fun y hy => TerrainRestriction.takes (h_used y hy)) ?_
  refine Takes.noteLossy ?_
  refine TakesR.bind (TakesR.countI16 h_player_colours.1) fun _ _ => ?_
  refine Takes.bind (Takes.classArray (by assumption) fun y hy => PlayerColour.takes (h_player_colours.2 y hy)) ?_
  refine TakesR.bind (TakesR.countI16 h_sounds.1) fun _ _ => ?_
  refine Takes.bind (Takes.classArray (by assumption) fun y hy => Sound.takes (h_sounds.2 y hy)) ?_
  refine TakesR.bind (TakesR.countI16 h_graphics.1) fun _ _ => ?_
  refine TakesR.bind (TakesR.pointers (by assumption)) fun _ _ => ?_
  refine Takes.bind (Takes.classArrayWithPointers (by assumption) (by assumption) fun o ho y hy => Graphic.takes (h_graphics.2 o ho y hy)) ?_
  refine Takes.bind (Takes.class_ (TerrainBlock.takes h_terrain_block)) ?_
  refine Takes.bind (Takes.class_ (RandomMaps.takes h_random_maps)) ?_
  refine TakesR.bind (TakesR.countI32 h_effects.1) fun _ _ => ?_
  refine Takes.bind (Takes.classArray (by assumption) fun y hy => Effect.takes (h_effects.2 y hy)) ?_
  refine TakesR.bind (TakesR.countI32 h_unit_headers.1) fun _ _ => ?_
  refine Takes.bind (Takes.classArray (by assumption) fun y hy => UnitHeaders.takes (h_unit_headers.2 y hy)) ?_
  refine TakesR.bind (TakesR.countI16 h_civs.1) fun _ _ => ?_
  refine Takes.bind (Takes.classArray (by assumption) fun y hy => Civ.takes (h_civs.2 y hy)) ?_
  refine TakesR.bind (TakesR.countI16 h_techs.1) fun _ _ => ?_
  refine Takes.bind (Takes.classArray (by assumption) fun y hy => Tech.takes (h_techs.2 y hy)) ?_
  refine Takes.bind (Takes.int32 h_time_slice) ?_
  refine Takes.bind (Takes.int32 h_unit_kill_rate) ?_
  refine Takes.bind (Takes.int32 h_unit_kill_total) ?_
  refine Takes.bind (Takes.int32 h_unit_hit_point_rate) ?_
  refine Takes.bind (Takes.int32 h_unit_hit_point_total) ?_
  refine Takes.bind (Takes.int32 h_razing_kill_rate) ?_
  refine Takes.bind (Takes.int32 h_razing_kill_total) ?_
  refine Takes.bind (Takes.class_ (TechTree.takes h_tech_tree)) ?_
  exact Takes.pure rfl

end Genie
