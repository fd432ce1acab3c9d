import Verif.Proof.Readers
/-!
# Readers that cannot fail, and reading up to the tech tree

Helper lemmas for the truncation and parse-effort properties (C28, C33).
-/

namespace Genie

/-! ## readers that never raise -/

/-- The reader never raises. -/
def Total (r : Reader α) : Prop := ∀ h, ∃ a h', r h = .ok (a, h')

theorem Total.pure (a : α) : Total (pure a : Reader α) := fun h => ⟨a, h, rfl⟩

theorem Total.bind {r : Reader α} {f : α → Reader β} (h1 : Total r) (h2 : ∀ a, Total (f a)) : Total (r >>= f) := by
  intro h
  obtain ⟨a, h', hr⟩ := h1 h
  obtain ⟨b, h'', hr'⟩ := h2 a h'
  exact ⟨b, h'', by rw [bind_ok hr, hr']⟩

theorem Total.int8 : Total readInt8 := fun _ => ⟨_, _, rfl⟩
theorem Total.int16 {s : Bool} : Total (readInt16 s) := fun _ => ⟨_, _, rfl⟩
theorem Total.int32 {s : Bool} : Total (readInt32 s) := fun _ => ⟨_, _, rfl⟩
theorem Total.noteLossy {b : Bool} : Total (Genie.noteLossy b) := fun _ => ⟨_, _, rfl⟩

theorem Total.repeatR {r : Reader α} (h : Total r) (n : Nat) : Total (Genie.repeatR r n) := by
  induction n with
  | zero => exact Total.pure _
  | succ n ih => exact Total.bind h fun _ => Total.bind ih fun _ => Total.pure _

theorem Total.array {r : Reader α} (h : Total r) (n : Int) (b : Bool) : Total (readArray r n b) :=
  Total.bind Total.noteLossy fun _ => Total.repeatR h _

theorem Total.int32Array10 : Total readInt32Array10 := fun _ => ⟨_, _, rfl⟩
theorem Total.int8Array10 : Total readInt8Array10 := fun _ => ⟨_, _, rfl⟩
theorem Total.int8Array5 : Total readInt8Array5 := fun _ => ⟨_, _, rfl⟩

/-- Prove a goal `Total (do …)` of integer reads. -/
macro "total" : tactic => `(tactic| repeat (first
  | exact Total.pure _ | exact Total.int8 | exact Total.int16 | exact Total.int32
  | exact Total.int32Array10 | exact Total.int8Array10 | exact Total.int8Array5
  | exact Total.array Total.int32 _ _
  | assumption
  | refine Total.array ?_ _ _
  | (refine Total.bind ?_ fun _ => ?_)))

theorem Common.total : Total Common.fromBytes := by unfold Common.fromBytes; total
theorem TechTreeAge.total : Total TechTreeAge.fromBytes := by
  have := Common.total; unfold TechTreeAge.fromBytes; total
theorem BuildingConnection.total : Total BuildingConnection.fromBytes := by
  have := Common.total; unfold BuildingConnection.fromBytes; total
theorem UnitConnection.total : Total UnitConnection.fromBytes := by
  have := Common.total; unfold UnitConnection.fromBytes; total
theorem ResearchConnection.total : Total ResearchConnection.fromBytes := by
  have := Common.total; unfold ResearchConnection.fromBytes; total
theorem TechTree.total : Total TechTree.fromBytes := by
  have := TechTreeAge.total
  have := BuildingConnection.total
  have := UnitConnection.total
  have := ResearchConnection.total
  unfold TechTree.fromBytes; total

theorem MapLand.total : Total MapLand.fromBytes := by unfold MapLand.fromBytes; total
theorem MapTerrain.total : Total MapTerrain.fromBytes := by unfold MapTerrain.fromBytes; total
theorem MapUnit.total : Total MapUnit.fromBytes := by unfold MapUnit.fromBytes; total
theorem MapElevation.total : Total MapElevation.fromBytes := by unfold MapElevation.fromBytes; total
theorem MapInfo.total : Total MapInfo.fromBytes := by
  have := MapLand.total
  have := MapTerrain.total
  have := MapUnit.total
  have := MapElevation.total
  unfold MapInfo.fromBytes; total

/-! ## reading up to a point -/

/-- `w` gives some bytes `b1 ++ b2` such that, where `b1` occurs, `r` reads past it and goes on as `k`; `b2` is what
`w2` gives. -/
def ReadsTo (v : Version) (r : Reader β) (w : Py Bytes) (k : Reader β) (w2 : Py Bytes) : Prop :=
  ∃ b1 b2, w = .ok (b1 ++ b2) ∧ w2 = .ok b2 ∧ ∀ h : ByteHandler, h.version = v → b1 <+: h.content.drop h.offset →
    r h = k { h with offset := h.offset + b1.length }

theorem ReadsTo.bind {v : Version} {r : Reader α} {f : α → Reader β} {k : Reader β} {w w2 : Py Bytes}
    {ws : List (Py Bytes)} {a : α} (h1 : RW v r w a) (h2 : ReadsTo v (f a) (joinB ws) k w2) :
    ReadsTo v (r >>= f) (joinB (w :: ws)) k w2 := by
  obtain ⟨b1, e1, r1⟩ := h1
  obtain ⟨c1, c2, e2, e3, r2⟩ := h2
  refine ⟨b1 ++ c1, c2, by rw [joinB_cons_ok e1 e2]; simp, e3, ?_⟩
  intro h hv hp
  obtain ⟨p1, p2⟩ := drop_prefix hp
  rw [bind_ok (r1 h hv p1), r2 { h with offset := h.offset + b1.length } hv p2]
  simp [Nat.add_assoc]

theorem ReadsTo.bind0 {v : Version} {r : Reader α} {f : α → Reader β} {k : Reader β} {w w2 : Py Bytes}
    {a : α} (h1 : Reads v r [] a) (h2 : ReadsTo v (f a) w k w2) : ReadsTo v (r >>= f) w k w2 := by
  obtain ⟨c1, c2, e2, e3, r2⟩ := h2
  refine ⟨c1, c2, e2, e3, ?_⟩
  intro h hv hp
  have := h1 h hv (List.nil_prefix)
  rw [bind_ok this]
  exact r2 h hv hp

theorem ReadsTo.class_ {v : Version} {r : Reader α} {w w2 : Py Bytes} {a : α} {k k' : Reader β}
    (h1 : RW v r w a) (hk : k = k') (hw : w2 = w := by rfl) :
    ReadsTo v k (joinB [w]) k' w2 := by
  obtain ⟨b, e, -⟩ := h1
  subst hk; subst hw
  refine ⟨[], b, by rw [joinB_single]; simpa using e, e, ?_⟩
  intro h _ _; simp

/-- Like `ReadsTo`, for a reader that sets the version. -/
def FileReadsTo (v : Version) (r : Reader β) (w : Py Bytes) (k : Reader β) (w2 : Py Bytes) : Prop :=
  ∃ b1 b2, w = .ok (b1 ++ b2) ∧ w2 = .ok b2 ∧ ∀ h : ByteHandler, b1 <+: h.content.drop h.offset →
    r h = k { h with offset := h.offset + b1.length, version := v }

theorem ReadsTo.header {s : PyStr} {v : Version} {body : PyStr → Reader β} {k : Reader β} {ws : List (Py Bytes)}
    {w2 : Py Bytes} (hs : (s, v) ∈ versionNames) (h : ReadsTo v (body s) (joinB ws) k w2) :
    FileReadsTo v (do
        let version ← readString 8
        let content_version ← Genie.liftPy (Version.ofStr version)
        setVersion content_version
        body version : Reader β) (joinB (writeString 8 s :: ws)) k w2 := by
  obtain ⟨h1, b1, e1, l1, d1⟩ := versionNames_spec hs
  obtain ⟨c1, c2, e2, e3, r2⟩ := h
  refine ⟨b1 ++ c1, c2, by rw [joinB_cons_ok e1 e2]; simp, e3, ?_⟩
  intro hd hp
  obtain ⟨p1, p2⟩ := drop_prefix hp
  have ht : (hd.content.drop hd.offset).take 8 = b1 := by
    obtain ⟨t, ht⟩ := p1
    rw [← ht, List.take_append_of_le_length (by omega), List.take_of_length_le (by omega)]
  have hl := p1.length_le
  rw [List.length_drop] at hl
  rw [header_eq, ht, d1]
  simp only [h1]
  rw [l1] at p2
  rw [r2 { hd with offset := hd.offset + 8, version := v,
                   lossy := hd.lossy || decide (hd.content.length < hd.offset + 8) } rfl p2]
  rw [decide_eq_false (by omega)]
  simp [Nat.add_assoc, l1]

set_option maxRecDepth 4000 in
/-- Reading a file up to its tech tree. -/
theorem DatFile.readsToTechTree {v : Version} {x : DatFile} (h : DatFile.WFAt v x) :
    FileReadsTo v DatFile.fromBytes (DatFile.toBytes x)
      (do let tech_tree ← readClass TechTree.fromBytes
          return { x with tech_tree := tech_tree })
      (TechTree.toBytes v x.tech_tree) := by
  obtain ⟨x_version, x_float_ptr_terrain_tables, x_terrain_pass_graphic_pointers, x_terrain_restrictions, x_player_colours, x_sounds, x_graphics, x_terrain_block, x_random_maps, x_effects, x_unit_headers, x_civs, x_techs, x_time_slice, x_unit_kill_rate, x_unit_kill_total, x_unit_hit_point_rate, x_unit_hit_point_total, x_razing_kill_rate, x_razing_kill_total, x_tech_tree⟩ := x
  obtain ⟨h_version, h_float_ptr_terrain_tables, h_terrain_pass_graphic_pointers, h_terrain_restrictions, h_player_colours, h_sounds, h_graphics, h_terrain_block, h_random_maps, h_effects, h_unit_headers, h_civs, h_techs, h_time_slice, h_unit_kill_rate, h_unit_kill_total, h_unit_hit_point_rate, h_unit_hit_point_total, h_razing_kill_rate, h_razing_kill_total, h_tech_tree⟩ := h
  dsimp only at h_version h_float_ptr_terrain_tables h_terrain_pass_graphic_pointers h_terrain_restrictions h_player_colours h_sounds h_graphics h_terrain_block h_random_maps h_effects h_unit_headers h_civs h_techs h_time_slice h_unit_kill_rate h_unit_kill_total h_unit_hit_point_rate h_unit_hit_point_total h_razing_kill_rate h_razing_kill_total h_tech_tree
  obtain ⟨n, hn, h_tr⟩ := h_terrain_restrictions
  obtain ⟨n', hn', h_tr', hu⟩ : ∃ n' : Nat, n' ≤ 32767 ∧ AllOf (TerrainRestriction.WF v n') x_terrain_restrictions ∧
      usedOf x_terrain_restrictions = n' := by
    by_cases hl : x_terrain_restrictions = []
    · subst hl; exact ⟨0, by omega, by simp [AllOf], rfl⟩
    · exact ⟨n, hn, h_tr.2, terrains_used_isI16 h_tr.2 hl⟩
  unfold DatFile.fromBytes DatFile.toBytes DatFile.toBytesGiven
  simp only [(versionNames_spec h_version).1]
  rw [if_neg (by rw [h_float_ptr_terrain_tables.1, h_terrain_pass_graphic_pointers.1]; simp)]
  refine ReadsTo.header h_version ?_
  simp only [DatFile.graphic_pointers_eq, DatFile.terrains_used_eq, hu]
  refine ReadsTo.bind (RW.int16 (isI16_len h_tr.1)) ?_
  refine ReadsTo.bind (RW.int16 (isI16_len hn')) ?_
  refine ReadsTo.bind (RW.int32Array (by rw [h_float_ptr_terrain_tables.1]) h_float_ptr_terrain_tables.2) ?_
  refine ReadsTo.bind (RW.int32Array (by rw [h_terrain_pass_graphic_pointers.1]) h_terrain_pass_graphic_pointers.2) ?_
  refine ReadsTo.bind (RW.array rfl fun y hy => TerrainRestriction.rw (h_tr' y hy)) ?_
  refine ReadsTo.bind0 (Reads.noteLossy (by
    rw [decide_eq_false]
    rintro ⟨rfl, h2⟩
    exact h2 hu.symm)) ?_
  refine ReadsTo.bind (RW.int16 (isI16_len h_player_colours.1)) ?_
  refine ReadsTo.bind (RW.classArray rfl fun y hy => PlayerColour.rw (h_player_colours.2 y hy)) ?_
  refine ReadsTo.bind (RW.int16 (isI16_len h_sounds.1)) ?_
  refine ReadsTo.bind (RW.classArray rfl fun y hy => Sound.rw (h_sounds.2 y hy)) ?_
  refine ReadsTo.bind (RW.int16 (isI16_len h_graphics.1)) ?_
  refine ReadsTo.bind (RW.int32Array (by rw [slotPointers_length]) (slotPointers_i32 _)) ?_
  refine ReadsTo.bind (RW.classArrayWithPointers rfl rfl fun o ho y hy => Graphic.rw (h_graphics.2 o ho y hy)) ?_
  refine ReadsTo.bind (RW.class_ (TerrainBlock.rw h_terrain_block)) ?_
  refine ReadsTo.bind (RW.class_ (RandomMaps.rw h_random_maps)) ?_
  refine ReadsTo.bind (RW.int32 (isI32_len h_effects.1)) ?_
  refine ReadsTo.bind (RW.classArray rfl fun y hy => Effect.rw (h_effects.2 y hy)) ?_
  refine ReadsTo.bind (RW.int32 (isI32_len h_unit_headers.1)) ?_
  refine ReadsTo.bind (RW.classArray rfl fun y hy => UnitHeaders.rw (h_unit_headers.2 y hy)) ?_
  refine ReadsTo.bind (RW.int16 (isI16_len h_civs.1)) ?_
  refine ReadsTo.bind (RW.classArray rfl fun y hy => Civ.rw (h_civs.2 y hy)) ?_
  refine ReadsTo.bind (RW.int16 (isI16_len h_techs.1)) ?_
  refine ReadsTo.bind (RW.classArray rfl fun y hy => Tech.rw (h_techs.2 y hy)) ?_
  refine ReadsTo.bind (RW.int32 h_time_slice) ?_
  refine ReadsTo.bind (RW.int32 h_unit_kill_rate) ?_
  refine ReadsTo.bind (RW.int32 h_unit_kill_total) ?_
  refine ReadsTo.bind (RW.int32 h_unit_hit_point_rate) ?_
  refine ReadsTo.bind (RW.int32 h_unit_hit_point_total) ?_
  refine ReadsTo.bind (RW.int32 h_razing_kill_rate) ?_
  refine ReadsTo.bind (RW.int32 h_razing_kill_total) ?_
  exact ReadsTo.class_ (TechTree.rw h_tech_tree) rfl


theorem RandomMaps.total : Total RandomMaps.fromBytes := by
  have := MapInfo.total
  unfold RandomMaps.fromBytes; total

end Genie
