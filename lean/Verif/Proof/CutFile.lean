import Verif.Proof.Cut
import Verif.Spec.Cut
/-!
# Files cut before or after the terrain block
-/

namespace Genie

theorem NeedsW.bind0 {v : Version} {r : Reader α} {f : α → Reader β} {Q : α → Prop} {P : α → Bytes → Prop} {w : Py Bytes}
    {a : α} {m : Nat} (hg : Good v r Q P) (hr : Reads v r [] a) (h2 : NeedsW v (f a) w m)
    (hd : ∀ a, Q a → Demanding v (f a)) : NeedsW v (r >>= f) w m := by
  obtain ⟨b2, e2, n2⟩ := h2
  exact ⟨b2, e2, Needs.bind (b1 := []) hg hr n2 hd⟩

/-- Like `Needs`, for a reader that sets the version. -/
def FileNeeds (r : Reader α) (w : Py Bytes) (m : Nat) : Prop :=
  ∃ bs, w = .ok bs ∧ ∀ data : Bytes, data <+: bs → Succeeds (r (ByteHandler.new data)) → bs.length ≤ data.length + m

theorem FileNeeds.header {s : PyStr} {v : Version} {body : PyStr → Reader β} {ws : List (Py Bytes)} {m : Nat}
    (hs : (s, v) ∈ versionNames) (h : NeedsW v (body s) (joinB ws) m) (hd : ∀ s w, Demanding w (body s)) :
    FileNeeds (do
        let version ← readString 8
        let content_version ← Genie.liftPy (Version.ofStr version)
        setVersion content_version
        body version : Reader β) (joinB (writeString 8 s :: ws)) m := by
  obtain ⟨h1, b1, e1, l1, d1⟩ := versionNames_spec hs
  obtain ⟨b2, e2, n2⟩ := h
  refine ⟨b1 ++ b2, joinB_cons_ok e1 e2, ?_⟩
  intro data hp hr
  rw [header_eq] at hr
  simp only [ByteHandler.new, List.drop_zero, Nat.zero_add] at hr
  by_cases hl : 8 ≤ data.length
  · have ht : data.take 8 = b1 := by
      obtain ⟨t, ht⟩ := hp
      have := congrArg (List.take 8) ht
      rw [List.take_append_of_le_length (by omega), List.take_append_of_le_length (by omega)] at this
      rw [this, List.take_of_length_le (by omega)]
    rw [ht, d1] at hr
    simp only [h1] at hr
    have := n2 _ rfl (by simp only; omega) (by
      simp only
      obtain ⟨t, ht⟩ := hp
      refine ⟨t, ?_⟩
      have := congrArg (List.drop 8) ht
      rw [List.drop_append_of_le_length (by omega), List.drop_append_of_le_length (by omega), List.drop_of_length_le (l := b1) (by omega)] at this
      simpa using this) hr
    simp only at this
    rw [List.length_append]
    omega
  · obtain ⟨res, hr⟩ := hr
    split at hr
    · cases hr
    · split at hr
      · cases hr
      · rename_i s' _ _ w _
        obtain ⟨e, he⟩ := hd s' w ⟨data, 8, w, false || decide (data.length < 8)⟩ rfl (by simp only; omega)
        rw [he] at hr; cases hr

/-- What is written after the terrain block. -/
def DatFile.restWs (v : Version) (x : DatFile) : List (Py Bytes) :=
  [writeInt32 x.time_slice, writeInt32 x.unit_kill_rate, writeInt32 x.unit_kill_total, writeInt32 x.unit_hit_point_rate,
   writeInt32 x.unit_hit_point_total, writeInt32 x.razing_kill_rate, writeInt32 x.razing_kill_total, writeClass TechTree.toBytes x.tech_tree v]
def DatFile.laterWs (v : Version) (x : DatFile) : List (Py Bytes) :=
  writeClass RandomMaps.toBytes x.random_maps v ::
  writeInt32 x.effects.length :: writeClassArray Effect.toBytes x.effects v ::
  writeInt32 x.unit_headers.length :: writeClassArray UnitHeaders.toBytes x.unit_headers v ::
  writeInt16 x.civs.length :: writeClassArray Civ.toBytes x.civs v ::
  writeInt16 x.techs.length :: writeClassArray Tech.toBytes x.techs v :: DatFile.restWs v x

set_option maxRecDepth 4000 in
set_option maxHeartbeats 1000000 in
/-- A file of which more is missing than what follows the last float of the terrain block is not read. -/
theorem DatFile.needs {v : Version} {x : DatFile} (h : DatFile.WFAt v x) (k : Nat)
    (hk : HasLength (joinB (DatFile.laterWs v x)) k) : FileNeeds DatFile.fromBytes (DatFile.toBytes x) (39 + k) := by
  obtain ⟨x_version, x_float_ptr_terrain_tables, x_terrain_pass_graphic_pointers, x_terrain_restrictions, x_player_colours, x_sounds, x_graphics, x_terrain_block, x_random_maps, x_effects, x_unit_headers, x_civs, x_techs, x_time_slice, x_unit_kill_rate, x_unit_kill_total, x_unit_hit_point_rate, x_unit_hit_point_total, x_razing_kill_rate, x_razing_kill_total, x_tech_tree⟩ := x
  obtain ⟨h_version, h_float_ptr_terrain_tables, h_terrain_pass_graphic_pointers, h_terrain_restrictions, h_player_colours, h_sounds, h_graphics, h_terrain_block, h_random_maps, h_effects, h_unit_headers, h_civs, h_techs, h_time_slice, h_unit_kill_rate, h_unit_kill_total, h_unit_hit_point_rate, h_unit_hit_point_total, h_razing_kill_rate, h_razing_kill_total, h_tech_tree⟩ := h
  dsimp only at h_version h_float_ptr_terrain_tables h_terrain_pass_graphic_pointers h_terrain_restrictions h_player_colours h_sounds h_graphics h_terrain_block h_random_maps h_effects h_unit_headers h_civs h_techs h_time_slice h_unit_kill_rate h_unit_kill_total h_unit_hit_point_rate h_unit_hit_point_total h_razing_kill_rate h_razing_kill_total h_tech_tree
  obtain ⟨n, hn, h_tr⟩ := h_terrain_restrictions
  obtain ⟨n', hn', h_tr', hu⟩ : ∃ n' : Nat, n' ≤ 32767 ∧ AllOf (TerrainRestriction.WF v n') x_terrain_restrictions ∧
      usedOf x_terrain_restrictions = n' := by
    by_cases hl : x_terrain_restrictions = []
    · subst hl; exact ⟨0, by omega, by simp [AllOf], rfl⟩
    · exact ⟨n, hn, h_tr.2, terrains_used_isI16 h_tr.2 hl⟩
  unfold DatFile.fromBytes DatFile.toBytes DatFile.toBytesGiven
  simp only [(versionNames_spec h_version).1]
  rw [if_neg (by rw [h_float_ptr_terrain_tables.1, h_terrain_pass_graphic_pointers.1]; simp)]
  refine FileNeeds.header h_version ?_ (fun _ w => by
    refine Demanding.bind Good.int16 fun _ _ => ?_
    refine Demanding.bind Good.int16 fun _ _ => ?_
    refine Demanding.bind (Good.int32Array _) fun _ _ => ?_
    refine Demanding.bind (Good.int32Array _) fun _ _ => ?_
    refine Demanding.bind (Good.restrictions w _ _) fun _ _ => ?_
    refine Demanding.bind (Good.noteLossy (P := fun _ _ => True) fun _ => trivial) fun _ _ => ?_
    refine Demanding.bind Good.int16 fun _ _ => ?_
    refine Demanding.bind (Good.classArray _ (PlayerColour.good w)) fun _ _ => ?_
    refine Demanding.bind Good.int16 fun _ _ => ?_
    refine Demanding.bind (Good.classArray _ (Sound.good w)) fun _ _ => ?_
    refine Demanding.bind Good.int16 fun _ _ => ?_
    refine Demanding.bind (Good.int32Array _) fun _ hgp => ?_
    refine Demanding.bind (Good.classArrayWithPointers hgp.1 (Graphic.good w)) fun _ _ => ?_
    exact Demanding.first (r := readClass TerrainBlock.fromBytes) (TerrainBlock.demanding w))
  simp only [DatFile.graphic_pointers_eq, DatFile.terrains_used_eq, hu]
  refine NeedsW.bind Good.int16 (RW.int16 (isI16_len h_tr.1)) ?_ (fun _ _ => by
    refine Demanding.bind Good.int16 fun _ _ => ?_
    refine Demanding.bind (Good.int32Array _) fun _ _ => ?_
    refine Demanding.bind (Good.int32Array _) fun _ _ => ?_
    refine Demanding.bind (Good.restrictions v _ _) fun _ _ => ?_
    refine Demanding.bind (Good.noteLossy (P := fun _ _ => True) fun _ => trivial) fun _ _ => ?_
    refine Demanding.bind Good.int16 fun _ _ => ?_
    refine Demanding.bind (Good.classArray _ (PlayerColour.good v)) fun _ _ => ?_
    refine Demanding.bind Good.int16 fun _ _ => ?_
    refine Demanding.bind (Good.classArray _ (Sound.good v)) fun _ _ => ?_
    refine Demanding.bind Good.int16 fun _ _ => ?_
    refine Demanding.bind (Good.int32Array _) fun _ hgp => ?_
    refine Demanding.bind (Good.classArrayWithPointers hgp.1 (Graphic.good v)) fun _ _ => ?_
    exact Demanding.first (r := readClass TerrainBlock.fromBytes) (TerrainBlock.demanding v))
  refine NeedsW.bind Good.int16 (RW.int16 (isI16_len hn')) ?_ (fun _ _ => by
    refine Demanding.bind (Good.int32Array _) fun _ _ => ?_
    refine Demanding.bind (Good.int32Array _) fun _ _ => ?_
    refine Demanding.bind (Good.restrictions v _ _) fun _ _ => ?_
    refine Demanding.bind (Good.noteLossy (P := fun _ _ => True) fun _ => trivial) fun _ _ => ?_
    refine Demanding.bind Good.int16 fun _ _ => ?_
    refine Demanding.bind (Good.classArray _ (PlayerColour.good v)) fun _ _ => ?_
    refine Demanding.bind Good.int16 fun _ _ => ?_
    refine Demanding.bind (Good.classArray _ (Sound.good v)) fun _ _ => ?_
    refine Demanding.bind Good.int16 fun _ _ => ?_
    refine Demanding.bind (Good.int32Array _) fun _ hgp => ?_
    refine Demanding.bind (Good.classArrayWithPointers hgp.1 (Graphic.good v)) fun _ _ => ?_
    exact Demanding.first (r := readClass TerrainBlock.fromBytes) (TerrainBlock.demanding v))
  refine NeedsW.bind (Good.int32Array _) (RW.int32Array (by rw [h_float_ptr_terrain_tables.1]) h_float_ptr_terrain_tables.2) ?_ (fun _ _ => by
    refine Demanding.bind (Good.int32Array _) fun _ _ => ?_
    refine Demanding.bind (Good.restrictions v _ _) fun _ _ => ?_
    refine Demanding.bind (Good.noteLossy (P := fun _ _ => True) fun _ => trivial) fun _ _ => ?_
    refine Demanding.bind Good.int16 fun _ _ => ?_
    refine Demanding.bind (Good.classArray _ (PlayerColour.good v)) fun _ _ => ?_
    refine Demanding.bind Good.int16 fun _ _ => ?_
    refine Demanding.bind (Good.classArray _ (Sound.good v)) fun _ _ => ?_
    refine Demanding.bind Good.int16 fun _ _ => ?_
    refine Demanding.bind (Good.int32Array _) fun _ hgp => ?_
    refine Demanding.bind (Good.classArrayWithPointers hgp.1 (Graphic.good v)) fun _ _ => ?_
    exact Demanding.first (r := readClass TerrainBlock.fromBytes) (TerrainBlock.demanding v))
  refine NeedsW.bind (Good.int32Array _) (RW.int32Array (by rw [h_terrain_pass_graphic_pointers.1]) h_terrain_pass_graphic_pointers.2) ?_ (fun _ _ => by
    refine Demanding.bind (Good.restrictions v _ _) fun _ _ => ?_
    refine Demanding.bind (Good.noteLossy (P := fun _ _ => True) fun _ => trivial) fun _ _ => ?_
    refine Demanding.bind Good.int16 fun _ _ => ?_
    refine Demanding.bind (Good.classArray _ (PlayerColour.good v)) fun _ _ => ?_
    refine Demanding.bind Good.int16 fun _ _ => ?_
    refine Demanding.bind (Good.classArray _ (Sound.good v)) fun _ _ => ?_
    refine Demanding.bind Good.int16 fun _ _ => ?_
    refine Demanding.bind (Good.int32Array _) fun _ hgp => ?_
    refine Demanding.bind (Good.classArrayWithPointers hgp.1 (Graphic.good v)) fun _ _ => ?_
    exact Demanding.first (r := readClass TerrainBlock.fromBytes) (TerrainBlock.demanding v))
  refine NeedsW.bind (Good.restrictions v _ _) (RW.array rfl fun y hy => TerrainRestriction.rw (h_tr' y hy)) ?_ (fun _ _ => by
    refine Demanding.bind (Good.noteLossy (P := fun _ _ => True) fun _ => trivial) fun _ _ => ?_
    refine Demanding.bind Good.int16 fun _ _ => ?_
    refine Demanding.bind (Good.classArray _ (PlayerColour.good v)) fun _ _ => ?_
    refine Demanding.bind Good.int16 fun _ _ => ?_
    refine Demanding.bind (Good.classArray _ (Sound.good v)) fun _ _ => ?_
    refine Demanding.bind Good.int16 fun _ _ => ?_
    refine Demanding.bind (Good.int32Array _) fun _ hgp => ?_
    refine Demanding.bind (Good.classArrayWithPointers hgp.1 (Graphic.good v)) fun _ _ => ?_
    exact Demanding.first (r := readClass TerrainBlock.fromBytes) (TerrainBlock.demanding v))
  refine NeedsW.bind0 (Good.noteLossy (P := fun _ _ => True) fun _ => trivial) (Reads.noteLossy (by
    rw [decide_eq_false]
    rintro ⟨rfl, h2⟩
    exact h2 hu.symm)) ?_ (fun _ _ => by
    refine Demanding.bind Good.int16 fun _ _ => ?_
    refine Demanding.bind (Good.classArray _ (PlayerColour.good v)) fun _ _ => ?_
    refine Demanding.bind Good.int16 fun _ _ => ?_
    refine Demanding.bind (Good.classArray _ (Sound.good v)) fun _ _ => ?_
    refine Demanding.bind Good.int16 fun _ _ => ?_
    refine Demanding.bind (Good.int32Array _) fun _ hgp => ?_
    refine Demanding.bind (Good.classArrayWithPointers hgp.1 (Graphic.good v)) fun _ _ => ?_
    exact Demanding.first (r := readClass TerrainBlock.fromBytes) (TerrainBlock.demanding v))
  refine NeedsW.bind Good.int16 (RW.int16 (isI16_len h_player_colours.1)) ?_ (fun _ _ => by
    refine Demanding.bind (Good.classArray _ (PlayerColour.good v)) fun _ _ => ?_
    refine Demanding.bind Good.int16 fun _ _ => ?_
    refine Demanding.bind (Good.classArray _ (Sound.good v)) fun _ _ => ?_
    refine Demanding.bind Good.int16 fun _ _ => ?_
    refine Demanding.bind (Good.int32Array _) fun _ hgp => ?_
    refine Demanding.bind (Good.classArrayWithPointers hgp.1 (Graphic.good v)) fun _ _ => ?_
    exact Demanding.first (r := readClass TerrainBlock.fromBytes) (TerrainBlock.demanding v))
  refine NeedsW.bind (Good.classArray _ (PlayerColour.good v)) (RW.classArray rfl fun y hy => PlayerColour.rw (h_player_colours.2 y hy)) ?_ (fun _ _ => by
    refine Demanding.bind Good.int16 fun _ _ => ?_
    refine Demanding.bind (Good.classArray _ (Sound.good v)) fun _ _ => ?_
    refine Demanding.bind Good.int16 fun _ _ => ?_
    refine Demanding.bind (Good.int32Array _) fun _ hgp => ?_
    refine Demanding.bind (Good.classArrayWithPointers hgp.1 (Graphic.good v)) fun _ _ => ?_
    exact Demanding.first (r := readClass TerrainBlock.fromBytes) (TerrainBlock.demanding v))
  refine NeedsW.bind Good.int16 (RW.int16 (isI16_len h_sounds.1)) ?_ (fun _ _ => by
    refine Demanding.bind (Good.classArray _ (Sound.good v)) fun _ _ => ?_
    refine Demanding.bind Good.int16 fun _ _ => ?_
    refine Demanding.bind (Good.int32Array _) fun _ hgp => ?_
    refine Demanding.bind (Good.classArrayWithPointers hgp.1 (Graphic.good v)) fun _ _ => ?_
    exact Demanding.first (r := readClass TerrainBlock.fromBytes) (TerrainBlock.demanding v))
  refine NeedsW.bind (Good.classArray _ (Sound.good v)) (RW.classArray rfl fun y hy => Sound.rw (h_sounds.2 y hy)) ?_ (fun _ _ => by
    refine Demanding.bind Good.int16 fun _ _ => ?_
    refine Demanding.bind (Good.int32Array _) fun _ hgp => ?_
    refine Demanding.bind (Good.classArrayWithPointers hgp.1 (Graphic.good v)) fun _ _ => ?_
    exact Demanding.first (r := readClass TerrainBlock.fromBytes) (TerrainBlock.demanding v))
  refine NeedsW.bind Good.int16 (RW.int16 (isI16_len h_graphics.1)) ?_ (fun _ _ => by
    refine Demanding.bind (Good.int32Array _) fun _ hgp => ?_
    refine Demanding.bind (Good.classArrayWithPointers hgp.1 (Graphic.good v)) fun _ _ => ?_
    exact Demanding.first (r := readClass TerrainBlock.fromBytes) (TerrainBlock.demanding v))
  refine NeedsW.bind (Good.int32Array _) (RW.int32Array (by rw [slotPointers_length]) (slotPointers_i32 _)) ?_ (fun _ hgp0 => by
    refine Demanding.bind (Good.classArrayWithPointers hgp0.1 (Graphic.good v)) fun _ _ => ?_
    exact Demanding.first (r := readClass TerrainBlock.fromBytes) (TerrainBlock.demanding v))
  refine NeedsW.bind (Good.classArrayWithPointers (by rw [slotPointers_length]; rfl) (Graphic.good v)) (RW.classArrayWithPointers rfl rfl fun o ho y hy => Graphic.rw (h_graphics.2 o ho y hy)) ?_ (fun _ _ => by
    exact Demanding.first (r := readClass TerrainBlock.fromBytes) (TerrainBlock.demanding v))
  exact NeedsW.first (r := readClass TerrainBlock.fromBytes) (TerrainBlock.needs h_terrain_block) hk

end Genie
