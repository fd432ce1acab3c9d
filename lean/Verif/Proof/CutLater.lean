import Verif.Proof.CutFile
import Verif.Proof.Records.DatFile
/-!
# Files that end at the end of a part
-/

namespace Genie

/-- `ws` gives some bytes; where they occur, `r` reads past them and goes on as `k`. -/
def Front (v : Version) (r : Reader β) (ws : List (Py Bytes)) (k : Reader β) : Prop :=
  ∃ b, joinB ws = .ok b ∧ ∀ h : ByteHandler, h.version = v → b <+: h.content.drop h.offset →
    r h = k { h with offset := h.offset + b.length }

theorem Front.nil {v : Version} {r k : Reader β} (h : r = k) : Front v r [] k := by
  subst h
  exact ⟨[], rfl, fun h _ _ => rfl⟩

theorem Front.bind {v : Version} {r : Reader α} {f : α → Reader β} {k : Reader β} {w : Py Bytes} {ws : List (Py Bytes)} {a : α}
    (h1 : RW v r w a) (h2 : Front v (f a) ws k) : Front v (r >>= f) (w :: ws) k := by
  obtain ⟨b1, e1, r1⟩ := h1
  obtain ⟨b2, e2, r2⟩ := h2
  refine ⟨b1 ++ b2, joinB_cons_ok e1 e2, ?_⟩
  intro h hv hp
  obtain ⟨p1, p2⟩ := drop_prefix hp
  rw [bind_ok (r1 h hv p1), r2 { h with offset := h.offset + b1.length } hv p2]
  simp [Nat.add_assoc]

theorem Front.bind0 {v : Version} {r : Reader α} {f : α → Reader β} {k : Reader β} {ws : List (Py Bytes)} {a : α}
    (h1 : Reads v r [] a) (h2 : Front v (f a) ws k) : Front v (r >>= f) ws k := by
  obtain ⟨b2, e2, r2⟩ := h2
  refine ⟨b2, e2, ?_⟩
  intro h hv hp
  rw [bind_ok (h1 h hv List.nil_prefix)]
  exact r2 h hv hp

theorem joinB_append_ok {a b : List (Py Bytes)} {x y : Bytes} (h1 : joinB a = .ok x) (h2 : joinB b = .ok y) :
    joinB (a ++ b) = .ok (x ++ y) := by
  rw [← joinB_append, joinB_cons_ok h1 h2]

theorem Front.trans {v : Version} {r k l : Reader β} {a b : List (Py Bytes)} (h1 : Front v r a k) (h2 : Front v k b l) :
    Front v r (a ++ b) l := by
  obtain ⟨b1, e1, r1⟩ := h1
  obtain ⟨b2, e2, r2⟩ := h2
  refine ⟨b1 ++ b2, joinB_append_ok e1 e2, ?_⟩
  intro h hv hp
  obtain ⟨p1, p2⟩ := drop_prefix hp
  rw [r1 h hv p1, r2 { h with offset := h.offset + b1.length } hv p2]
  simp [Nat.add_assoc]

/-- Like `Front`, for a reader that sets the version. -/
def FileFront (v : Version) (r : Reader β) (ws : List (Py Bytes)) (k : Reader β) : Prop :=
  ∃ b, joinB ws = .ok b ∧ ∀ h : ByteHandler, b <+: h.content.drop h.offset →
    r h = k { h with offset := h.offset + b.length, version := v }

theorem FileFront.header {s : PyStr} {v : Version} {body : PyStr → Reader β} {k : Reader β} {ws : List (Py Bytes)}
    (hs : (s, v) ∈ versionNames) (h : Front v (body s) ws k) :
    FileFront v (do
        let version ← readString 8
        let content_version ← Genie.liftPy (Version.ofStr version)
        setVersion content_version
        body version : Reader β) (writeString 8 s :: ws) k := by
  obtain ⟨h1, b1, e1, l1, d1⟩ := versionNames_spec hs
  obtain ⟨c1, e2, r2⟩ := h
  refine ⟨b1 ++ c1, joinB_cons_ok e1 e2, ?_⟩
  intro hd hp
  obtain ⟨p1, p2⟩ := drop_prefix hp
  have ht : (hd.content.drop hd.offset).take 8 = b1 := by
    obtain ⟨t, ht⟩ := p1
    rw [← ht, List.take_append_of_le_length (by omega), List.take_of_length_le (by omega)]
  have hl := p1.length_le
  rw [List.length_drop] at hl
  rw [header_eq, ht, d1]
  simp only [h1]
  rw [l1] at p2
  rw [r2 { hd with offset := hd.offset + 8, version := v,
                   lossy := hd.lossy || decide (hd.content.length < hd.offset + 8) } rfl p2]
  rw [decide_eq_false (by omega)]
  simp [Nat.add_assoc, l1]

theorem FileFront.trans {v : Version} {r k l : Reader β} {a b : List (Py Bytes)} (h1 : FileFront v r a k) (h2 : Front v k b l) :
    FileFront v r (a ++ b) l := by
  obtain ⟨b1, e1, r1⟩ := h1
  obtain ⟨b2, e2, r2⟩ := h2
  refine ⟨b1 ++ b2, joinB_append_ok e1 e2, ?_⟩
  intro h hp
  obtain ⟨p1, p2⟩ := drop_prefix hp
  rw [r1 h p1, r2 { h with offset := h.offset + b1.length, version := v } rfl p2]
  simp [Nat.add_assoc]

/-! ## the parts of the reader -/

/-- What is written up to the terrain block. -/
def DatFile.frontWs (v : Version) (x : DatFile) : List (Py Bytes) :=
  [writeString 8 x.version, writeInt16 x.terrain_restrictions.length, writeInt16 (usedOf x.terrain_restrictions),
   writeInt32Array x.float_ptr_terrain_tables, writeInt32Array x.terrain_pass_graphic_pointers,
   writeClassArray TerrainRestriction.toBytes x.terrain_restrictions v,
   writeInt16 x.player_colours.length, writeClassArray PlayerColour.toBytes x.player_colours v,
   writeInt16 x.sounds.length, writeClassArray Sound.toBytes x.sounds v,
   writeInt16 x.graphics.length, writeInt32Array (slotPointers x.graphics), writeClassArrayOpt Graphic.toBytes x.graphics v,
   writeClass TerrainBlock.toBytes x.terrain_block v]

theorem DatFile.toBytes_parts {v : Version} {x : DatFile} (h : DatFile.WFAt v x) :
    DatFile.toBytes x = joinB (DatFile.frontWs v x ++ DatFile.laterWs v x) := by
  unfold DatFile.toBytes DatFile.toBytesGiven
  simp only [(versionNames_spec h.version).1]
  rw [if_neg (by rw [h.float_ptr_terrain_tables.1, h.terrain_pass_graphic_pointers.1]; simp)]
  simp only [DatFile.graphic_pointers_eq, DatFile.terrains_used_eq]
  rfl

def DatFile.tailRest (x : DatFile) : Reader DatFile := do
  let time_slice ← readInt32
  let unit_kill_rate ← readInt32
  let unit_kill_total ← readInt32
  let unit_hit_point_rate ← readInt32
  let unit_hit_point_total ← readInt32
  let razing_kill_rate ← readInt32
  let razing_kill_total ← readInt32
  let tech_tree ← readClass TechTree.fromBytes
  return { x with
    time_slice := time_slice, unit_kill_rate := unit_kill_rate, unit_kill_total := unit_kill_total,
    unit_hit_point_rate := unit_hit_point_rate, unit_hit_point_total := unit_hit_point_total, razing_kill_rate := razing_kill_rate,
    razing_kill_total := razing_kill_total, tech_tree := tech_tree }

def DatFile.tailTechs (x : DatFile) : Reader DatFile := do
  let techs_size ← readInt16
  let techs ← readClassArray Tech.fromBytes techs_size
  DatFile.tailRest { x with techs := techs }

def DatFile.tailCivs (x : DatFile) : Reader DatFile := do
  let civs_size ← readInt16
  let civs ← readClassArray Civ.fromBytes civs_size
  DatFile.tailTechs { x with civs := civs }

def DatFile.tailUnitHeaders (x : DatFile) : Reader DatFile := do
  let unit_headers_size ← readInt32
  let unit_headers ← readClassArray UnitHeaders.fromBytes unit_headers_size
  DatFile.tailCivs { x with unit_headers := unit_headers }

def DatFile.tailEffects (x : DatFile) : Reader DatFile := do
  let effects_size ← readInt32
  let effects ← readClassArray Effect.fromBytes effects_size
  DatFile.tailUnitHeaders { x with effects := effects }

def DatFile.tailRandomMaps (x : DatFile) : Reader DatFile := do
  let random_maps ← readClass RandomMaps.fromBytes
  DatFile.tailEffects { x with random_maps := random_maps }

set_option maxRecDepth 4000 in
theorem DatFile.frontReads {v : Version} {x : DatFile} (h : DatFile.WFAt v x) :
    FileFront v DatFile.fromBytes (DatFile.frontWs v x) (DatFile.tailRandomMaps x) := by
  obtain ⟨x_version, x_float_ptr_terrain_tables, x_terrain_pass_graphic_pointers, x_terrain_restrictions, x_player_colours, x_sounds, x_graphics, x_terrain_block, x_random_maps, x_effects, x_unit_headers, x_civs, x_techs, x_time_slice, x_unit_kill_rate, x_unit_kill_total, x_unit_hit_point_rate, x_unit_hit_point_total, x_razing_kill_rate, x_razing_kill_total, x_tech_tree⟩ := x
  obtain ⟨h_version, h_float_ptr_terrain_tables, h_terrain_pass_graphic_pointers, h_terrain_restrictions, h_player_colours, h_sounds, h_graphics, h_terrain_block, h_random_maps, h_effects, h_unit_headers, h_civs, h_techs, h_time_slice, h_unit_kill_rate, h_unit_kill_total, h_unit_hit_point_rate, h_unit_hit_point_total, h_razing_kill_rate, h_razing_kill_total, h_tech_tree⟩ := h
  dsimp only at h_version h_float_ptr_terrain_tables h_terrain_pass_graphic_pointers h_terrain_restrictions h_player_colours h_sounds h_graphics h_terrain_block h_random_maps h_effects h_unit_headers h_civs h_techs h_time_slice h_unit_kill_rate h_unit_kill_total h_unit_hit_point_rate h_unit_hit_point_total h_razing_kill_rate h_razing_kill_total h_tech_tree
  obtain ⟨n, hn, h_tr⟩ := h_terrain_restrictions
  obtain ⟨n', hn', h_tr', hu⟩ : ∃ n' : Nat, n' ≤ 32767 ∧ AllOf (TerrainRestriction.WF v n') x_terrain_restrictions ∧
      usedOf x_terrain_restrictions = n' := by
    by_cases hl : x_terrain_restrictions = []
    · subst hl; exact ⟨0, by omega, by simp [AllOf], rfl⟩
    · exact ⟨n, hn, h_tr.2, terrains_used_isI16 h_tr.2 hl⟩
  unfold DatFile.fromBytes
  unfold DatFile.frontWs
  simp only [hu]
  refine FileFront.header h_version ?_
  refine Front.bind (RW.int16 (isI16_len h_tr.1)) ?_
  refine Front.bind (RW.int16 (isI16_len hn')) ?_
  refine Front.bind (RW.int32Array (by rw [h_float_ptr_terrain_tables.1]) h_float_ptr_terrain_tables.2) ?_
  refine Front.bind (RW.int32Array (by rw [h_terrain_pass_graphic_pointers.1]) h_terrain_pass_graphic_pointers.2) ?_
  refine Front.bind (RW.array rfl fun y hy => TerrainRestriction.rw (h_tr' y hy)) ?_
  refine Front.bind0 (Reads.noteLossy (by
    rw [decide_eq_false]
    rintro ⟨rfl, h2⟩
    exact h2 hu.symm)) ?_
  refine Front.bind (RW.int16 (isI16_len h_player_colours.1)) ?_
  refine Front.bind (RW.classArray rfl fun y hy => PlayerColour.rw (h_player_colours.2 y hy)) ?_
  refine Front.bind (RW.int16 (isI16_len h_sounds.1)) ?_
  refine Front.bind (RW.classArray rfl fun y hy => Sound.rw (h_sounds.2 y hy)) ?_
  refine Front.bind (RW.int16 (isI16_len h_graphics.1)) ?_
  refine Front.bind (RW.int32Array (by rw [slotPointers_length]) (slotPointers_i32 _)) ?_
  refine Front.bind (RW.classArrayWithPointers rfl rfl fun o ho y hy => Graphic.rw (h_graphics.2 o ho y hy)) ?_
  refine Front.bind (RW.class_ (TerrainBlock.rw h_terrain_block)) ?_
  exact Front.nil rfl

theorem DatFile.readsRandomMaps {v : Version} {x : DatFile} (h : DatFile.WFAt v x) :
    Front v (DatFile.tailRandomMaps x) [writeClass RandomMaps.toBytes x.random_maps v] (DatFile.tailEffects x) :=
  Front.bind (RW.class_ (RandomMaps.rw h.random_maps)) (Front.nil rfl)

theorem DatFile.readsEffects {v : Version} {x : DatFile} (h : DatFile.WFAt v x) :
    Front v (DatFile.tailEffects x) [writeInt32 x.effects.length, writeClassArray Effect.toBytes x.effects v] (DatFile.tailUnitHeaders x) :=
  Front.bind (RW.int32 (isI32_len h.effects.1)) (Front.bind (RW.classArray rfl fun y hy => Effect.rw (h.effects.2 y hy)) (Front.nil rfl))

theorem DatFile.readsUnitHeaders {v : Version} {x : DatFile} (h : DatFile.WFAt v x) :
    Front v (DatFile.tailUnitHeaders x) [writeInt32 x.unit_headers.length, writeClassArray UnitHeaders.toBytes x.unit_headers v]
      (DatFile.tailCivs x) :=
  Front.bind (RW.int32 (isI32_len h.unit_headers.1))
    (Front.bind (RW.classArray rfl fun y hy => UnitHeaders.rw (h.unit_headers.2 y hy)) (Front.nil rfl))

theorem DatFile.readsCivs {v : Version} {x : DatFile} (h : DatFile.WFAt v x) :
    Front v (DatFile.tailCivs x) [writeInt16 x.civs.length, writeClassArray Civ.toBytes x.civs v] (DatFile.tailTechs x) :=
  Front.bind (RW.int16 (isI16_len h.civs.1)) (Front.bind (RW.classArray rfl fun y hy => Civ.rw (h.civs.2 y hy)) (Front.nil rfl))

theorem DatFile.readsTechs {v : Version} {x : DatFile} (h : DatFile.WFAt v x) :
    Front v (DatFile.tailTechs x) [writeInt16 x.techs.length, writeClassArray Tech.toBytes x.techs v] (DatFile.tailRest x) :=
  Front.bind (RW.int16 (isI16_len h.techs.1)) (Front.bind (RW.classArray rfl fun y hy => Tech.rw (h.techs.2 y hy)) (Front.nil rfl))

/-! ## reading where nothing is left -/

/-- Started at or past the end of the data, `r` returns `a` (and the handler is still there). -/
def EndsAs (r : Reader α) (a : α) : Prop :=
  ∀ h : ByteHandler, h.content.length ≤ h.offset → ∃ h', r h = .ok (a, h') ∧ h'.content.length ≤ h'.offset

theorem EndsAs.pure (a : α) : EndsAs (pure a : Reader α) a := fun h hp => ⟨h, rfl, hp⟩

theorem EndsAs.bind {r : Reader α} {f : α → Reader β} {a : α} {b : β} (h1 : EndsAs r a) (h2 : EndsAs (f a) b) : EndsAs (r >>= f) b := by
  intro h hp
  obtain ⟨h', e1, p1⟩ := h1 h hp
  obtain ⟨h'', e2, p2⟩ := h2 h' p1
  exact ⟨h'', by rw [bind_ok e1, e2], p2⟩

theorem EndsAs.intRead (n : Nat) (s : Bool) : EndsAs (do let c ← consumeRange n; return Int_from_bytes c s) 0 := by
  intro h hp
  have : slice h.content h.offset (h.offset + n) = [] := by
    rw [slice_eq, List.drop_of_length_le hp]; simp
  refine ⟨{ h with offset := h.offset + n, lossy := h.lossy || decide (0 < n ∧ h.content.length < h.offset + n) }, ?_, by simp only; omega⟩
  show Except.ok (Int_from_bytes (slice h.content h.offset (h.offset + n)) s, _) = _
  rw [this]
  congr 2
  cases s <;> rfl

theorem EndsAs.int8 : EndsAs readInt8 0 := EndsAs.intRead _ _
theorem EndsAs.int16 {s : Bool} : EndsAs (readInt16 s) 0 := EndsAs.intRead _ _
theorem EndsAs.int32 {s : Bool} : EndsAs (readInt32 s) 0 := EndsAs.intRead _ _

theorem EndsAs.array0 {r : Reader α} {b : Bool} : EndsAs (readArray r 0 b) [] := by
  intro h hp
  exact ⟨{ h with lossy := h.lossy || (!b && decide ((0 : Int) < 0)) }, rfl, hp⟩

theorem TechTree.atEnd : EndsAs TechTree.fromBytes TechTree.zero := by
  unfold TechTree.fromBytes
  refine EndsAs.bind EndsAs.int8 ?_
  refine EndsAs.bind EndsAs.int8 ?_
  refine EndsAs.bind EndsAs.int8 ?_
  refine EndsAs.bind EndsAs.int8 ?_
  refine EndsAs.bind EndsAs.int32 ?_
  refine EndsAs.bind EndsAs.array0 ?_
  refine EndsAs.bind EndsAs.array0 ?_
  refine EndsAs.bind EndsAs.array0 ?_
  refine EndsAs.bind EndsAs.array0 ?_
  exact EndsAs.pure _

theorem RandomMaps.atEnd : EndsAs RandomMaps.fromBytes { random_maps_ptr := 0, map_info_1 := [], map_info_2 := [] } := by
  unfold RandomMaps.fromBytes
  refine EndsAs.bind EndsAs.int32 ?_
  refine EndsAs.bind EndsAs.int32 ?_
  refine EndsAs.bind EndsAs.array0 ?_
  refine EndsAs.bind EndsAs.array0 ?_
  exact EndsAs.pure _

theorem DatFile.restAtEnd (x : DatFile) : EndsAs (DatFile.tailRest x) (x.without .rest) := by
  unfold DatFile.tailRest
  refine EndsAs.bind EndsAs.int32 ?_
  refine EndsAs.bind EndsAs.int32 ?_
  refine EndsAs.bind EndsAs.int32 ?_
  refine EndsAs.bind EndsAs.int32 ?_
  refine EndsAs.bind EndsAs.int32 ?_
  refine EndsAs.bind EndsAs.int32 ?_
  refine EndsAs.bind EndsAs.int32 ?_
  refine EndsAs.bind (r := readClass TechTree.fromBytes) TechTree.atEnd ?_
  exact EndsAs.pure _

theorem DatFile.techsAtEnd (x : DatFile) : EndsAs (DatFile.tailTechs x) (x.without .techs) :=
  EndsAs.bind EndsAs.int16 (EndsAs.bind EndsAs.array0 (DatFile.restAtEnd { x with techs := [] }))
theorem DatFile.civsAtEnd (x : DatFile) : EndsAs (DatFile.tailCivs x) (x.without .civs) :=
  EndsAs.bind EndsAs.int16 (EndsAs.bind EndsAs.array0 (DatFile.techsAtEnd { x with civs := [] }))
theorem DatFile.unitHeadersAtEnd (x : DatFile) : EndsAs (DatFile.tailUnitHeaders x) (x.without .unit_headers) :=
  EndsAs.bind EndsAs.int32 (EndsAs.bind EndsAs.array0 (DatFile.civsAtEnd { x with unit_headers := [] }))
theorem DatFile.effectsAtEnd (x : DatFile) : EndsAs (DatFile.tailEffects x) (x.without .effects) :=
  EndsAs.bind EndsAs.int32 (EndsAs.bind EndsAs.array0 (DatFile.unitHeadersAtEnd { x with effects := [] }))
theorem DatFile.randomMapsAtEnd (x : DatFile) : EndsAs (DatFile.tailRandomMaps x) (x.without .random_maps) :=
  EndsAs.bind (r := readClass RandomMaps.fromBytes) RandomMaps.atEnd (DatFile.effectsAtEnd { x with random_maps := ⟨0, [], []⟩ })

/-! ## the parts -/

/-- What is written before a part. -/
def LaterPart.before (v : Version) (x : DatFile) : LaterPart → List (Py Bytes)
  | .random_maps => DatFile.frontWs v x
  | .effects => DatFile.frontWs v x ++
      [writeClass RandomMaps.toBytes x.random_maps v]
  | .unit_headers => DatFile.frontWs v x ++
      [writeClass RandomMaps.toBytes x.random_maps v] ++
      [writeInt32 x.effects.length, writeClassArray Effect.toBytes x.effects v]
  | .civs => DatFile.frontWs v x ++
      [writeClass RandomMaps.toBytes x.random_maps v] ++
      [writeInt32 x.effects.length, writeClassArray Effect.toBytes x.effects v] ++
      [writeInt32 x.unit_headers.length, writeClassArray UnitHeaders.toBytes x.unit_headers v]
  | .techs => DatFile.frontWs v x ++
      [writeClass RandomMaps.toBytes x.random_maps v] ++
      [writeInt32 x.effects.length, writeClassArray Effect.toBytes x.effects v] ++
      [writeInt32 x.unit_headers.length, writeClassArray UnitHeaders.toBytes x.unit_headers v] ++
      [writeInt16 x.civs.length, writeClassArray Civ.toBytes x.civs v]
  | .rest => DatFile.frontWs v x ++
      [writeClass RandomMaps.toBytes x.random_maps v] ++
      [writeInt32 x.effects.length, writeClassArray Effect.toBytes x.effects v] ++
      [writeInt32 x.unit_headers.length, writeClassArray UnitHeaders.toBytes x.unit_headers v] ++
      [writeInt16 x.civs.length, writeClassArray Civ.toBytes x.civs v] ++
      [writeInt16 x.techs.length, writeClassArray Tech.toBytes x.techs v]

/-- How the reader goes on from a part. -/
def LaterPart.tail (x : DatFile) : LaterPart → Reader DatFile
  | .random_maps => DatFile.tailRandomMaps x
  | .effects => DatFile.tailEffects x
  | .unit_headers => DatFile.tailUnitHeaders x
  | .civs => DatFile.tailCivs x
  | .techs => DatFile.tailTechs x
  | .rest => DatFile.tailRest x

theorem LaterPart.reads {v : Version} {x : DatFile} (h : DatFile.WFAt v x) (p : LaterPart) :
    FileFront v DatFile.fromBytes (p.before v x) (p.tail x) := by
  have h0 := DatFile.frontReads h
  have h1 := h0.trans (DatFile.readsRandomMaps h)
  have h2 := h1.trans (DatFile.readsEffects h)
  have h3 := h2.trans (DatFile.readsUnitHeaders h)
  have h4 := h3.trans (DatFile.readsCivs h)
  have h5 := h4.trans (DatFile.readsTechs h)
  cases p
  · exact h0
  · exact h1
  · exact h2
  · exact h3
  · exact h4
  · exact h5

theorem LaterPart.atEnd (x : DatFile) (p : LaterPart) : EndsAs (p.tail x) (x.without p) := by
  cases p
  · exact DatFile.randomMapsAtEnd x
  · exact DatFile.effectsAtEnd x
  · exact DatFile.unitHeadersAtEnd x
  · exact DatFile.civsAtEnd x
  · exact DatFile.techsAtEnd x
  · exact DatFile.restAtEnd x

/-- What is written from a part on. -/
def LaterPart.after (v : Version) (x : DatFile) : LaterPart → List (Py Bytes)
  | .rest => DatFile.restWs v x
  | .techs => [writeInt16 x.techs.length, writeClassArray Tech.toBytes x.techs v] ++ DatFile.restWs v x
  | .civs => [writeInt16 x.civs.length, writeClassArray Civ.toBytes x.civs v] ++
      ([writeInt16 x.techs.length, writeClassArray Tech.toBytes x.techs v] ++ DatFile.restWs v x)
  | .unit_headers => [writeInt32 x.unit_headers.length, writeClassArray UnitHeaders.toBytes x.unit_headers v] ++
      ([writeInt16 x.civs.length, writeClassArray Civ.toBytes x.civs v] ++
      ([writeInt16 x.techs.length, writeClassArray Tech.toBytes x.techs v] ++ DatFile.restWs v x))
  | .effects => [writeInt32 x.effects.length, writeClassArray Effect.toBytes x.effects v] ++
      ([writeInt32 x.unit_headers.length, writeClassArray UnitHeaders.toBytes x.unit_headers v] ++
      ([writeInt16 x.civs.length, writeClassArray Civ.toBytes x.civs v] ++
      ([writeInt16 x.techs.length, writeClassArray Tech.toBytes x.techs v] ++ DatFile.restWs v x)))
  | .random_maps => [writeClass RandomMaps.toBytes x.random_maps v] ++
      ([writeInt32 x.effects.length, writeClassArray Effect.toBytes x.effects v] ++
      ([writeInt32 x.unit_headers.length, writeClassArray UnitHeaders.toBytes x.unit_headers v] ++
      ([writeInt16 x.civs.length, writeClassArray Civ.toBytes x.civs v] ++
      ([writeInt16 x.techs.length, writeClassArray Tech.toBytes x.techs v] ++ DatFile.restWs v x))))

theorem LaterPart.toBytes {v : Version} {x : DatFile} (h : DatFile.WFAt v x) (p : LaterPart) :
    DatFile.toBytes x = joinB (p.before v x ++ p.after v x) := by
  rw [DatFile.toBytes_parts h]
  cases p <;> simp only [LaterPart.before, LaterPart.after, List.append_assoc, List.cons_append, List.nil_append] <;> rfl

theorem LaterPart.before_without (v : Version) (x : DatFile) (p : LaterPart) : p.before v (x.without p) = p.before v x := by
  cases p <;> rfl

theorem LaterPart.without_wf {v : Version} {x : DatFile} (h : DatFile.WFAt v x) (p : LaterPart) : DatFile.WFAt v (x.without p) := by
  have ht : TechTree.WF v TechTree.zero := by
    refine ⟨by decide, ⟨by decide, ?_⟩, ⟨by decide, ?_⟩, ⟨by decide, ?_⟩, ⟨by decide, ?_⟩⟩ <;> intro y hy <;> cases hy
  have hz : IsI32 0 := by decide
  have e1 : UpTo 32767 (Tech.WF v) [] := ⟨by decide, fun y hy => (by cases hy)⟩
  have e2 : UpTo 32767 (Civ.WF v) [] := ⟨by decide, fun y hy => (by cases hy)⟩
  have e3 : UpTo 2147483647 (UnitHeaders.WF v) [] := ⟨by decide, fun y hy => (by cases hy)⟩
  have e4 : UpTo 2147483647 (Effect.WF v) [] := ⟨by decide, fun y hy => (by cases hy)⟩
  have e5 : RandomMaps.WF v ⟨0, [], []⟩ := by
    constructor <;> first | decide | exact ⟨by decide, fun y hy => (by cases hy)⟩ | rfl
  have hr : DatFile.WFAt v (x.without .rest) := { h with
    time_slice := hz, unit_kill_rate := hz, unit_kill_total := hz, unit_hit_point_rate := hz, unit_hit_point_total := hz,
    razing_kill_rate := hz, razing_kill_total := hz, tech_tree := ht }
  cases p
  · exact { hr with techs := e1, civs := e2, unit_headers := e3, effects := e4, random_maps := e5 }
  · exact { hr with techs := e1, civs := e2, unit_headers := e3, effects := e4 }
  · exact { hr with techs := e1, civs := e2, unit_headers := e3 }
  · exact { hr with techs := e1, civs := e2 }
  · exact { hr with techs := e1 }
  · exact hr

theorem zeros32 : writeInt32 0 = .ok [0, 0, 0, 0] := rfl
theorem zeros32u : writeInt32 0 false = .ok [0, 0, 0, 0] := rfl
theorem zeros16 : writeInt16 0 = .ok [0, 0] := rfl
theorem zeros8 : writeInt8 0 = .ok [0] := rfl
theorem zerosTree (v : Version) : TechTree.toBytes v TechTree.zero = .ok [0, 0, 0, 0, 0, 0, 0, 0] := by
  simp only [TechTree.toBytes, TechTree.zero, List.length_nil, Int.cast_ofNat_Int, zeros8, zeros32, writeClassArray, List.map_nil, joinB]
  rfl
theorem zerosMaps (v : Version) : RandomMaps.toBytes v ⟨0, [], []⟩ = .ok [0, 0, 0, 0, 0, 0, 0, 0] := by
  simp only [RandomMaps.toBytes, List.length_nil, Int.cast_ofNat_Int, zeros32u, zeros32, writeClassArray, List.map_nil, joinB]
  rfl

theorem LaterPart.after_without (v : Version) (x : DatFile) (p : LaterPart) :
    joinB (p.after v (x.without p)) = .ok (List.replicate p.zeros 0) := by
  cases p <;>
    simp only [LaterPart.after, DatFile.without, DatFile.restWs, writeClass, writeClassArray, List.map_nil, List.length_nil,
      Int.cast_ofNat_Int, List.cons_append, List.nil_append, zeros32, zeros16, zerosTree, zerosMaps, joinB] <;> rfl

end Genie
