import Verif.Proof.Truncate
/-!
# Reading past the end of the data

Helper lemmas for C33: at the end of the data integers read as 0, so counts are 0 and lists are empty.
-/

namespace Genie

/-- The offset is at (or after) the end of the data. -/
def AtEnd (h : ByteHandler) : Prop := h.content.length ≤ h.offset

/-- At the end of the data, `r` returns `a` (and stays at the end). -/
def ReadsZero (r : Reader α) (Q : α → Prop) : Prop := ∀ h, AtEnd h → ∃ a h', r h = .ok (a, h') ∧ AtEnd h' ∧ Q a

theorem ReadsZero.pure {a : α} {Q : α → Prop} (hq : Q a) : ReadsZero (pure a : Reader α) Q :=
  fun h he => ⟨a, h, rfl, he, hq⟩

theorem ReadsZero.bind {r : Reader α} {f : α → Reader β} {P : α → Prop} {Q : β → Prop} (h1 : ReadsZero r P)
    (h2 : ∀ a, P a → ReadsZero (f a) Q) : ReadsZero (r >>= f) Q := by
  intro h he
  obtain ⟨a, h', hr, he', hp⟩ := h1 h he
  obtain ⟨b, h'', hr', he'', hq⟩ := h2 a hp h' he'
  exact ⟨b, h'', by rw [bind_ok hr, hr'], he'', hq⟩

theorem intFromBytes_nil (s : Bool) : intFromBytes [] s = 0 := by cases s <;> rfl

theorem consumeRange_atEnd {h : ByteHandler} (he : AtEnd h) (n : Nat) :
    ∃ h', consumeRange n h = .ok ([], h') ∧ AtEnd h' := by
  unfold AtEnd at *
  refine ⟨_, by unfold consumeRange; simp only [slice_eq, List.drop_of_length_le he, List.take_nil]; rfl, ?_⟩
  simp only; omega

theorem ReadsZero.int {n : Nat} {s : Bool} :
    ReadsZero (do let c ← consumeRange n; return Int_from_bytes c s : Reader Int) (fun i => i = 0) := by
  intro h he
  obtain ⟨h', h1, h2⟩ := consumeRange_atEnd he n
  exact ⟨0, h', by rw [bind_ok h1]; simp only [Int_from_bytes, intFromBytes_nil]; rfl, h2, rfl⟩

theorem ReadsZero.int8 : ReadsZero readInt8 (fun i => i = 0) := ReadsZero.int
theorem ReadsZero.int16 {s : Bool} : ReadsZero (readInt16 s) (fun i => i = 0) := ReadsZero.int
theorem ReadsZero.int32 {s : Bool} : ReadsZero (readInt32 s) (fun i => i = 0) := ReadsZero.int

theorem ReadsZero.noteLossy {b : Bool} : ReadsZero (Genie.noteLossy b) (fun _ => True) :=
  fun _ he => ⟨(), _, rfl, he, trivial⟩

/-- No elements. -/
theorem ReadsZero.empty {r : Reader α} {b : Bool} {n : Int} (hn : n = 0) :
    ReadsZero (readArray r n b) (fun l => l = []) := by
  subst hn
  exact ReadsZero.bind ReadsZero.noteLossy fun _ _ => ReadsZero.pure rfl

theorem ReadsZero.repeatR {r : Reader α} {Q : α → Prop} (h : ReadsZero r Q) (n : Nat) :
    ReadsZero (Genie.repeatR r n) (fun l => l.length = n) := by
  induction n with
  | zero => exact ReadsZero.pure rfl
  | succ n ih =>
    exact ReadsZero.bind h fun _ _ => ReadsZero.bind ih fun l hl => ReadsZero.pure (by simp [hl])

/-- Any number of elements, each of which reads at the end of the data. -/
theorem ReadsZero.array {r : Reader α} {Q : α → Prop} (h : ReadsZero r Q) (n : Int) (b : Bool) :
    ReadsZero (readArray r n b) (fun l => l.length = n.toNat) :=
  ReadsZero.bind ReadsZero.noteLossy fun _ _ => ReadsZero.repeatR h _

/-- A record reader that never raises. -/
theorem ReadsZero.class_ (c : RecordClass) (ht : Total c.fromBytes) : ReadsZero c.fromBytes (fun _ => True) := by
  intro h he
  obtain ⟨a, h', hr⟩ := ht h
  obtain ⟨n, l, rfl, -⟩ := (c.good h.version).ok rfl hr
  refine ⟨a, _, hr, ?_, trivial⟩
  unfold AtEnd at *
  simp only; omega

/-- There are constant bytes `b` such that `r`, on `b` followed by the four bytes of a number `n` and nothing else, returns
something related to `n`, and is then at the end of the data. -/
def Lands (v : Version) (r : Reader α) (Q : Nat → α → Prop) : Prop :=
  ∃ b, ∀ n, n < 4294967296 → ∀ h : ByteHandler, h.version = v → h.content.drop h.offset = b ++ natLE 4 n →
    ∃ a h', r h = .ok (a, h') ∧ AtEnd h' ∧ Q n a

theorem Lands.bind {v : Version} {r : Reader α} {f : α → Reader β} {w : Py Bytes} {a : α} {Q : Nat → β → Prop}
    (h1 : RW v r w a) (h2 : Lands v (f a) Q) : Lands v (r >>= f) Q := by
  obtain ⟨b1, -, r1⟩ := h1
  obtain ⟨b2, r2⟩ := h2
  refine ⟨b1 ++ b2, fun n hn h hv hp => ?_⟩
  rw [bind_ok (r1 h hv (by rw [hp]; exact ⟨b2 ++ natLE 4 n, by simp⟩))]
  refine r2 n hn { h with offset := h.offset + b1.length } hv ?_
  simp only
  rw [← List.drop_drop, hp]; simp

theorem Lands.bind0 {v : Version} {r : Reader α} {f : α → Reader β} {a : α} {Q : Nat → β → Prop}
    (h1 : Reads v r [] a) (h2 : Lands v (f a) Q) : Lands v (r >>= f) Q := by
  obtain ⟨b2, r2⟩ := h2
  refine ⟨b2, fun n hn h hv hp => ?_⟩
  rw [bind_ok (h1 h hv List.nil_prefix)]
  exact r2 n hn h hv hp

theorem Lands.andThen {v : Version} {r : Reader α} {f : α → Reader β} {P : Nat → α → Prop} {Q : Nat → β → Prop}
    (h1 : Lands v r P) (h2 : ∀ n a, P n a → ReadsZero (f a) (Q n)) : Lands v (r >>= f) Q := by
  obtain ⟨b, r1⟩ := h1
  refine ⟨b, fun n hn h hv hp => ?_⟩
  obtain ⟨a, h', e, he, hq⟩ := r1 n hn h hv hp
  rw [bind_ok e]
  exact h2 n a hq h' he

theorem Lands.mono {v : Version} {r : Reader α} {P Q : Nat → α → Prop} (h : Lands v r P) (hpq : ∀ n a, P n a → Q n a) :
    Lands v r Q := by
  obtain ⟨b, r1⟩ := h
  refine ⟨b, fun n hn h hv hp => ?_⟩
  obtain ⟨a, h', e, he, hq⟩ := r1 n hn h hv hp
  exact ⟨a, h', e, he, hpq _ _ hq⟩

/-- Reading the number itself. -/
theorem Lands.here {v : Version} : Lands v (readInt32 false) (fun n i => i = n) := by
  refine ⟨[], fun n hn h hv hp => ?_⟩
  have hi : IsU32 (n : Int) := by unfold IsU32; omega
  obtain ⟨bs, e, r⟩ := RW.uint32 (v := v) hi
  have hb : bs = natLE 4 n := by
    unfold writeInt32 Int_to_bytes intToBytes at e
    rw [if_neg (by simp), if_pos (by omega)] at e
    simpa using e.symm
  subst hb
  rw [List.nil_append] at hp
  have hl := congrArg List.length hp
  rw [List.length_drop, natLE_length] at hl
  refine ⟨n, _, r h hv (by rw [hp]; exact List.prefix_refl _), ?_, rfl⟩
  unfold AtEnd
  simp only [natLE_length]; omega

/-- A one-element list. -/
theorem Lands.single {v : Version} {r : Reader α} {P : Nat → α → Prop} {b : Bool} (h : Lands v r P) :
    Lands v (readArray r 1 b) (fun n l => ∃ a, l = [a] ∧ P n a) := by
  refine Lands.bind0 (Reads.noteLossy (by simp)) ?_
  refine Lands.andThen h fun n a ha => ?_
  exact ReadsZero.bind (ReadsZero.pure (Q := fun l => l = []) rfl) fun l hl => ReadsZero.pure ⟨a, by rw [hl], ha⟩

/-- A zero integer and its four zero bytes. -/
theorem RW.zero32 (v : Version) : RW v readInt32 (writeInt32 0) 0 := RW.int32 (by unfold IsI32; omega)

theorem MapInfo.lands (v : Version) : Lands v MapInfo.fromBytes (fun n m => m.map_lands.length = n) := by
  unfold MapInfo.fromBytes
  refine Lands.bind (RW.zero32 v) ?_
  refine Lands.bind (RW.zero32 v) ?_
  refine Lands.bind (RW.zero32 v) ?_
  refine Lands.bind (RW.zero32 v) ?_
  refine Lands.bind (RW.zero32 v) ?_
  refine Lands.bind (RW.zero32 v) ?_
  refine Lands.bind (RW.zero32 v) ?_
  refine Lands.bind (RW.zero32 v) ?_
  refine Lands.bind (RW.zero32 v) ?_
  refine Lands.bind (RW.zero32 v) ?_
  refine Lands.andThen Lands.here fun n i hi => ?_
  refine ReadsZero.bind ReadsZero.int32 fun _ _ => ?_
  refine ReadsZero.bind (ReadsZero.array (ReadsZero.class_ .MapLand MapLand.total) i _) fun l hl => ?_
  refine ReadsZero.bind ReadsZero.int32 fun n1 h1 => ?_
  refine ReadsZero.bind ReadsZero.int32 fun _ _ => ?_
  refine ReadsZero.bind (ReadsZero.empty h1) fun _ _ => ?_
  refine ReadsZero.bind ReadsZero.int32 fun n2 h2 => ?_
  refine ReadsZero.bind ReadsZero.int32 fun _ _ => ?_
  refine ReadsZero.bind (ReadsZero.empty h2) fun _ _ => ?_
  refine ReadsZero.bind ReadsZero.int32 fun n3 h3 => ?_
  refine ReadsZero.bind ReadsZero.int32 fun _ _ => ?_
  refine ReadsZero.bind (ReadsZero.empty h3) fun _ _ => ?_
  exact ReadsZero.pure (by simp only [hl, hi]; omega)

theorem RandomMaps.lands (v : Version) :
    Lands v RandomMaps.fromBytes (fun n x => ∃ m, x.map_info_1 = [m] ∧ m.map_lands.length = n) := by
  unfold RandomMaps.fromBytes
  refine Lands.bind (RW.uint32 (i := 1) (by unfold IsU32; omega)) ?_
  refine Lands.bind (RW.zero32 v) ?_
  refine Lands.andThen (Lands.single (MapInfo.lands v)) fun n l hl => ?_
  refine ReadsZero.bind (ReadsZero.array (ReadsZero.class_ .MapInfo MapInfo.total) 1 _) fun l2 _ => ?_
  exact ReadsZero.pure hl

set_option maxRecDepth 4000 in
/-- A file, from the version header on. -/
theorem DatFile.lands {v : Version} {x : DatFile} (h : DatFile.WFAt v x) :
    ∃ b, ∀ n, n < 4294967296 → ∀ h : ByteHandler, h.content.drop h.offset = b ++ natLE 4 n →
      ∃ d h', DatFile.fromBytes h = .ok (d, h') ∧ ∃ m, d.random_maps.map_info_1 = [m] ∧ m.map_lands.length = n := by
  obtain ⟨x_version, x_float_ptr_terrain_tables, x_terrain_pass_graphic_pointers, x_terrain_restrictions, x_player_colours, x_sounds, x_graphics, x_terrain_block, x_random_maps, x_effects, x_unit_headers, x_civs, x_techs, x_time_slice, x_unit_kill_rate, x_unit_kill_total, x_unit_hit_point_rate, x_unit_hit_point_total, x_razing_kill_rate, x_razing_kill_total, x_tech_tree⟩ := x
  obtain ⟨h_version, h_float_ptr_terrain_tables, h_terrain_pass_graphic_pointers, h_terrain_restrictions, h_player_colours, h_sounds, h_graphics, h_terrain_block, -, -, -, -, -, -, -, -, -, -, -, -, -⟩ := h
  dsimp only at h_version h_float_ptr_terrain_tables h_terrain_pass_graphic_pointers h_terrain_restrictions h_player_colours h_sounds h_graphics h_terrain_block
  obtain ⟨n, hn, h_tr⟩ := h_terrain_restrictions
  obtain ⟨n', hn', h_tr', hu⟩ : ∃ n' : Nat, n' ≤ 32767 ∧ AllOf (TerrainRestriction.WF v n') x_terrain_restrictions ∧
      usedOf x_terrain_restrictions = n' := by
    by_cases hl : x_terrain_restrictions = []
    · subst hl; exact ⟨0, by omega, by simp [AllOf], rfl⟩
    · exact ⟨n, hn, h_tr.2, terrains_used_isI16 h_tr.2 hl⟩
  have key : ∀ {body : PyStr → Reader DatFile},
      Lands v (body x_version) (fun n d => ∃ m, d.random_maps.map_info_1 = [m] ∧ m.map_lands.length = n) →
      ∃ b, ∀ n, n < 4294967296 → ∀ h : ByteHandler, h.content.drop h.offset = b ++ natLE 4 n →
      ∃ d h', (do
        let version ← readString 8
        let content_version ← Genie.liftPy (Version.ofStr version)
        setVersion content_version
        body version : Reader DatFile) h = .ok (d, h') ∧
          ∃ m, d.random_maps.map_info_1 = [m] ∧ m.map_lands.length = n := by
    intro body hb
    obtain ⟨h1, b1, e1, l1, d1⟩ := versionNames_spec h_version
    obtain ⟨b2, r2⟩ := hb
    refine ⟨b1 ++ b2, fun n hn hd hp => ?_⟩
    have hl := congrArg List.length hp
    rw [List.length_drop, List.length_append, List.length_append, natLE_length] at hl
    have ht : (hd.content.drop hd.offset).take 8 = b1 := by
      rw [hp, List.append_assoc, List.take_append_of_le_length (by omega), List.take_of_length_le (by omega)]
    rw [header_eq, ht, d1]
    simp only [h1]
    obtain ⟨a, h', q1, -, q3⟩ := r2 n hn { hd with offset := hd.offset + 8, version := v, lossy := hd.lossy || decide (hd.content.length < hd.offset + 8) } rfl (by
      simp only; rw [← List.drop_drop, hp, ← l1]; simp)
    exact ⟨a, h', q1, q3⟩
  unfold DatFile.fromBytes
  refine key ?_
  refine Lands.bind (RW.int16 (isI16_len h_tr.1)) ?_
  refine Lands.bind (RW.int16 (isI16_len hn')) ?_
  refine Lands.bind (RW.int32Array (by rw [h_float_ptr_terrain_tables.1]) h_float_ptr_terrain_tables.2) ?_
  refine Lands.bind (RW.int32Array (by rw [h_terrain_pass_graphic_pointers.1]) h_terrain_pass_graphic_pointers.2) ?_
  refine Lands.bind (RW.array rfl fun y hy => TerrainRestriction.rw (h_tr' y hy)) ?_
  refine Lands.bind0 (Reads.noteLossy (by
    rw [decide_eq_false]
    rintro ⟨rfl, h2⟩
    exact h2 hu.symm)) ?_
  refine Lands.bind (RW.int16 (isI16_len h_player_colours.1)) ?_
  refine Lands.bind (RW.classArray rfl fun y hy => PlayerColour.rw (h_player_colours.2 y hy)) ?_
  refine Lands.bind (RW.int16 (isI16_len h_sounds.1)) ?_
  refine Lands.bind (RW.classArray rfl fun y hy => Sound.rw (h_sounds.2 y hy)) ?_
  refine Lands.bind (RW.int16 (isI16_len h_graphics.1)) ?_
  refine Lands.bind (RW.int32Array (by rw [slotPointers_length]) (slotPointers_i32 _)) ?_
  refine Lands.bind (RW.classArrayWithPointers rfl rfl fun o ho y hy => Graphic.rw (h_graphics.2 o ho y hy)) ?_
  refine Lands.bind (RW.class_ (TerrainBlock.rw h_terrain_block)) ?_
  refine Lands.andThen (RandomMaps.lands v) fun n x hx => ?_
  refine ReadsZero.bind ReadsZero.int32 fun n1 h1 => ?_
  refine ReadsZero.bind (ReadsZero.empty h1) fun _ _ => ?_
  refine ReadsZero.bind ReadsZero.int32 fun n2 h2 => ?_
  refine ReadsZero.bind (ReadsZero.empty h2) fun _ _ => ?_
  refine ReadsZero.bind ReadsZero.int16 fun n3 h3 => ?_
  refine ReadsZero.bind (ReadsZero.empty h3) fun _ _ => ?_
  refine ReadsZero.bind ReadsZero.int16 fun n4 h4 => ?_
  refine ReadsZero.bind (ReadsZero.empty h4) fun _ _ => ?_
  refine ReadsZero.bind ReadsZero.int32 fun _ _ => ?_
  refine ReadsZero.bind ReadsZero.int32 fun _ _ => ?_
  refine ReadsZero.bind ReadsZero.int32 fun _ _ => ?_
  refine ReadsZero.bind ReadsZero.int32 fun _ _ => ?_
  refine ReadsZero.bind ReadsZero.int32 fun _ _ => ?_
  refine ReadsZero.bind ReadsZero.int32 fun _ _ => ?_
  refine ReadsZero.bind ReadsZero.int32 fun _ _ => ?_
  refine ReadsZero.bind (ReadsZero.class_ .TechTree TechTree.total) fun _ _ => ?_
  exact ReadsZero.pure hx

end Genie
