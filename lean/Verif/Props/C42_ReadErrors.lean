import Verif.Proof.Utf8Table
import Verif.Proof.StreamClasses
import Verif.Proof.Avoids
import Verif.Model.Io
import Verif.Props.C08_C10_Readers
/-!
# C42: when exactly a read raises
-/

namespace Genie

theorem rstripNul_stripped (c : Bytes) : StrippedOf (rstripNul c) c := ⟨rstripNul_getLast? c, _, rstripNul_append c⟩

theorem StrippedOf.eq {s c : Bytes} (h : StrippedOf s c) : rstripNul c = s := by
  obtain ⟨h, k, rfl⟩ := h
  rw [rstripNul_append_replicate, rstripNul_eq_self.2 h]

theorem range_eq (n : Nat) (h : ByteHandler) : slice h.content h.offset (h.offset + n) = (h.content.drop h.offset).take n := by
  unfold slice
  rw [List.drop_take]; congr; omega

theorem liftPy_error {x : Py α} {h : ByteHandler} {e : PyErr} : liftPy x h = .error e ↔ x = .error e := by
  cases x <;> simp [liftPy]

theorem errorOf_liftPy (x : Py α) (h : ByteHandler) : errorOf (liftPy x h) = errorOf x := by
  cases x <;> rfl

/-- `read_int_8`, `read_int_16`, `read_int_32` never raise, whatever the data; behind the end of the data they return 0. -/
theorem C42_ints_never_raise (h : ByteHandler) (s : Bool) :
    (∃ i h', readInt8 h = .ok (i, h') ∧ MovedBy 1 h h' ∧ (h.content.length ≤ h.offset → i = 0)) ∧
    (∃ i h', readInt16 s h = .ok (i, h') ∧ MovedBy 2 h h' ∧ (h.content.length ≤ h.offset → i = 0)) ∧
    (∃ i h', readInt32 s h = .ok (i, h') ∧ MovedBy 4 h h' ∧ (h.content.length ≤ h.offset → i = 0)) := by
  have key : ∀ n t, h.content.length ≤ h.offset → Int_from_bytes (slice h.content h.offset (h.offset + n)) t = 0 := by
    intro n t hl
    rw [range_eq, List.drop_eq_nil_of_le hl]
    cases t <;> simp [Int_from_bytes, intFromBytes, leNat]
  exact ⟨⟨_, _, rfl, ⟨rfl, rfl, rfl⟩, key _ _⟩, ⟨_, _, rfl, ⟨rfl, rfl, rfl⟩, key _ _⟩, ⟨_, _, rfl, ⟨rfl, rfl, rfl⟩, key _ _⟩⟩

/-- `read_float` raises exactly if fewer than four bytes are left, and then `struct.error`. -/
theorem C42_float_raises_iff (h : ByteHandler) (e : PyErr) :
    readFloat h = .error e ↔ e = .structError ∧ h.content.length < h.offset + 4 := by
  have hl : (slice h.content h.offset (h.offset + 4)).length = 4 ↔ ¬ h.content.length < h.offset + 4 := by
    rw [range_eq, List.length_take, List.length_drop]; omega
  show liftPy (Float_from_bytes (slice h.content h.offset (h.offset + 4))) _ = .error e ↔ _
  rw [liftPy_error]
  unfold Float_from_bytes unpackNativeF
  rw [ite_congr (propext hl) (fun _ => rfl) (fun _ => rfl)]
  by_cases hc : h.content.length < h.offset + 4 <;> simp [hc, eq_comm]

/-- A packed record, `struct.unpack(fmt, content.consume_range(n))`, raises exactly if fewer than `n` bytes are left. -/
theorem C42_unpack_raises_iff (fmt : String) (n : Nat) (hf : (parseFmt fmt).map codesSize = some n) (h : ByteHandler) (e : PyErr)
    (hn : 0 < n) : unpackFrom fmt n h = .error e ↔ e = .structError ∧ h.content.length < h.offset + n := by
  have hl : (slice h.content h.offset (h.offset + n)).length = n ↔ ¬ h.content.length < h.offset + n := by
    rw [range_eq, List.length_take, List.length_drop]; omega
  show liftPy (structUnpack fmt (slice h.content h.offset (h.offset + n))) _ = .error e ↔ _
  rw [liftPy_error]
  unfold structUnpack
  cases hp : parseFmt fmt with
  | none => rw [hp] at hf; simp at hf
  | some cs =>
    rw [hp] at hf
    simp only [Option.map_some, Option.some.injEq] at hf
    simp only [hf, hl]
    by_cases hc : h.content.length < h.offset + n <;> simp [hc, eq_comm]

/-- `read_string(n)` raises exactly if the up to `n` bytes that are left, without their NULs at the end, are not well-formed UTF-8. -/
theorem C42_string_raises_iff (h : ByteHandler) (n : Nat) (s : Bytes) (hs : StrippedOf s ((h.content.drop h.offset).take n)) (e : PyErr) :
    readString n h = .error e ↔ e = .unicodeDecodeError ∧ ¬ WellFormedUtf8 s := by
  rw [← strDecode_error_iff, ← hs.eq, ← range_eq]
  show liftPy (strDecode (rstripNul (slice h.content h.offset (h.offset + n)))) _ = .error e ↔ _
  rw [liftPy_error]

theorem uint16_eq (c : Bytes) : Int_from_bytes c false = leNat c := by
  simp [Int_from_bytes, intFromBytes]

theorem marker_iff (c : Bytes) (hc : c.length ≤ 2) : Int_from_bytes c false ≠ 0x0A60 ↔ c ≠ [0x60, 0x0A] := by
  rw [uint16_eq c]
  constructor
  · rintro h rfl; exact h rfl
  · intro h he
    apply h
    match c, hc with
    | [], _ => simp [leNat] at he
    | [a], _ =>
      simp only [leNat] at he
      have := a.toNat_lt
      omega
    | [a, b], _ =>
      simp only [leNat] at he
      have := a.toNat_lt
      have := b.toNat_lt
      have e1 : a.toNat = 96 := by omega
      have e2 : b.toNat = 10 := by omega
      rw [show a = 0x60 from UInt8.toNat_inj.1 e1, show b = 0x0A from UInt8.toNat_inj.1 e2]

theorem ite_reader {c : Prop} [Decidable c] (r1 r2 : Reader α) (h : ByteHandler) :
    (if c then r1 else r2 : Reader α) h = if c then r1 h else r2 h := by split <;> rfl

theorem readDebugString_eq (h : ByteHandler) : errorOf (readDebugString h) =
    if Int_from_bytes ((h.content.drop h.offset).take 2) false ≠ 0x0A60 then some .assertionError
    else errorOf (strDecode (rstripNul ((h.content.drop (h.offset + 4)).take
      (Int_from_bytes ((h.content.drop (h.offset + 2)).take 2) false).toNat))) := by
  have e1 : readDebugString h =
      (if Int_from_bytes (slice h.content h.offset (h.offset + 2)) false ≠ 0x0A60 then raise .assertionError
        else do
          let size ← readInt16 (signed := false)
          let c ← consumeRange size.toNat
          noteLossy (decide (rstripNul c ≠ c))
          liftPy (String_from_bytes c) : Reader PyStr)
        ⟨h.content, h.offset + 2, h.version, h.lossy || decide (0 < 2 ∧ h.content.length < h.offset + 2)⟩ := rfl
  rw [e1, ite_reader, range_eq]
  split
  · rfl
  · have e2 := range_eq 2 ⟨h.content, h.offset + 2, h.version, false⟩
    have e3 := fun n => range_eq n ⟨h.content, h.offset + 2 + 2, h.version, false⟩
    simp only at e2 e3
    rw [show h.offset + 4 = h.offset + 2 + 2 from rfl, ← e2, ← e3]
    exact errorOf_liftPy _ _

/-- `read_debug_string` raises `AssertionError` exactly if the next two bytes are not 60 0A, and `UnicodeDecodeError` exactly if they are,
and the payload (as many bytes as the following two bytes say, or as are left), without its NULs at the end, is not well-formed UTF-8. -/
theorem C42_debug_string_raises_iff (h : ByteHandler) (s : Bytes)
    (hs : StrippedOf s ((h.content.drop (h.offset + 4)).take (leNat ((h.content.drop (h.offset + 2)).take 2)))) (e : PyErr) :
    readDebugString h = .error e ↔
      e = .assertionError ∧ (h.content.drop h.offset).take 2 ≠ [0x60, 0x0A] ∨
      e = .unicodeDecodeError ∧ (h.content.drop h.offset).take 2 = [0x60, 0x0A] ∧ ¬ WellFormedUtf8 s := by
  have h1 : readDebugString h = .error e ↔ errorOf (readDebugString h) = some e := by
    cases readDebugString h <;> simp [errorOf]
  have h2 : ((h.content.drop h.offset).take 2).length ≤ 2 := by rw [List.length_take]; omega
  rw [h1, readDebugString_eq, uint16_eq ((h.content.drop (h.offset + 2)).take 2), Int.toNat_natCast, hs.eq]
  by_cases hm : (h.content.drop h.offset).take 2 = [0x60, 0x0A]
  · rw [if_neg (by rw [marker_iff _ h2]; simpa using hm)]
    have : errorOf (strDecode s) = some e ↔ strDecode s = .error e := by cases strDecode s <;> simp [errorOf]
    rw [this, strDecode_error_iff]
    simp [hm]
  · rw [if_pos (by rw [marker_iff _ h2]; exact hm)]
    simp [hm, eq_comm]

/-! ## records -/

theorem RecordClass.noText (c : RecordClass) (hc : c.hasTexts = false) : Avoids TextErr c.fromBytes := by
  cases c with
  | EffectCommand => exact EffectCommand.noText
  | Effect => exact (nomatch hc)
  | SoundItem => exact (nomatch hc)
  | Sound => exact (nomatch hc)
  | PlayerColour => exact PlayerColour.noText
  | GraphicDelta => exact GraphicDelta.noText
  | GraphicAngleSound => exact GraphicAngleSound.noText
  | Graphic => exact (nomatch hc)
  | TerrainPassGraphic => exact TerrainPassGraphic.noText
  | FrameData => exact FrameData.noText
  | Terrain => exact (nomatch hc)
  | TileSize => exact TileSize.noText
  | TerrainBlock => exact (nomatch hc)
  | MapUnit => exact MapUnit.noText
  | MapTerrain => exact MapTerrain.noText
  | MapLand => exact MapLand.noText
  | MapElevation => exact MapElevation.noText
  | MapInfo => exact MapInfo.noText
  | RandomMaps => exact RandomMaps.noText
  | ResearchResourceCost => exact ResearchResourceCost.noText
  | ResearchLocation => exact ResearchLocation.noText
  | Tech => exact (nomatch hc)
  | Common => exact Common.noText
  | TechTreeAge => exact TechTreeAge.noText
  | BuildingConnection => exact BuildingConnection.noText
  | UnitConnection => exact UnitConnection.noText
  | ResearchConnection => exact ResearchConnection.noText
  | TechTree => exact TechTree.noText
  | ResourceStorage => exact ResourceStorage.noText
  | DamageGraphic => exact DamageGraphic.noText
  | DeadFish => exact DeadFish.noText
  | Task => exact Task.noText
  | Bird => exact Bird.noText
  | AttackOrArmor => exact AttackOrArmor.noText
  | Type50 => exact Type50.noText
  | Projectile => exact Projectile.noText
  | ResourceCost => exact ResourceCost.noText
  | TrainLocation => exact TrainLocation.noText
  | Creatable => exact Creatable.noText
  | BuildingAnnex => exact BuildingAnnex.noText
  | Building => exact Building.noText
  | Unit => exact (nomatch hc)
  | UnitHeaders => exact UnitHeaders.noText
  | Civ => exact (nomatch hc)
  | TerrainRestriction n => exact TerrainRestriction.noText _

theorem TerrainRestriction.noData_zero : Avoids DataErr (TerrainRestriction.fromBytesWithCount 0) := fun _ _ h => by cases h

theorem RecordClass.noData (c : RecordClass) (hc : c.noFloats = true) : Avoids DataErr c.fromBytes := by
  cases c with
  | EffectCommand => exact (nomatch hc)
  | Effect => exact (nomatch hc)
  | SoundItem => exact SoundItem.noData
  | Sound => exact Sound.noData
  | PlayerColour => exact PlayerColour.noData
  | GraphicDelta => exact GraphicDelta.noData
  | GraphicAngleSound => exact GraphicAngleSound.noData
  | Graphic => exact (nomatch hc)
  | TerrainPassGraphic => exact TerrainPassGraphic.noData
  | FrameData => exact FrameData.noData
  | Terrain => exact (nomatch hc)
  | TileSize => exact TileSize.noData
  | TerrainBlock => exact (nomatch hc)
  | MapUnit => exact MapUnit.noData
  | MapTerrain => exact MapTerrain.noData
  | MapLand => exact MapLand.noData
  | MapElevation => exact MapElevation.noData
  | MapInfo => exact MapInfo.noData
  | RandomMaps => exact RandomMaps.noData
  | ResearchResourceCost => exact ResearchResourceCost.noData
  | ResearchLocation => exact ResearchLocation.noData
  | Tech => exact Tech.noData
  | Common => exact Common.noData
  | TechTreeAge => exact TechTreeAge.noData
  | BuildingConnection => exact BuildingConnection.noData
  | UnitConnection => exact UnitConnection.noData
  | ResearchConnection => exact ResearchConnection.noData
  | TechTree => exact TechTree.noData
  | ResourceStorage => exact (nomatch hc)
  | DamageGraphic => exact (nomatch hc)
  | DeadFish => exact (nomatch hc)
  | Task => exact (nomatch hc)
  | Bird => exact (nomatch hc)
  | AttackOrArmor => exact (nomatch hc)
  | Type50 => exact (nomatch hc)
  | Projectile => exact (nomatch hc)
  | ResourceCost => exact (nomatch hc)
  | TrainLocation => exact (nomatch hc)
  | Creatable => exact (nomatch hc)
  | BuildingAnnex => exact (nomatch hc)
  | Building => exact (nomatch hc)
  | Unit => exact (nomatch hc)
  | UnitHeaders => exact (nomatch hc)
  | Civ => exact (nomatch hc)
  | TerrainRestriction n =>
    cases n with
    | zero => exact TerrainRestriction.noData_zero
    | succ n => exact (nomatch hc)

/-- Only records with texts raise `AssertionError` or `UnicodeDecodeError`; records of integers and texts never raise `struct.error`. -/
theorem C42_record_errors (c : RecordClass) (h : ByteHandler) (e : PyErr) (hr : c.fromBytes h = .error e) :
    (e = .assertionError ∨ e = .unicodeDecodeError) ∧ c.hasTexts = true ∨ e = .structError ∧ c.noFloats = false := by
  have h1 := C10_record_errors c h e hr
  cases ht : c.hasTexts with
  | false =>
    have := c.noText ht h e hr
    unfold TextErr at this
    right
    have he : e = .structError := by
      rcases h1 with h | h | h
      · exact h
      · exact absurd (.inl h) this
      · exact absurd (.inr h) this
    refine ⟨he, ?_⟩
    cases hf : c.noFloats with
    | false => rfl
    | true => exact absurd he (c.noData hf h e hr)
  | true =>
    rcases h1 with h1 | h1 | h1
    · right
      refine ⟨h1, ?_⟩
      cases hf : c.noFloats with
      | false => rfl
      | true => exact absurd h1 (c.noData hf h e hr)
    · exact .inl ⟨.inl h1, rfl⟩
    · exact .inl ⟨.inr h1, rfl⟩

/-- And all of these do occur, for every class (shown by data on which they occur). -/
theorem C42_record_errors_occur (c : RecordClass) :
    (c.hasTexts = true → (∃ h, c.fromBytes h = .error .assertionError) ∧ ∃ h, c.fromBytes h = .error .unicodeDecodeError) ∧
    (c.noFloats = false → ∃ h, c.fromBytes h = .error .structError) := by
  have key : ∀ {α : Type} {r : Reader α} {e : PyErr} (bs : Bytes), errorOf (r ⟨bs, 0, .VER_88, false⟩) = some e → ∃ h, r h = .error e := by
    intro α r e bs h
    cases hr : r ⟨bs, 0, .VER_88, false⟩ with
    | ok p => rw [hr] at h; cases h
    | error e' => rw [hr] at h; cases h; exact ⟨_, hr⟩
  cases c with
  | EffectCommand => exact ⟨fun h => (nomatch h), fun _ => key ([]) (by decide +kernel)⟩
  | Effect => exact ⟨fun _ => ⟨key ([]) (by decide +kernel), key ([0x60, 0x0A, 1, 0, 0xFF]) (by decide +kernel)⟩, fun _ => key ([0x60, 0x0A, 0, 0] ++ [1, 0]) (by decide +kernel)⟩
  | SoundItem => exact ⟨fun _ => ⟨key ([]) (by decide +kernel), key ([0x60, 0x0A, 1, 0, 0xFF]) (by decide +kernel)⟩, fun h => (nomatch h)⟩
  | Sound => exact ⟨fun _ => ⟨key ([0, 0, 0, 0, 1, 0]) (by decide +kernel), key ([0, 0, 0, 0, 1, 0, 0, 0, 0, 0, 0, 0] ++ [0x60, 0x0A, 1, 0, 0xFF]) (by decide +kernel)⟩, fun h => (nomatch h)⟩
  | PlayerColour => exact ⟨fun h => (nomatch h), fun h => (nomatch h)⟩
  | GraphicDelta => exact ⟨fun h => (nomatch h), fun h => (nomatch h)⟩
  | GraphicAngleSound => exact ⟨fun h => (nomatch h), fun h => (nomatch h)⟩
  | Graphic => exact ⟨fun _ => ⟨key ([]) (by decide +kernel), key ([0x60, 0x0A, 1, 0, 0xFF]) (by decide +kernel)⟩, fun _ => key ([0x60, 0x0A, 0, 0] ++ [0x60, 0x0A, 0, 0] ++ [0x60, 0x0A, 0, 0]) (by decide +kernel)⟩
  | TerrainPassGraphic => exact ⟨fun h => (nomatch h), fun h => (nomatch h)⟩
  | FrameData => exact ⟨fun h => (nomatch h), fun h => (nomatch h)⟩
  | Terrain => exact ⟨fun _ => ⟨key ([]) (by decide +kernel), key (List.replicate 8 0 ++ [0x60, 0x0A, 1, 0, 0xFF]) (by decide +kernel)⟩, fun _ => key (List.replicate 8 0 ++ [0x60, 0x0A, 0, 0] ++ [0x60, 0x0A, 0, 0] ++ List.replicate 28 0 ++ [0x60, 0x0A, 0, 0]) (by decide +kernel)⟩
  | TileSize => exact ⟨fun h => (nomatch h), fun h => (nomatch h)⟩
  | TerrainBlock => exact ⟨fun _ => ⟨key ([]) (by decide +kernel), key (List.replicate (24 + 19 * 6 + 2 + 8) 0 ++ [0x60, 0x0A, 1, 0, 0xFF]) (by decide +kernel)⟩, fun _ => key (List.replicate (24 + 19 * 6 + 2) 0 ++ List.replicate 8 0 ++ [0x60, 0x0A, 0, 0] ++ [0x60, 0x0A, 0, 0] ++ List.replicate 28 0 ++ [0x60, 0x0A, 0, 0]) (by decide +kernel)⟩
  | MapUnit => exact ⟨fun h => (nomatch h), fun h => (nomatch h)⟩
  | MapTerrain => exact ⟨fun h => (nomatch h), fun h => (nomatch h)⟩
  | MapLand => exact ⟨fun h => (nomatch h), fun h => (nomatch h)⟩
  | MapElevation => exact ⟨fun h => (nomatch h), fun h => (nomatch h)⟩
  | MapInfo => exact ⟨fun h => (nomatch h), fun h => (nomatch h)⟩
  | RandomMaps => exact ⟨fun h => (nomatch h), fun h => (nomatch h)⟩
  | ResearchResourceCost => exact ⟨fun h => (nomatch h), fun h => (nomatch h)⟩
  | ResearchLocation => exact ⟨fun h => (nomatch h), fun h => (nomatch h)⟩
  | Tech => exact ⟨fun _ => ⟨key ([]) (by decide +kernel), key (List.replicate 55 0 ++ [0x60, 0x0A, 1, 0, 0xFF]) (by decide +kernel)⟩, fun h => (nomatch h)⟩
  | Common => exact ⟨fun h => (nomatch h), fun h => (nomatch h)⟩
  | TechTreeAge => exact ⟨fun h => (nomatch h), fun h => (nomatch h)⟩
  | BuildingConnection => exact ⟨fun h => (nomatch h), fun h => (nomatch h)⟩
  | UnitConnection => exact ⟨fun h => (nomatch h), fun h => (nomatch h)⟩
  | ResearchConnection => exact ⟨fun h => (nomatch h), fun h => (nomatch h)⟩
  | TechTree => exact ⟨fun h => (nomatch h), fun h => (nomatch h)⟩
  | ResourceStorage => exact ⟨fun h => (nomatch h), fun _ => key ([]) (by decide +kernel)⟩
  | DamageGraphic => exact ⟨fun h => (nomatch h), fun _ => key ([]) (by decide +kernel)⟩
  | DeadFish => exact ⟨fun h => (nomatch h), fun _ => key ([]) (by decide +kernel)⟩
  | Task => exact ⟨fun h => (nomatch h), fun _ => key ([]) (by decide +kernel)⟩
  | Bird => exact ⟨fun h => (nomatch h), fun _ => key ([]) (by decide +kernel)⟩
  | AttackOrArmor => exact ⟨fun h => (nomatch h), fun _ => key ([]) (by decide +kernel)⟩
  | Type50 => exact ⟨fun h => (nomatch h), fun _ => key ([]) (by decide +kernel)⟩
  | Projectile => exact ⟨fun h => (nomatch h), fun _ => key ([]) (by decide +kernel)⟩
  | ResourceCost => exact ⟨fun h => (nomatch h), fun _ => key ([]) (by decide +kernel)⟩
  | TrainLocation => exact ⟨fun h => (nomatch h), fun _ => key ([]) (by decide +kernel)⟩
  | Creatable => exact ⟨fun h => (nomatch h), fun _ => key ([]) (by decide +kernel)⟩
  | BuildingAnnex => exact ⟨fun h => (nomatch h), fun _ => key ([]) (by decide +kernel)⟩
  | Building => exact ⟨fun h => (nomatch h), fun _ => key ([]) (by decide +kernel)⟩
  | Unit => exact ⟨fun _ => ⟨key (List.replicate 400 0) (by decide +kernel), key (List.replicate 180 0 ++ [0x60, 0x0A, 1, 0, 0xFF]) (by decide +kernel)⟩, fun _ => key ([]) (by decide +kernel)⟩
  | UnitHeaders => exact ⟨fun h => (nomatch h), fun _ => key ([1, 1, 0]) (by decide +kernel)⟩
  | Civ => exact ⟨fun _ => ⟨key ([]) (by decide +kernel), key ([0] ++ [0x60, 0x0A, 1, 0, 0xFF]) (by decide +kernel)⟩, fun _ => key ([0] ++ [0x60, 0x0A, 0, 0] ++ [1, 0]) (by decide +kernel)⟩
  | TerrainRestriction n =>
    refine ⟨fun h => (nomatch h), fun h => ?_⟩
    cases n with
    | zero => exact (nomatch h)
    | succ n => exact ⟨⟨[], 0, .VER_88, false⟩, rfl⟩

/-- In particular the records of integers never raise, whatever the data. -/
theorem C42_integer_records_never_raise (c : RecordClass) (h1 : c.hasTexts = false) (h2 : c.noFloats = true) (h : ByteHandler) :
    ∃ a h', c.fromBytes h = .ok (a, h') := by
  cases hr : c.fromBytes h with
  | ok p => exact ⟨p.1, p.2, rfl⟩
  | error e =>
    rcases C42_record_errors c h e hr with ⟨-, h⟩ | ⟨-, h⟩
    · rw [h1] at h; cases h
    · rw [h2] at h; cases h

/-! ## `struct.error` means that data are missing -/

/-- Whatever bytes arrive one after the other, finitely many of them decide the outcome of `from_bytes` for all files that begin with
them: always the same object, or always the same exception, and this is no `struct.error`. -/
theorem C42_outcome_is_decided (s : Nat → UInt8) :
    ∃ N, (∃ d, ∀ data, arrived s N <+: data → DatFile.ofData data = .ok d) ∨
      (∃ e, e ≠ .structError ∧ ∀ data, arrived s N <+: data → DatFile.ofData data = .error e) := by
  obtain ⟨N, ⟨e, he, h⟩ | ⟨d, o, v, l, h⟩⟩ := DatFile.decides s 0 .UNDEFINED false
  · refine ⟨N, .inr ⟨e, he, fun c hc => ?_⟩⟩
    unfold DatFile.ofData ByteHandler.new
    rw [h c hc]
  · refine ⟨N, .inl ⟨d, fun c hc => ?_⟩⟩
    unfold DatFile.ofData ByteHandler.new
    rw [h c hc]

/-- So a file that raises `struct.error` is always too short: with enough further bytes, whatever they are, another outcome takes its
place. -/
theorem C42_struct_error_is_missing_data (data : Bytes) (more : Nat → UInt8) :
    ∃ N, ∀ n, N ≤ n → DatFile.ofData (data ++ arrived more n) ≠ .error .structError := by
  let s : Nat → UInt8 := fun i => if h : i < data.length then data[i] else more (i - data.length)
  have hs : ∀ n, arrived s (data.length + n) = data ++ arrived more n := by
    intro n
    unfold arrived
    apply List.ext_getElem
    · simp
    · intro i h1 h2
      simp only [List.getElem_map, List.getElem_range, s, List.getElem_append]
  obtain ⟨N, h⟩ := C42_outcome_is_decided s
  refine ⟨N, fun n hn => ?_⟩
  have hp : arrived s N <+: data ++ arrived more n := by
    rw [← hs]; exact arrived_prefix s (by omega)
  rcases h with ⟨d, h⟩ | ⟨e, he, h⟩
  · rw [h _ hp]; simp
  · rw [h _ hp]; simpa using he

/-- The hypotheses are met: the packed fields of a task, and a text of which the stripped form always exists. -/
example : (parseFmt TASK_FORMAT_88).map codesSize = some TASK_FORMAT_LENGTH_88 := by decide
example (c : Bytes) : ∃ s, StrippedOf s c := ⟨_, rstripNul_stripped c⟩
example : ¬ WellFormedUtf8 [0xC0, 0x80] :=
  fun h => by obtain ⟨s, hs⟩ := decode_of_wellFormed h; cases hs
example : WellFormedUtf8 [0x41, 0xE2, 0x82, 0xAC] :=
  wellFormed_cons (c := [0x41]) (.r1 (by decide))
    (wellFormed_cons (c := [0xE2, 0x82, 0xAC]) (.r4 (by decide) (by decide) (by decide) (by decide) (by decide) (by decide)) wellFormed_nil)

end Genie
