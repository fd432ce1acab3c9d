import Verif.Proof.Struct
import Verif.Spec.Floats
import Verif.Props.C04_C05_Floats
import Verif.Model.Unit
import Verif.Model.Task
/-!
# C16: the struct formats

Every `*_FORMAT` constant of the repository, with its `*_FORMAT_LENGTH`.
-/

namespace Genie

/-- All struct formats of the code with the number of bytes the code consumes for them. -/
def structFormats : List (String × Nat) := [
  (TASK_FORMAT, TASK_FORMAT_LENGTH), (TASK_FORMAT_88, TASK_FORMAT_LENGTH_88),
  (RESOURCE_STORAGE_FORMAT, RESOURCE_STORAGE_FORMAT_LENGTH),
  (DAMAGE_GRAPHIC_FORMAT, DAMAGE_GRAPHIC_FORMAT_LENGTH),
  (DEAD_FISH_FORMAT, DEAD_FISH_FORMAT_LENGTH),
  (ATTACK_OR_ARMOR_FORMAT, ATTACK_OR_ARMOR_FORMAT_LENGTH),
  (PROJECTILE_FORMAT, PROJECTILE_FORMAT_LENGTH),
  (RESOURCE_COST_FORMAT, RESOURCE_COST_FORMAT_LENGTH),
  (TRAIN_LOCATION_FORMAT, TRAIN_LOCATOIN_FORMAT_LENGTH),
  (TRAIN_LOCATION_FORMAT_88, TRAIN_LOCATOIN_FORMAT_LENGTH_88),
  (CREATABLE_FORMAT, CREATABLE_FORMAT_LENGTH), (CREATABLE_FORMAT_84, CREATABLE_FORMAT_LENGTH_84),
  (CREATABLE_FORMAT_88, CREATABLE_FORMAT_LENGTH_88),
  (BUILDING_ANNEX_FORMAT, BUILDING_ANNEX_FORMAT_LENGTH),
  (BUILDING_ANNEX_FORMAT_1, BUILDING_ANNEX_FORMAT_1_LENGTH),
  (BUILDING_ANNEX_FORMAT_2, BUILDING_ANNEX_FORMAT_2_LENGTH),
  (UNIT_FORMAT, UNIT_FORMAT_LENGTH), (UNIT_FORMAT_88, UNIT_FORMAT_LENGTH_88)]

/-- The bytes under each format character. -/
def slots : List Code → Bytes → List (Code × Bytes)
  | [], _ => []
  | c :: cs, bs => (c, bs.take c.size) :: slots cs (bs.drop c.size)

/-- No `f` slot holds a signalling NaN. -/
def NoSignallingNaN (cs : List Code) (bs : Bytes) : Prop :=
  ∀ s ∈ slots cs bs, s.1 = .f → ¬ SignallingNaN32 (leNat s.2)

theorem codesHaveSNaN_iff (cs : List Code) (bs : Bytes) :
    codesHaveSNaN cs bs = false ↔ NoSignallingNaN cs bs := by
  induction cs generalizing bs with
  | nil => simp [codesHaveSNaN, NoSignallingNaN, slots]
  | cons c cs ih =>
    have h1 : NoSignallingNaN (c :: cs) bs ↔
        (c = .f → ¬ SignallingNaN32 (leNat (bs.take c.size))) ∧ NoSignallingNaN cs (bs.drop c.size) := by
      unfold NoSignallingNaN; simp [slots]
    rw [h1, ← ih]
    simp only [codesHaveSNaN, Bool.or_eq_false_iff, Bool.and_eq_false_iff, beq_eq_false_iff_ne]
    rw [← isSNaN32_iff]
    simp only [Bool.not_eq_true, Decidable.imp_iff_not_or, ne_eq]

theorem structFormats_ok : ∀ p ∈ structFormats, ∃ cs, parseFmt p.1 = some cs ∧ codesSize cs = p.2 := by
  decide +kernel

/-- Every hard-coded length is the size of its format. -/
theorem C16_lengths (fmt : String) (n : Nat) (h : (fmt, n) ∈ structFormats) : calcsize fmt = .ok n := by
  obtain ⟨cs, h1, h2⟩ := structFormats_ok _ h
  unfold calcsize
  simp only at h1 h2
  rw [h1, ← h2]

/-- Packing values that fit gives exactly that many bytes, and unpacking them returns the values. -/
theorem C16_pack_unpack (fmt : String) (n : Nat) (h : (fmt, n) ∈ structFormats) (vs : List Val)
    (cs : List Code) (hc : parseFmt fmt = some cs) (hm : Matches cs vs) :
    ∃ bs, structPack fmt vs = .ok bs ∧ bs.length = n ∧ structUnpack fmt bs = .ok vs := by
  obtain ⟨cs', h1, h2⟩ := structFormats_ok _ h
  simp only at h1 h2
  rw [h1] at hc
  simp only [Option.some.injEq] at hc
  subst hc
  obtain ⟨hl, bs, p1, p2, p3, -⟩ := packCodes_of_matches hm
  refine ⟨bs, by simp [structPack, h1, hl, p1], by omega, ?_⟩
  simp [structUnpack, h1, p2, p3]

/-- Unpacking any byte string of that length succeeds with fitting values, one for each format character;
packing them returns the same bytes when no float among them is a signalling NaN. -/
theorem C16_unpack_pack (fmt : String) (n : Nat) (h : (fmt, n) ∈ structFormats) (bs : Bytes)
    (hl : bs.length = n) :
    ∃ cs vs, parseFmt fmt = some cs ∧ structUnpack fmt bs = .ok vs ∧ vs.length = cs.length ∧ Matches cs vs ∧
      (∃ bs', structPack fmt vs = .ok bs' ∧ bs'.length = n) ∧
      (NoSignallingNaN cs bs → structPack fmt vs = .ok bs) := by
  obtain ⟨cs, h1, h2⟩ := structFormats_ok _ h
  simp only at h1 h2
  obtain ⟨m1, m2⟩ := packCodes_unpackCodes (cs := cs) (bs := bs) (by omega)
  obtain ⟨q1, bs', q2, q3, -⟩ := packCodes_of_matches m1
  refine ⟨cs, _, h1, by simp [structUnpack, h1, hl, h2], q1.symm, m1, ⟨bs', by simp [structPack, h1, q1, q2], by omega⟩, ?_⟩
  intro hs
  simp [structPack, h1, q1, m2 ((codesHaveSNaN_iff cs bs).2 hs)]

/-- A byte string of any other length, or a wrong number of values, is a `struct.error`. -/
theorem C16_wrong_size (fmt : String) (n : Nat) (h : (fmt, n) ∈ structFormats) :
    (∀ bs : Bytes, bs.length ≠ n → Raises (structUnpack fmt bs) .structError) ∧
    (∀ (cs : List Code) (vs : List Val), parseFmt fmt = some cs → vs.length ≠ cs.length →
      Raises (structPack fmt vs) .structError) := by
  obtain ⟨cs, h1, h2⟩ := structFormats_ok _ h
  simp only at h1 h2
  constructor
  · intro bs hb
    unfold Raises structUnpack; rw [h1]; simp only; rw [if_neg (by omega)]
  · intro cs' vs hc hv
    rw [h1] at hc
    simp only [Option.some.injEq] at hc
    subst hc
    unfold Raises structPack; rw [h1]; simp only; rw [if_neg (by omega)]

-- a resource cost, and bytes of that length
example : (RESOURCE_COST_FORMAT, 6) ∈ structFormats ∧ parseFmt RESOURCE_COST_FORMAT = some [.h, .h, .h] ∧
    Matches [.h, .h, .h] [.int 3, .int (-50), .int 1] :=
  ⟨by decide +kernel, by decide +kernel, by simp [Matches, Fits, IsI16]⟩
example : structPack RESOURCE_COST_FORMAT [.int 3, .int (-50), .int 1] = .ok [3, 0, 0xCE, 0xFF, 1, 0] := rfl
example : NoSignallingNaN [.h, .f, .b] [1, 0, 0, 0, 0xC0, 0x3F, 7] := by
  unfold NoSignallingNaN SignallingNaN32; decide

end Genie
