import Verif.Proof.Source.UnitRules
/-! # `Unit.from_bytes_88`, from the source -/

set_option linter.unusedVariables false

namespace Genie.Src

set_option maxHeartbeats 0 in
/-- `Unit.from_bytes_88` — `/repo/src/genieutils/unit.py:1334-1520`. -/
theorem Unit_from_bytes_88 : ∀ n, 8 ≤ n → Same PVal.h (callN n (.cls n!"Unit") n!"Unit" n!"from_bytes_88" ⟨[.handler], []⟩) Unit.build88 := by
  intro n hn
  call_fun
  unfold Unit.build88
  unpack_fun
  refine Same.popInt (by assumption) (by decide) fun type_ _ _ => ?_
  peel
  pop_int
  pop_int
  pop_int
  pop_int
  pop_int
  pop_int
  pop_int
  pop_int
  pop_int
  pop_int
  pop_float
  pop_int
  pop_float
  pop_float
  pop_float
  pop_int
  pop_int
  pop_int
  pop_int
  pop_int
  pop_int
  pop_int
  pop_int
  pop_int
  pop_int
  pop_int
  pop_int
  pop_int
  pop_int
  pop_int
  pop_float
  pop_float
  pop_int
  pop_int
  pop_int
  pop_int
  pop_int
  pop_float
  pop_int
  pop_int
  pop_int
  pop_int
  pop_int
  pop_float
  pop_int
  pop_int
  pop_int
  pop_int
  pop_int
  pop_int
  pop_int
  pop_int
  pop_int
  pop_int
  pop_int
  pop_int
  pop_int
  pop_int
  pop_int
  pop_float
  pop_float
  pop_float
  pop_int
  pop_int
  pop_done
  refine Same.bind (read_class_array_3 ResourceStorage_from_bytes (by omega)) fun _ => ?_
  peel
  refine Same.bind (read_int_8 (by omega)) fun _ => ?_
  peel
  refine Same.bind (read_class_array DamageGraphic_from_bytes (by omega) (by omega) _ _) fun _ => ?_
  peel
  refine Same.bind (read_int_16 (by omega)) fun _ => ?_
  peel
  refine Same.bind (read_int_16 (by omega)) fun _ => ?_
  peel
  refine Same.bind (read_int_32 (by omega)) fun _ => ?_
  peel
  refine Same.bind (read_int_32 (by omega)) fun _ => ?_
  peel
  refine Same.bind (read_int_32 (by omega)) fun _ => ?_
  peel
  refine Same.bind (read_int_32 (by omega)) fun _ => ?_
  peel
  refine Same.bind (read_int_8 (by omega)) fun _ => ?_
  peel
  refine Same.bind (read_int_8 (by omega)) fun _ => ?_
  peel
  refine Same.bind (read_debug_string (by omega)) fun _ => ?_
  peel
  refine Same.bind (read_int_16 (by omega)) fun _ => ?_
  peel
  refine Same.bind (read_int_16 (by omega)) fun _ => ?_
  peel
  by_cases h1 : type_ ≠ UnitType.AoeTrees
  · refine Same.branchTrue (by simpa [UnitType.AoeTrees] using h1) ?_
    peel
    refine Same.assoc ?_
    by_cases h2 : type_ ≥ UnitType.Flag
    · refine Same.branchTrue (by simpa [UnitType.Flag] using h2) ?_
      peel
      refine Same.readIfTrue ⟨h1, h2⟩ ?_
      refine Same.assoc ?_
      refine Same.bind (HReader_float_same (read_float (by omega))) fun _ => ?_
      peel
      refine Same.ifReadIn (decide_eq_decide.mpr ⟨fun h => ⟨h1, h2, h⟩, fun h => h.2.2⟩) (fun _ => rfl) (read_class DeadFish_from_bytes (by omega)) (fun _ => rfl) fun _ => ?_
      peel
      refine Same.ifReadIn (decide_eq_decide.mpr ⟨fun h => ⟨h1, h2, h⟩, fun h => h.2.2⟩) (fun _ => rfl) (read_class Bird_from_bytes (by omega)) (fun _ => rfl) fun _ => ?_
      peel
      refine Same.ifReadIn (decide_eq_decide.mpr ⟨fun h => ⟨h1, h2, h⟩, fun h => h.2.2⟩) (fun _ => rfl) (read_class Type50_from_bytes (by omega)) (fun _ => rfl) fun _ => ?_
      peel
      refine Same.ifReadIn (decide_eq_decide.mpr ⟨fun h => ⟨h1, h2, h⟩, fun h => h.2.2⟩) (fun _ => rfl) (read_class Projectile_from_bytes (by omega)) (fun _ => rfl) fun _ => ?_
      peel
      refine Same.ifReadIn (decide_eq_decide.mpr ⟨fun h => ⟨h1, h2, h⟩, fun h => h.2.2⟩) (fun _ => rfl) (read_class Creatable_from_bytes (by omega)) (fun _ => rfl) fun _ => ?_
      peel
      refine Same.ifReadIn (decide_eq_decide.mpr ⟨fun h => ⟨h1, h2, h⟩, fun h => h.2.2⟩) (fun _ => rfl) (read_class Building_from_bytes (by omega)) (fun _ => rfl) fun _ => ?_
      peel
      unfold Creatable.readHotKey
      simp only [bind_assoc']
      refine Same.truthAnd ?_ fun t => ?_
      · peel
        exact (Same.objAttr (by decide) (by decide +kernel)).tail'
      peel
      refine Same.iteThen (by simp) (fun _ => ?_) fun _ => ?_
      · rw [bind_assoc']
        peel
        refine Same.assoc ?_
        refine Same.bind (Same.objAttr (by decide) (by decide +kernel)) fun tl => ?_
        rw [bind_assoc']
        peel
        refine Same.assoc ?_
        refine Same.bind (Same.item tl 0) fun _ => ?_
        peel
        refine Same.assoc ?_
        refine Same.bind (Same.objAttr (by decide) (by decide +kernel)) fun hk => ?_
        peel
        refine Same.bind (Same.allocH (by rfl)) fun _ => ?_
        peel
        refine Same.bind (Same.allocH (by rfl)) fun _ => ?_
        peel
        refine Same.bind (Same.allocH (by rfl)) fun _ => ?_
        peel
        refine Same.bind (Same.allocH (by rfl)) fun _ => ?_
        peel
        exact (Same.allocH (by rfl)).tail _
      · peel
        rw [pure_bind']
        refine Same.bind (Same.allocH (by rfl)) fun _ => ?_
        peel
        refine Same.bind (Same.allocH (by rfl)) fun _ => ?_
        peel
        refine Same.bind (Same.allocH (by rfl)) fun _ => ?_
        peel
        refine Same.bind (Same.allocH (by rfl)) fun _ => ?_
        peel
        exact (Same.allocH (by rfl)).tail _
    · refine Same.branchFalse (by simpa [UnitType.Flag] using h2) ?_
      peel
      refine Same.readIfFalse (by grind) ?_
      refine Same.readIfFalse (by grind) ?_
      refine Same.readIfFalse (by grind) ?_
      refine Same.readIfFalse (by grind) ?_
      refine Same.readIfFalse (by grind) ?_
      refine Same.readIfFalse (by grind) ?_
      refine Same.readIfFalse (by grind) ?_
      rw [readHotKey_none]
      refine Same.bind (Same.allocH (by rfl)) fun _ => ?_
      peel
      refine Same.bind (Same.allocH (by rfl)) fun _ => ?_
      peel
      refine Same.bind (Same.allocH (by rfl)) fun _ => ?_
      peel
      refine Same.bind (Same.allocH (by rfl)) fun _ => ?_
      peel
      exact (Same.allocH (by rfl)).tail _
  · refine Same.branchFalse (by simpa [UnitType.AoeTrees] using h1) ?_
    peel
    refine Same.readIfFalse (by grind) ?_
    refine Same.readIfFalse (by grind) ?_
    refine Same.readIfFalse (by grind) ?_
    refine Same.readIfFalse (by grind) ?_
    refine Same.readIfFalse (by grind) ?_
    refine Same.readIfFalse (by grind) ?_
    refine Same.readIfFalse (by grind) ?_
    rw [readHotKey_none]
    refine Same.bind (Same.allocH (by rfl)) fun _ => ?_
    peel
    refine Same.bind (Same.allocH (by rfl)) fun _ => ?_
    peel
    refine Same.bind (Same.allocH (by rfl)) fun _ => ?_
    peel
    refine Same.bind (Same.allocH (by rfl)) fun _ => ?_
    peel
    exact (Same.allocH (by rfl)).tail _

end Genie.Src
