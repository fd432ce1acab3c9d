import Verif.Props.C23_Sizes
/-!
# Layouts without any cause of failure
-/

namespace Genie
open Layout

theorem clean_cons {a : List Item} {l : List (List Item)} : causes (a :: l).flatten = [] ↔ causes a = [] ∧ causes l.flatten = [] := by
  rw [List.flatten_cons, causes_append, List.append_eq_nil_iff]

theorem clean_append {a b : List Item} : causes (a ++ b) = [] ↔ causes a = [] ∧ causes b = [] := by
  rw [causes_append, List.append_eq_nil_iff]

theorem clean_fnil : causes (List.flatten []) = [] := rfl

theorem clean_each {f : α → List Item} {l : List α} : causes (each f l) = [] ↔ ∀ x ∈ l, causes (f x) = [] := by
  simp only [causes_eq_nil, each, List.mem_flatMap]
  constructor
  · intro h x hx i hi; exact h i ⟨x, hx, hi⟩
  · rintro h i ⟨x, hx, hi⟩; exact h x hx i hi

theorem clean_int {w : Nat} {s : Bool} {i : Int} : causes [.int w s i] = [] ↔ FitsInt w s i := by
  by_cases h : FitsInt w s i <;> simp [causes, Item.cause, h]

theorem clean_count {w : Nat} {s : Bool} {n : Nat} : causes [.count w s n] = [] ↔ FitsInt w s n := by
  by_cases h : FitsInt w s n <;> simp [causes, Item.cause, h]

theorem fits_u8 {i : Int} : FitsInt 1 false i ↔ IsU8 i := by unfold FitsInt IsU8; simp only [Bool.false_eq_true, if_false]; omega
theorem fits_i16 {i : Int} : FitsInt 2 true i ↔ IsI16 i := by unfold FitsInt IsI16; simp only [if_true]; omega
theorem fits_i32 {i : Int} : FitsInt 4 true i ↔ IsI32 i := by unfold FitsInt IsI32; simp only [if_true]; omega
theorem fits_u32 {i : Int} : FitsInt 4 false i ↔ IsU32 i := by unfold FitsInt IsU32; simp only [Bool.false_eq_true, if_false]; omega

theorem clean_u8 {i : Int} : causes (u8 i) = [] ↔ IsU8 i := clean_int.trans fits_u8
theorem clean_i16 {i : Int} : causes (i16 i) = [] ↔ IsI16 i := clean_int.trans fits_i16
theorem clean_i32 {i : Int} : causes (i32 i) = [] ↔ IsI32 i := clean_int.trans fits_i32
theorem clean_u32 {i : Int} : causes (u32 i) = [] ↔ IsU32 i := clean_int.trans fits_u32
theorem clean_f32 {x : PyFloat} : causes (f32 x) = [] := rfl
theorem clean_countI16 {l : List α} : causes (countI16 l) = [] ↔ l.length ≤ 32767 := by
  refine clean_count.trans (fits_i16.trans ?_); unfold IsI16; omega
theorem clean_countI32 {l : List α} : causes (countI32 l) = [] ↔ l.length ≤ 2147483647 := by
  refine clean_count.trans (fits_i32.trans ?_); unfold IsI32; omega
theorem clean_count16 {n : Nat} : causes [.count 2 true n] = [] ↔ n ≤ 32767 := by
  refine clean_count.trans (fits_i16.trans ?_); unfold IsI16; omega

/-- Well-formed records can be written. -/
theorem RecordClass.clean (c : RecordClass) {v : Version} {x : c.Obj} (h : c.WF v x) : causes (c.layout v x) = [] := by
  obtain ⟨bs, h1, -⟩ := C11_record_round_trip c v x h
  exact ((c.writes v x).ok _ h1).1

theorem DatFile.clean {v : Version} {d : DatFile} (h : DatFile.WFAt v d) : causes (d.layoutAt v) = [] := by
  obtain ⟨bs, h1, -⟩ := C12_datfile_round_trip v d h
  exact ((DatFile.writesAt (versionNames_spec h.version).1).ok _ h1).1

end Genie
