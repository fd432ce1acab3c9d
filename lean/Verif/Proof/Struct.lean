import Verif.Proof.Prims
import Verif.Spec.Struct
/-! # `struct.pack` / `struct.unpack` -/

namespace Genie

theorem packCode_of_fits {c : Code} {x : Val} (h : Fits c x) :
    ∃ bs, packCode c x = .ok bs ∧ bs.length = c.size ∧ unpackCode c bs = x ∧
      (c = .f → F.isSNaN32 (leNat bs) = false) := by
  cases c <;> cases x <;> simp only [Fits] at h
  · rename_i i
    obtain ⟨bs, h1, h2⟩ := intToBytes_signed_ok (i := i) (n := 1) (by unfold IsI8 at h; omega)
    exact ⟨bs, by simp [packCode, Code.size, h1], intToBytes_length h1, by simp [unpackCode, h2], by simp⟩
  · rename_i i
    obtain ⟨bs, h1, h2⟩ := intToBytes_signed_ok (i := i) (n := 2) (by unfold IsI16 at h; omega)
    exact ⟨bs, by simp [packCode, Code.size, h1], intToBytes_length h1, by simp [unpackCode, h2], by simp⟩
  · rename_i i
    obtain ⟨bs, h1, h2⟩ := intToBytes_signed_ok (i := i) (n := 4) (by unfold IsI32 at h; omega)
    exact ⟨bs, by simp [packCode, Code.size, h1], intToBytes_length h1, by simp [unpackCode, h2], by simp⟩
  · rename_i x
    obtain ⟨h1, h2, h3⟩ := floatOfBytes_bytesOfFloat h
    exact ⟨bytesOfFloat x, by simp [packCode, h3], bytesOfFloat_length x, by simp [unpackCode, h1],
      fun _ => h2⟩

theorem packCodes_of_matches {cs : List Code} {vs : List Val} (h : Matches cs vs) :
    cs.length = vs.length ∧
    ∃ bs, packCodes cs vs = .ok bs ∧ bs.length = codesSize cs ∧ unpackCodes cs bs = vs ∧
      codesHaveSNaN cs bs = false := by
  induction cs generalizing vs with
  | nil =>
    cases vs with
    | nil => exact ⟨rfl, [], rfl, rfl, rfl, rfl⟩
    | cons _ _ => exact h.elim
  | cons c cs ih =>
    cases vs with
    | nil => exact h.elim
    | cons x xs =>
      obtain ⟨h1, h2⟩ := h
      obtain ⟨b, p1, p2, p3, p4⟩ := packCode_of_fits h1
      obtain ⟨hl, bs, q1, q2, q3, q4⟩ := ih h2
      refine ⟨by simp [hl], b ++ bs, by simp [packCodes, p1, q1], by simp [codesSize, p2, q2], ?_, ?_⟩
      · simp only [unpackCodes, ← p2, List.take_left, List.drop_left, p3, q3]
      · simp only [codesHaveSNaN, ← p2, List.take_left, List.drop_left, q4, Bool.or_false]
        by_cases hc : c = .f
        · simp [p4 hc]
        · have : (c == Code.f) = false := by simpa using hc
          simp [this]

theorem fits_unpackCode {c : Code} {bs : Bytes} (h : bs.length = c.size) : Fits c (unpackCode c bs) := by
  cases c <;> simp only [unpackCode, Fits, Code.size] at *
  · have := intFromBytes_range_signed bs; rw [h] at this; unfold IsI8; omega
  · have := intFromBytes_range_signed bs; rw [h] at this; unfold IsI16; omega
  · have := intFromBytes_range_signed bs; rw [h] at this; unfold IsI32; omega
  · exact IsF32_floatOfBytes h

theorem packCode_unpackCode {c : Code} {bs : Bytes} (h : bs.length = c.size)
    (hs : c = .f → F.isSNaN32 (leNat bs) = false) : packCode c (unpackCode c bs) = .ok bs := by
  have hf := fits_unpackCode h
  obtain ⟨b, p1, p2, p3, -⟩ := packCode_of_fits hf
  cases c with
  | f =>
    have h1 : packCode .f (unpackCode .f bs) = .ok (bytesOfFloat (floatOfBytes bs)) := by
      simp only [unpackCode, packCode] at p1 ⊢
      split at p1
      · simp at p1
      · rename_i hh; rw [if_neg hh]
    rw [h1, bytesOfFloat_floatOfBytes_clean h (hs rfl)]
  | _ =>
    have h1 := intToBytes_intFromBytes bs true
    rw [h] at h1
    simp only [unpackCode, packCode, h1]

theorem packCodes_unpackCodes {cs : List Code} {bs : Bytes} (h : bs.length = codesSize cs) :
    Matches cs (unpackCodes cs bs) ∧
      (codesHaveSNaN cs bs = false → packCodes cs (unpackCodes cs bs) = .ok bs) := by
  induction cs generalizing bs with
  | nil =>
    have : bs = [] := by simpa [codesSize] using h
    subst this
    exact ⟨trivial, fun _ => rfl⟩
  | cons c cs ih =>
    simp only [codesSize] at h
    have hl1 : (bs.take c.size).length = c.size := by rw [List.length_take]; omega
    have hl2 : (bs.drop c.size).length = codesSize cs := by rw [List.length_drop]; omega
    obtain ⟨i1, i2⟩ := ih hl2
    refine ⟨⟨fits_unpackCode hl1, i1⟩, ?_⟩
    intro hs
    simp only [codesHaveSNaN, Bool.or_eq_false_iff] at hs
    have hp := packCode_unpackCode hl1 (by
      intro hc; have := hs.1; rw [hc] at this; simpa [hc] using this)
    simp only [unpackCodes, packCodes, hp, i2 hs.2, List.take_append_drop]

theorem RW.unpack {v : Version} {fmt : String} {n : Nat} {cs : List Code} {vs : List Val}
    (hf : parseFmt fmt = some cs) (hn : codesSize cs = n) (h : Matches cs vs) :
    RW v (unpackFrom fmt n) (structPack fmt vs) vs := by
  obtain ⟨hl, bs, p1, p2, p3, p4⟩ := packCodes_of_matches h
  refine ⟨bs, by simp [structPack, hf, hl, p1], ?_⟩
  unfold unpackFrom
  have := (Reads.consumeRange (v := v) (p2.trans hn)).bind
    (f := fun c => do Genie.noteLossy (codesHaveSNaN ((parseFmt fmt).getD []) c); Genie.liftPy (structUnpack fmt c))
    ((Reads.noteLossy (by simpa [hf] using p4)).bind (Reads.liftPy (a := vs) (by
      simp [structUnpack, hf, p2, p3])))
  simpa only [List.append_nil] using this

theorem Good.unpack {v : Version} {fmt : String} {n : Nat} {cs : List Code}
    (hf : parseFmt fmt = some cs) :
    Good v (unpackFrom fmt n) (Matches cs) (fun vs bs => structPack fmt vs = .ok bs) := by
  unfold unpackFrom
  refine Good.bind (Good.consumeRange n) fun c _ => ?_
  refine Good.bind (P := fun _ bs => bs = [] ∧ codesHaveSNaN cs c = false)
    (Good.noteLossy (fun h => ⟨rfl, by simpa [hf] using h⟩)) fun _ _ => ?_
  refine Good.liftPy ?_ ?_
  · intro e he
    simp only [structUnpack, hf] at he
    split at he <;> simp at he
    exact Or.inl he.symm
  · intro vs hvs
    simp only [structUnpack, hf] at hvs
    split at hvs
    · rename_i hl
      simp only [Except.ok.injEq] at hvs
      subst hvs
      obtain ⟨m1, m2⟩ := packCodes_unpackCodes hl
      refine ⟨m1, ?_⟩
      rintro bs1 ⟨rfl, hs⟩ bs2 ⟨rfl, -⟩
      simp only [structPack, hf, (packCodes_of_matches m1).1, if_true, m2 hs, List.append_nil]
    · simp at hvs

theorem Matches.popB {cs : List Code} {vs : List Val} (h : Matches (.b :: cs) vs) :
    ∃ i vs', vs = .int i :: vs' ∧ IsI8 i ∧ Matches cs vs' := by
  cases vs with
  | nil => exact h.elim
  | cons x xs => cases x with
    | int i => exact ⟨i, xs, rfl, h.1, h.2⟩
    | float _ => exact h.1.elim
theorem Matches.popH {cs : List Code} {vs : List Val} (h : Matches (.h :: cs) vs) :
    ∃ i vs', vs = .int i :: vs' ∧ IsI16 i ∧ Matches cs vs' := by
  cases vs with
  | nil => exact h.elim
  | cons x xs => cases x with
    | int i => exact ⟨i, xs, rfl, h.1, h.2⟩
    | float _ => exact h.1.elim
theorem Matches.popL {cs : List Code} {vs : List Val} (h : Matches (.l :: cs) vs) :
    ∃ i vs', vs = .int i :: vs' ∧ IsI32 i ∧ Matches cs vs' := by
  cases vs with
  | nil => exact h.elim
  | cons x xs => cases x with
    | int i => exact ⟨i, xs, rfl, h.1, h.2⟩
    | float _ => exact h.1.elim
theorem Matches.popF {cs : List Code} {vs : List Val} (h : Matches (.f :: cs) vs) :
    ∃ x vs', vs = .float x :: vs' ∧ IsF32 x ∧ Matches cs vs' := by
  cases vs with
  | nil => exact h.elim
  | cons x xs => cases x with
    | int i => exact h.1.elim
    | float x => exact ⟨x, xs, rfl, h.1, h.2⟩
theorem Matches.done {vs : List Val} (h : Matches [] vs) : vs = [] := by
  cases vs with
  | nil => rfl
  | cons _ _ => exact h.elim

end Genie
