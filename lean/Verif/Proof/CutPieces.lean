import Verif.Spec.CutPieces
import Verif.Proof.ZeroFill
import Verif.Proof.Writes
/-! # Items read where the data ends -/

namespace Genie

theorem TakenAs.nil {rest : Bytes} : TakenAs [] rest 0 := rfl

theorem TakenAs.append : {a b : List Item} → {rest : Bytes} → {n m : Nat} → TakenAs a rest n → TakenAs b (rest.drop n) m → TakenAs (a ++ b) rest (n + m)
  | [], _, _, _, _, h1, h2 => by
    have : _ = 0 := h1
    subst this
    simpa using h2
  | it :: a, b, rest, n, m, h1, h2 => by
    obtain ⟨c, k, h3, h4, rfl⟩ := h1
    exact ⟨c, k + m, h3, h4.append (by simpa [List.drop_drop] using h2), by omega⟩

theorem TakenAs.split : {a b : List Item} → {rest : Bytes} → {n : Nat} → TakenAs (a ++ b) rest n →
    ∃ n1 n2, TakenAs a rest n1 ∧ TakenAs b (rest.drop n1) n2 ∧ n = n1 + n2
  | [], _, _, n, h => ⟨0, n, rfl, by simpa using h, by omega⟩
  | it :: a, b, rest, n, h => by
    obtain ⟨c, k, h3, h4, rfl⟩ := h
    obtain ⟨n1, n2, h5, h6, rfl⟩ := h4.split
    exact ⟨c.length + n1, n2, ⟨c, n1, h3, h5, rfl⟩, by simpa [List.drop_drop] using h6, by omega⟩

theorem TakenAs.single {it : Item} {rest : Bytes} {n : Nat} (h : TakenAs [it] rest n) : ∃ c, it.TakenFrom rest c ∧ n = c.length := by
  obtain ⟨c, k, h1, h2, rfl⟩ := h
  have : k = 0 := h2
  exact ⟨c, h1, by omega⟩

theorem TakenAs.item {it : Item} {rest c : Bytes} (h : it.TakenFrom rest c) : TakenAs [it] rest c.length := ⟨c, 0, h, rfl, rfl⟩

/-- Within the data. -/
theorem TakenAs.readAs : {its : List Item} → {rest : Bytes} → {n : Nat} → TakenAs its rest n → n ≤ rest.length → ReadAs its (rest.take n)
  | [], rest, n, h, _ => by
    have : n = 0 := h
    subst this
    exact ⟨[], trivial, by simp⟩
  | it :: its, rest, n, h, hn => by
    obtain ⟨c, m, ⟨h1, h2⟩, h3, rfl⟩ := h
    have hp : c <+: rest := by
      rcases h2 with h2 | ⟨-, k, hk, rfl⟩
      · exact h2
      · rw [List.length_append, List.length_replicate] at hn; omega
    obtain ⟨t, rfl⟩ := hp
    rw [List.drop_left' rfl] at h3
    rw [List.length_append] at hn
    obtain ⟨cs, p, e⟩ := h3.readAs (by omega)
    refine ⟨c :: cs, ⟨h1, p⟩, ?_⟩
    rw [List.flatten_cons, e, List.take_length_add_append]

theorem TakenAs.of_pieces : {its : List Item} → {cs : List Bytes} → {rest : Bytes} → Pieces its cs → cs.flatten <+: rest → TakenAs its rest cs.flatten.length
  | [], [], _, _, _ => rfl
  | it :: its, c :: cs, rest, h, hp => by
    obtain ⟨t, rfl⟩ := hp
    refine ⟨c, cs.flatten.length, ⟨h.1, .inl ⟨cs.flatten ++ t, by simp⟩⟩, TakenAs.of_pieces h.2 ⟨t, ?_⟩, by simp⟩
    simp
  | [], _ :: _, _, h, _ => h.elim
  | _ :: _, [], _, h, _ => h.elim

theorem ReadAs.taken {its : List Item} {bs rest : Bytes} (h : ReadAs its bs) (hp : bs <+: rest) : TakenAs its rest bs.length := by
  obtain ⟨cs, p, rfl⟩ := h
  exact .of_pieces p hp

/-- Items that must be there are there. -/
theorem TakenAs.strict : {its : List Item} → {rest : Bytes} → {n : Nat} → TakenAs its rest n → (∀ it ∈ its, it.strict = true) → 0 < n → n ≤ rest.length
  | [], _, _, h, _, hn => by have : _ = 0 := h; omega
  | it :: its, rest, n, h, hs, hn => by
    obtain ⟨c, m, ⟨h1, h2⟩, h3, rfl⟩ := h
    have hp : c <+: rest := by
      rcases h2 with h2 | ⟨h2, -⟩
      · exact h2
      · rw [hs it List.mem_cons_self] at h2; cases h2
    have hl := hp.length_le
    rcases Nat.eq_zero_or_pos m with rfl | hm
    · omega
    · have := h3.strict (fun i hi => hs i (List.mem_cons_of_mem _ hi)) hm
      rw [List.length_drop] at this
      omega

/-! ## filling up integers -/

theorem leNat_append_ones (s : Bytes) (j : Nat) : leNat (s ++ List.replicate j 255) + 256 ^ s.length = leNat s + 256 ^ (s.length + j) := by
  induction s with
  | nil =>
    induction j with
    | zero => simp [leNat]
    | succ j ih =>
      simp only [List.nil_append, List.length_nil, Nat.pow_zero, Nat.zero_add, leNat] at ih ⊢
      rw [List.replicate_succ, leNat, Nat.pow_succ]
      have : (255 : UInt8).toNat = 255 := rfl
      omega
  | cons b s ih =>
    simp only [List.cons_append, leNat, List.length_cons]
    rw [show s.length + 1 + j = s.length + j + 1 by omega, Nat.pow_succ, Nat.pow_succ]
    omega

theorem leNat_high {s : Bytes} (h : 256 ^ s.length ≤ 2 * leNat s) : ∃ b, s.getLast? = some b ∧ 128 ≤ b.toNat := by
  apply Classical.byContradiction
  intro hn
  have : EndsLow s := fun b hb => by
    apply Nat.lt_of_not_le
    exact fun h => hn ⟨b, hb, h⟩
  have := leNat_low this
  omega

theorem leNat_ge_high {s : Bytes} {b : UInt8} (h : s.getLast? = some b) (hb : 128 ≤ b.toNat) : 256 ^ s.length ≤ 2 * leNat s := by
  induction s with
  | nil => cases h
  | cons x s ih =>
    cases s with
    | nil =>
      simp only [List.getLast?_singleton, Option.some.injEq] at h
      subst h
      simp [leNat]; omega
    | cons y s =>
      have := ih (by simpa [List.getLast?_cons_cons] using h)
      rw [leNat, List.length_cons, Nat.pow_succ]
      generalize leNat (y :: s) = a at *
      generalize 256 ^ (y :: s).length = c at *
      omega

theorem fillByte_cases (s : Bool) (rest : Bytes) :
    (s = true ∧ 256 ^ rest.length ≤ 2 * leNat rest ∧ fillByte s rest = 255) ∨
    (¬ (s = true ∧ 256 ^ rest.length ≤ 2 * leNat rest) ∧ fillByte s rest = 0) := by
  unfold fillByte
  cases hl : rest.getLast? with
  | none =>
    refine .inr ⟨?_, rfl⟩
    rintro ⟨-, h⟩
    obtain ⟨b, hb, -⟩ := leNat_high h
    rw [hl] at hb; cases hb
  | some b =>
    by_cases hb : 128 ≤ b.toNat
    · cases s
      · exact .inr ⟨by simp, by simp⟩
      · exact .inl ⟨rfl, leNat_ge_high hl hb, by simp [hb]⟩
    · refine .inr ⟨?_, by simp [hb]⟩
      rintro ⟨-, h⟩
      obtain ⟨b', hb', h'⟩ := leNat_high h
      rw [hl] at hb'; cases hb'; exact hb h'

/-- The missing bytes of an integer do not change its value. -/
theorem intFromBytes_fill (rest : Bytes) (s : Bool) (k : Nat) :
    intFromBytes (rest ++ List.replicate k (fillByte s rest)) s = intFromBytes rest s := by
  rcases fillByte_cases s rest with ⟨hs, hh, e⟩ | ⟨hs, e⟩
  · rw [e]
    have key := leNat_append_ones rest k
    have hpow : 256 ^ rest.length ≤ 256 ^ (rest.length + k) := Nat.pow_le_pow_right (by omega) (by omega)
    have e1 : intFromBytes rest s = (leNat rest : Int) - ((256 ^ rest.length : Nat) : Int) := by
      unfold intFromBytes
      rw [if_pos ⟨hs, hh⟩, Int.natCast_pow]; rfl
    have e2 : intFromBytes (rest ++ List.replicate k 255) s =
        (leNat (rest ++ List.replicate k 255) : Int) - ((256 ^ (rest.length + k) : Nat) : Int) := by
      unfold intFromBytes
      rw [List.length_append, List.length_replicate, if_pos ⟨hs, by omega⟩, Int.natCast_pow]; rfl
    rw [e1, e2]
    generalize 256 ^ rest.length = x at *
    generalize 256 ^ (rest.length + k) = y at *
    omega
  · rw [e]
    unfold intFromBytes
    rw [if_neg hs, if_neg, leNat_append_zeros]
    rintro ⟨h1, h2⟩
    refine hs ⟨h1, ?_⟩
    rw [leNat_append_zeros, List.length_append] at h2
    exact Nat.le_trans (Nat.pow_le_pow_right (by omega) (by omega)) h2

end Genie
