import Verif.Proof.FloatValue
/-! # `float(i)` is the nearest double, ties to even -/

namespace Genie
namespace F
set_option exponentiation.threshold 2000

/-- magnitude of a double with magnitude bits `k`, in units of `2^-1074` -/
def mag64 (k : Nat) : Nat := if k / 2 ^ 52 = 0 then k else (2 ^ 52 + k % 2 ^ 52) * 2 ^ (k / 2 ^ 52 - 1)

theorem mag64_normal {a q : Nat} (h1 : 2 ^ 52 ≤ q) (h2 : q ≤ 2 ^ 53) : mag64 (a * 2 ^ 52 + q) = q * 2 ^ a := by
  unfold mag64
  by_cases h : q = 2 ^ 53
  · subst h
    have e1 : (a * 2 ^ 52 + 2 ^ 53) / 2 ^ 52 = a + 2 := by omega
    have e2 : (a * 2 ^ 52 + 2 ^ 53) % 2 ^ 52 = 0 := by omega
    rw [e1, e2, if_neg (by omega), show a + 2 - 1 = a + 1 by omega, Nat.add_zero, Nat.pow_succ 2 a, show (2 : Nat) ^ 53 = 2 ^ 52 * 2 from rfl,
      Nat.mul_comm (2 ^ a), Nat.mul_assoc]
  · have e1 : (a * 2 ^ 52 + q) / 2 ^ 52 = a + 1 := by omega
    have e2 : (a * 2 ^ 52 + q) % 2 ^ 52 = q - 2 ^ 52 := by omega
    rw [e1, e2, if_neg (by omega), show a + 1 - 1 = a by omega, show 2 ^ 52 + (q - 2 ^ 52) = q by omega]

theorem mag64_multiple (k a : Nat) : (∃ j, mag64 k = j * 2 ^ a) ∨ mag64 k < 2 ^ 52 * 2 ^ a := by
  unfold mag64
  by_cases h0 : k / 2 ^ 52 = 0
  · rw [if_pos h0]
    right
    have : k < 2 ^ 52 := by omega
    exact Nat.lt_of_lt_of_le this (Nat.le_mul_of_pos_right _ (Nat.two_pow_pos a))
  · rw [if_neg h0]
    by_cases ha : a ≤ k / 2 ^ 52 - 1
    · left
      refine ⟨(2 ^ 52 + k % 2 ^ 52) * 2 ^ (k / 2 ^ 52 - 1 - a), ?_⟩
      rw [Nat.mul_assoc, ← Nat.pow_add, show k / 2 ^ 52 - 1 - a + a = k / 2 ^ 52 - 1 by omega]
    · right
      obtain ⟨t, ht⟩ : ∃ t, a = k / 2 ^ 52 - 1 + 1 + t := ⟨a - (k / 2 ^ 52 - 1 + 1), by omega⟩
      generalize k / 2 ^ 52 - 1 = c at *
      have h1 : k % 2 ^ 52 < 2 ^ 52 := Nat.mod_lt _ (by decide)
      rw [ht, Nat.pow_add, Nat.pow_succ 2 c]
      have h2 : 0 < 2 ^ c := Nat.two_pow_pos c
      have h3 : 0 < 2 ^ t := Nat.two_pow_pos t
      have h4 : (2 ^ 52 + k % 2 ^ 52) * 2 ^ c < 2 ^ 53 * 2 ^ c := Nat.mul_lt_mul_of_pos_right (by omega) h2
      have h5 : 2 ^ c * 2 ≤ 2 ^ c * 2 * 2 ^ t := Nat.le_mul_of_pos_right _ h3
      generalize (2 ^ 52 + k % 2 ^ 52) * 2 ^ c = X at *
      generalize 2 ^ c * 2 * 2 ^ t = Y at *
      omega

theorem log2_bounds {n : Nat} (h : n ≠ 0) : 2 ^ n.log2 ≤ n ∧ n < 2 ^ (n.log2 + 1) :=
  ⟨Nat.log2_self_le h, Nat.lt_log2_self⟩

/-- Small numbers are exact. -/
theorem ofNatMag_exact {n : Nat} (h : n ≠ 0) (hl : n.log2 ≤ 52) : mag64 (ofNatMag n) = n * 2 ^ 1074 := by
  unfold ofNatMag
  rw [if_neg h, if_pos hl]
  obtain ⟨b1, b2⟩ := log2_bounds h
  have e : (1023 + n.log2) * 2 ^ 52 + (n - 2 ^ n.log2) * 2 ^ (52 - n.log2) = (1022 + n.log2) * 2 ^ 52 + n * 2 ^ (52 - n.log2) := by
    have e1 : 2 ^ n.log2 * 2 ^ (52 - n.log2) = 2 ^ 52 := by rw [← Nat.pow_add, show n.log2 + (52 - n.log2) = 52 by omega]
    have e2 : 2 ^ n.log2 * 2 ^ (52 - n.log2) ≤ n * 2 ^ (52 - n.log2) := Nat.mul_le_mul_right _ b1
    rw [Nat.sub_mul]
    generalize n * 2 ^ (52 - n.log2) = A at *
    generalize 2 ^ n.log2 * 2 ^ (52 - n.log2) = B at *
    omega
  rw [e, mag64_normal]
  · rw [Nat.mul_assoc, ← Nat.pow_add, show 52 - n.log2 + (1022 + n.log2) = 1074 by omega]
  · have : 2 ^ n.log2 * 2 ^ (52 - n.log2) ≤ n * 2 ^ (52 - n.log2) := Nat.mul_le_mul_right _ b1
    rwa [← Nat.pow_add, show n.log2 + (52 - n.log2) = 52 by omega] at this
  · have : n * 2 ^ (52 - n.log2) ≤ 2 ^ (n.log2 + 1) * 2 ^ (52 - n.log2) := Nat.mul_le_mul_right _ (Nat.le_of_lt b2)
    rwa [← Nat.pow_add, show n.log2 + 1 + (52 - n.log2) = 53 by omega] at this

theorem ofNatMag_large {n : Nat} (hl : 52 < n.log2) : ∃ sh, 1 ≤ sh ∧ n.log2 = 52 + sh ∧
    ofNatMag n = (1074 + sh) * 2 ^ 52 + rne n sh ∧ 2 ^ 52 * 2 ^ sh ≤ n ∧ n < 2 ^ 53 * 2 ^ sh ∧ 2 ^ 52 ≤ rne n sh ∧ rne n sh ≤ 2 ^ 53 := by
  have h : n ≠ 0 := by rintro rfl; simp at hl
  obtain ⟨b1, b2⟩ := log2_bounds h
  obtain ⟨sh, hs⟩ : ∃ sh, n.log2 = 52 + sh := ⟨n.log2 - 52, by omega⟩
  have c1 : 2 ^ 52 * 2 ^ sh ≤ n := by rw [hs, Nat.pow_add] at b1; exact b1
  have c2 : n < 2 ^ 53 * 2 ^ sh := by
    rw [hs, show 52 + sh + 1 = 53 + sh by omega, Nat.pow_add] at b2; exact b2
  refine ⟨sh, by omega, hs, ?_, c1, c2, rne_bounds c1 c2⟩
  unfold ofNatMag
  rw [if_neg h, if_neg (by omega), hs, show 52 + sh - 52 = sh by omega, show 1022 + (52 + sh) = 1074 + sh by omega]

theorem ofNatMag_nearest (n k : Nat) :
    ndist (n * 2 ^ 1074) (mag64 (ofNatMag n)) ≤ ndist (n * 2 ^ 1074) (mag64 k) ∧
    (ndist (n * 2 ^ 1074) (mag64 (ofNatMag n)) = ndist (n * 2 ^ 1074) (mag64 k) → mag64 k ≠ mag64 (ofNatMag n) → ofNatMag n % 2 = 0) := by
  by_cases h : n = 0
  · subst h
    rw [show ofNatMag 0 = 0 from rfl, show mag64 0 = 0 from rfl, Nat.zero_mul]
    exact ⟨by unfold ndist; omega, fun _ _ => rfl⟩
  by_cases hl : n.log2 ≤ 52
  · rw [ofNatMag_exact h hl]
    generalize n * 2 ^ 1074 = X
    generalize mag64 k = Y
    unfold ndist
    exact ⟨by omega, fun h1 h2 => by omega⟩
  · obtain ⟨sh, s1, _, e, c1, c2, d1, d2⟩ := ofNatMag_large (n := n) (by omega)
    rw [e, mag64_normal d1 d2]
    have e2 : ∀ j, j * 2 ^ (1074 + sh) = (j * 2 ^ sh) * 2 ^ 1074 := by
      intro j; rw [Nat.add_comm, Nat.pow_add, Nat.mul_assoc]
    have hpos : 0 < 2 ^ 1074 := Nat.two_pow_pos _
    have hpar : ((1074 + sh) * 2 ^ 52 + rne n sh) % 2 = rne n sh % 2 := by omega
    rw [hpar]
    rcases mag64_multiple k (1074 + sh) with ⟨j, hj⟩ | hlt
    · obtain ⟨n1, n2⟩ := rne_nearest n sh j s1
      rw [hj, e2, e2, ndist_mul, ndist_mul]
      refine ⟨Nat.mul_le_mul_right _ n1, ?_⟩
      intro h1 h2
      refine n2 (Nat.eq_of_mul_eq_mul_right hpos h1) ?_
      rintro rfl; exact h2 rfl
    · obtain ⟨n1, -⟩ := rne_nearest n sh (2 ^ 52) s1
      rw [e2] at hlt ⊢
      have n3 : ndist n (rne n sh * 2 ^ sh) * 2 ^ 1074 ≤ ndist n (2 ^ 52 * 2 ^ sh) * 2 ^ 1074 := Nat.mul_le_mul_right _ n1
      rw [← ndist_mul n, ← ndist_mul n] at n3
      exact nearer n3 hlt (Nat.mul_le_mul_right _ c1)

theorem magnitude64_mag {d : Nat} (_hd : d < 2 ^ 64) : magnitude64 d = mag64 (d % 2 ^ 63) := by
  unfold magnitude64 mag64
  have e1 : d % 2 ^ 63 / 2 ^ 52 = d / 2 ^ 52 % 2 ^ 11 := by omega
  have e2 : d % 2 ^ 63 % 2 ^ 52 = d % 2 ^ 52 := by omega
  rw [e1, e2]
  split
  · omega
  · rfl

/-- `float(i)`, where it is defined, is the nearest double. -/
theorem ofInt_nearest {i : Int} {d : Nat} (h : ofInt i = some d) : d < 2 ^ 64 ∧ NearestEven64 (i * 2 ^ 1074) d := by
  unfold ofInt at h
  split at h
  · cases h
  rename_i ho
  have hd : d = (if i < 0 then 2 ^ 63 else 0) + ofNatMag i.natAbs := (Option.some.inj h).symm
  clear h
  generalize hk : ofNatMag i.natAbs = k at *
  have hlt : d < 2 ^ 64 := by rw [hd]; split <;> omega
  have hmod : d % 2 ^ 63 = k := by rw [hd]; split <;> omega
  have hsign : d / 2 ^ 63 = 0 ↔ ¬ i < 0 := by rw [hd]; split <;> omega
  refine ⟨hlt, ?_, fun d' hd' _ => ?_⟩
  · unfold Finite64; rw [hd]; split <;> omega
  · have key := ofNatMag_nearest i.natAbs (d' % 2 ^ 63)
    have key0 := ofNatMag_nearest i.natAbs 0
    rw [show mag64 0 = 0 from rfl] at key0
    rw [hk] at key key0
    have e1 : magnitude64 d = mag64 k := by rw [magnitude64_mag hlt, hmod]
    rw [← magnitude64_mag hd', ← e1] at key
    rw [← e1] at key0
    have hpar : k % 2 = d % 2 := by omega
    rw [hpar] at key key0
    have ex : i * 2 ^ 1074 = if d / 2 ^ 63 = 0 then ((i.natAbs * 2 ^ 1074 : Nat) : Int) else -((i.natAbs * 2 ^ 1074 : Nat) : Int) := by
      rw [Int.natCast_mul]
      have e3 : (((2 : Nat) ^ 1074 : Nat) : Int) = (2 : Int) ^ 1074 := Int.natCast_pow 2 1074
      rw [e3]
      generalize (2 : Int) ^ 1074 = P
      split
      · rename_i hs
        rw [show ((i.natAbs : Nat) : Int) = i by have := hsign.1 hs; omega]
      · rename_i hs
        rw [← Int.neg_mul, show -((i.natAbs : Nat) : Int) = i by
          have : i < 0 := Decidable.byContradiction fun hn => hs (hsign.2 hn)
          omega]
    rw [ex]
    unfold value64
    exact signs key key0

/-- `float(i)` is defined below the threshold only. -/
theorem ofInt_none_iff (i : Int) : ofInt i = none ↔ intTooLarge ≤ i.natAbs := by
  have main : ∀ n, 2047 * 2 ^ 52 ≤ ofNatMag n ↔ intTooLarge ≤ n := by
    intro n
    unfold intTooLarge
    by_cases h : n = 0
    · subst h
      rw [show ofNatMag 0 = 0 from rfl]
      have := Nat.two_pow_pos 970
      constructor
      · intro h; omega
      · intro h
        generalize 2 ^ 970 = P at *
        omega
    by_cases hl : n.log2 ≤ 52
    · obtain ⟨b1, b2⟩ := log2_bounds h
      have c : n < 2 ^ 53 := Nat.lt_of_lt_of_le b2 (Nat.pow_le_pow_right (by omega) (by omega))
      constructor
      · intro h'; exfalso
        unfold ofNatMag at h'
        rw [if_neg h, if_pos hl] at h'
        have : (n - 2 ^ n.log2) * 2 ^ (52 - n.log2) < 2 ^ 53 := by
          have : (n - 2 ^ n.log2) * 2 ^ (52 - n.log2) < 2 ^ (n.log2 + 1) * 2 ^ (52 - n.log2) :=
            Nat.mul_lt_mul_of_pos_right (by omega) (Nat.two_pow_pos _)
          rwa [← Nat.pow_add, show n.log2 + 1 + (52 - n.log2) = 53 by omega] at this
        omega
      · intro h'; exfalso
        have : 2 ^ 1 ≤ 2 ^ 970 := Nat.pow_le_pow_right (by omega) (by omega)
        generalize 2 ^ 970 = P at *
        omega
    · obtain ⟨sh, s1, _, e, c1, c2, d1, d2⟩ := ofNatMag_large (n := n) (by omega)
      rw [e]
      rcases Nat.lt_trichotomy sh 971 with hs | hs | hs
      · constructor
        · intro h'; exfalso; omega
        · intro h'; exfalso
          have : 2 ^ sh ≤ 2 ^ 970 := Nat.pow_le_pow_right (by omega) (by omega)
          generalize 2 ^ 970 = P at *
          generalize 2 ^ sh = Q at *
          omega
      · subst hs
        have e3 : (2 : Nat) ^ 971 = 2 * 2 ^ 970 := by rw [Nat.pow_succ, Nat.mul_comm]
        have : rne n 971 = 2 ^ 53 ↔ (2 ^ 54 - 1) * 2 ^ 970 ≤ n := by
          have hx := Nat.div_add_mod n (2 ^ 971)
          have hP : 0 < 2 ^ 971 := Nat.two_pow_pos _
          have hr := Nat.mod_lt n hP
          have hq1 : 2 ^ 52 ≤ n / 2 ^ 971 := (Nat.le_div_iff_mul_le hP).2 c1
          have hq2 : n / 2 ^ 971 < 2 ^ 53 := (Nat.div_lt_iff_lt_mul hP).2 c2
          unfold rne
          simp only
          generalize n / 2 ^ 971 = q at *
          generalize n % 2 ^ 971 = r at *
          rw [e3] at *
          generalize 2 ^ 970 = P at *
          by_cases hq : q = 2 ^ 53 - 1
          · subst hq
            constructor
            · intro h; split at h <;> omega
            · intro h; rw [if_pos (by omega)]
          · have : 2 * P * q ≤ 2 * P * (2 ^ 53 - 2) := Nat.mul_le_mul_left _ (by omega)
            generalize 2 * P * q = Z at *
            constructor
            · intro h; split at h <;> omega
            · intro h; exfalso; omega
        rw [← this]; omega
      · constructor
        · intro _
          have : 2 ^ 972 ≤ 2 ^ sh := Nat.pow_le_pow_right (by omega) (by omega)
          rw [show (972 : Nat) = 970 + 2 from rfl, Nat.pow_add] at this
          generalize 2 ^ 970 = P at *
          generalize 2 ^ sh = Q at *
          omega
        · intro _; omega
  rw [← main]
  unfold ofInt
  split <;> simp_all

/-- `float(i)` of a number that has at most 53 bits is that number. -/
theorem ofInt_exact {i : Int} (hi : i.natAbs < 2 ^ 53) : ∃ d, ofInt i = some d ∧ d < 2 ^ 64 ∧ Finite64 d ∧ value64 d = i * 2 ^ 1074 := by
  have big : i.natAbs < intTooLarge := by
    unfold intTooLarge
    have : 2 ^ 1 ≤ 2 ^ 970 := Nat.pow_le_pow_right (by omega) (by omega)
    generalize 2 ^ 970 = P at *
    omega
  cases e : ofInt i with
  | none => exact absurd ((ofInt_none_iff i).1 e) (by omega)
  | some d =>
    obtain ⟨hd, hf, _⟩ := ofInt_nearest e
    refine ⟨d, rfl, hd, hf, ?_⟩
    unfold ofInt at e
    split at e
    · cases e
    rename_i ho
    have hd' : d = (if i < 0 then 2 ^ 63 else 0) + ofNatMag i.natAbs := (Option.some.inj e).symm
    have hm : mag64 (ofNatMag i.natAbs) = i.natAbs * 2 ^ 1074 := by
      by_cases h : i.natAbs = 0
      · rw [h, Nat.zero_mul]; rfl
      · exact ofNatMag_exact h (by
          have b1 := (log2_bounds h).1
          rcases Nat.lt_or_ge 52 i.natAbs.log2 with l | l
          · have : 2 ^ 53 ≤ 2 ^ i.natAbs.log2 := Nat.pow_le_pow_right (by omega) l
            omega
          · exact l)
    have hmod : d % 2 ^ 63 = ofNatMag i.natAbs := by
      rw [hd']
      generalize ofNatMag i.natAbs = k at *
      split <;> omega
    have hsign : d / 2 ^ 63 = 0 ↔ ¬ i < 0 := by
      rw [hd']
      generalize ofNatMag i.natAbs = k at *
      split <;> omega
    unfold value64
    rw [magnitude64_mag hd, hmod, hm, Int.natCast_mul, show (((2 : Nat) ^ 1074 : Nat) : Int) = (2 : Int) ^ 1074 from Int.natCast_pow 2 1074]
    generalize (2 : Int) ^ 1074 = P
    split
    · rename_i hs
      rw [show ((i.natAbs : Nat) : Int) = i by have := hsign.1 hs; omega]
    · rename_i hs
      rw [← Int.neg_mul, show -((i.natAbs : Nat) : Int) = i by
        have : i < 0 := Decidable.byContradiction fun hn => hs (hsign.2 hn)
        omega]

/-- A number of at most 24 bits is a single. -/
theorem single_of_int {i : Int} (hi : i.natAbs < 2 ^ 24) : ∃ w, w < 2 ^ 32 ∧ Finite32 w ∧ value32 w = i * 2 ^ 1074 := by
  by_cases h : i.natAbs = 0
  · refine ⟨0, by omega, by unfold Finite32; omega, ?_⟩
    have : i = 0 := by omega
    subst this
    rw [Int.zero_mul]; rfl
  obtain ⟨b1, b2⟩ := log2_bounds h
  have hl : i.natAbs.log2 ≤ 23 := by
    rcases Nat.lt_or_ge 23 i.natAbs.log2 with l | l
    · have : 2 ^ 24 ≤ 2 ^ i.natAbs.log2 := Nat.pow_le_pow_right (by omega) l
      omega
    · exact l
  have q1 : 2 ^ 23 ≤ i.natAbs * 2 ^ (23 - i.natAbs.log2) := by
    have : 2 ^ i.natAbs.log2 * 2 ^ (23 - i.natAbs.log2) ≤ i.natAbs * 2 ^ (23 - i.natAbs.log2) := Nat.mul_le_mul_right _ b1
    rwa [← Nat.pow_add, show i.natAbs.log2 + (23 - i.natAbs.log2) = 23 by omega] at this
  have q2 : i.natAbs * 2 ^ (23 - i.natAbs.log2) < 2 ^ 24 := by
    have : i.natAbs * 2 ^ (23 - i.natAbs.log2) < 2 ^ (i.natAbs.log2 + 1) * 2 ^ (23 - i.natAbs.log2) :=
      Nat.mul_lt_mul_of_pos_right b2 (Nat.two_pow_pos _)
    rwa [← Nat.pow_add, show i.natAbs.log2 + 1 + (23 - i.natAbs.log2) = 24 by omega] at this
  have e : i.natAbs * 2 ^ (23 - i.natAbs.log2) * 2 ^ (126 + i.natAbs.log2) = i.natAbs * 2 ^ 149 := by
    rw [Nat.mul_assoc, ← Nat.pow_add, show 23 - i.natAbs.log2 + (126 + i.natAbs.log2) = 149 by omega]
  generalize i.natAbs.log2 = l at *
  generalize i.natAbs * 2 ^ (23 - l) = q at *
  have hlt : (if i < 0 then 2 ^ 31 else 0) + ((126 + l) * 2 ^ 23 + q) < 2 ^ 32 := by split <;> omega
  refine ⟨(if i < 0 then 2 ^ 31 else 0) + ((126 + l) * 2 ^ 23 + q), hlt, ?_, ?_⟩
  · unfold Finite32; split <;> omega
  · have hmod : ((if i < 0 then 2 ^ 31 else 0) + ((126 + l) * 2 ^ 23 + q)) % 2 ^ 31 = (126 + l) * 2 ^ 23 + q := by split <;> omega
    have hsign : ((if i < 0 then 2 ^ 31 else 0) + ((126 + l) * 2 ^ 23 + q)) / 2 ^ 31 = 0 ↔ ¬ i < 0 := by split <;> omega
    unfold value32
    rw [magnitude32_eq hlt, hmod, mag32_normal q1 (by omega), e, Nat.mul_assoc, ← Nat.pow_add, show 149 + 925 = 1074 from rfl, Int.natCast_mul,
      show (((2 : Nat) ^ 1074 : Nat) : Int) = (2 : Int) ^ 1074 from Int.natCast_pow 2 1074]
    generalize (2 : Int) ^ 1074 = P
    by_cases hs : i < 0
    · rw [if_neg (fun h => hsign.1 h hs), ← Int.neg_mul, show -((i.natAbs : Nat) : Int) = i by omega]
    · rw [if_pos (hsign.2 hs), show ((i.natAbs : Nat) : Int) = i by omega]

end F
end Genie
