import Verif.Spec.Floats
import Verif.Proof.Float
/-! # Narrowing rounds to nearest, ties to even -/

namespace Genie

/-- distance on naturals -/
def ndist (a b : Nat) : Nat := (a - b) + (b - a)

namespace F

/-- `rne` is nearest. -/
theorem rne_nearest (x sh j : Nat) (_hsh : 1 ≤ sh) :
    ndist x (rne x sh * 2 ^ sh) ≤ ndist x (j * 2 ^ sh) ∧
    (ndist x (rne x sh * 2 ^ sh) = ndist x (j * 2 ^ sh) → j ≠ rne x sh → rne x sh % 2 = 0) := by
  have hP : 0 < 2 ^ sh := Nat.two_pow_pos sh
  generalize hPg : 2 ^ sh = P at *
  have hx := Nat.div_add_mod x P
  have hr := Nat.mod_lt x hP
  unfold rne
  rw [hPg]
  simp only
  generalize x / P = q0 at *
  generalize x % P = r at *
  have hcomm : P * q0 = q0 * P := Nat.mul_comm _ _
  have succ : (q0 + 1) * P = q0 * P + P := Nat.succ_mul _ _
  have hj : j = q0 ∨ j = q0 + 1 ∨ j * P + P ≤ q0 * P ∨ q0 * P + 2 * P ≤ j * P := by
    rcases Nat.lt_trichotomy j q0 with h | h | h
    · right; right; left
      have := Nat.mul_le_mul_right P (show j + 1 ≤ q0 from h)
      rw [Nat.succ_mul] at this; exact this
    · left; exact h
    · by_cases h2 : j = q0 + 1
      · right; left; exact h2
      · right; right; right
        have := Nat.mul_le_mul_right P (show q0 + 2 ≤ j by omega)
        rw [Nat.add_mul] at this; exact this
  unfold ndist
  split
  · rename_i hc
    rw [succ]
    rcases hj with rfl | rfl | h | h
    · generalize j * P = A at *; constructor <;> intros <;> omega
    · rw [succ]; constructor
      · exact Nat.le_refl _
      · intro _ h2; exact absurd rfl h2
    · generalize q0 * P = A at *; generalize j * P = B at *; constructor <;> intros <;> omega
    · generalize q0 * P = A at *; generalize j * P = B at *; constructor <;> intros <;> omega
  · rename_i hc
    rcases hj with rfl | rfl | h | h
    · constructor
      · exact Nat.le_refl _
      · intro _ h2; exact absurd rfl h2
    · rw [succ]
      generalize q0 * P = A at *; constructor <;> intros <;> omega
    · generalize q0 * P = A at *; generalize j * P = B at *; constructor <;> intros <;> omega
    · generalize q0 * P = A at *; generalize j * P = B at *; constructor <;> intros <;> omega

theorem rne_bounds {x sh a b : Nat} (h1 : a * 2 ^ sh ≤ x) (h2 : x < b * 2 ^ sh) :
    a ≤ rne x sh ∧ rne x sh ≤ b := by
  have hP : 0 < 2 ^ sh := Nat.two_pow_pos sh
  have q1 : a ≤ x / 2 ^ sh := (Nat.le_div_iff_mul_le hP).2 h1
  have q2 : x / 2 ^ sh < b := (Nat.div_lt_iff_lt_mul hP).2 h2
  unfold rne
  simp only
  split <;> omega

/-- magnitude value of a single with magnitude bits `k`, in units of `2^-149` -/
def mag32 (k : Nat) : Nat := if k / 2 ^ 23 = 0 then k else (2 ^ 23 + k % 2 ^ 23) * 2 ^ (k / 2 ^ 23 - 1)

theorem mag32_small {k : Nat} (h : k ≤ 2 ^ 23) : mag32 k = k := by
  unfold mag32
  by_cases h0 : k / 2 ^ 23 = 0
  · rw [if_pos h0]
  · have : k = 2 ^ 23 := by omega
    subst this; rfl

theorem mag32_normal {a q : Nat} (h1 : 2 ^ 23 ≤ q) (h2 : q ≤ 2 ^ 24) : mag32 (a * 2 ^ 23 + q) = q * 2 ^ a := by
  unfold mag32
  by_cases h : q = 2 ^ 24
  · subst h
    have e1 : (a * 2 ^ 23 + 2 ^ 24) / 2 ^ 23 = a + 2 := by omega
    have e2 : (a * 2 ^ 23 + 2 ^ 24) % 2 ^ 23 = 0 := by omega
    rw [e1, e2, if_neg (by omega), show a + 2 - 1 = a + 1 by omega, Nat.add_zero, Nat.pow_succ 2 a, show (2 : Nat) ^ 24 = 2 ^ 23 * 2 from rfl,
      Nat.mul_comm (2 ^ a), Nat.mul_assoc]
  · have e1 : (a * 2 ^ 23 + q) / 2 ^ 23 = a + 1 := by omega
    have e2 : (a * 2 ^ 23 + q) % 2 ^ 23 = q - 2 ^ 23 := by omega
    rw [e1, e2, if_neg (by omega), show a + 1 - 1 = a by omega, show 2 ^ 23 + (q - 2 ^ 23) = q by omega]

/-- every single is a multiple of `2^a` units, or smaller than `2^23 * 2^a` -/
theorem mag32_multiple (k a : Nat) : (∃ j, mag32 k = j * 2 ^ a) ∨ mag32 k < 2 ^ 23 * 2 ^ a := by
  unfold mag32
  by_cases h0 : k / 2 ^ 23 = 0
  · rw [if_pos h0]
    right
    have : k < 2 ^ 23 := by omega
    exact Nat.lt_of_lt_of_le this (Nat.le_mul_of_pos_right _ (Nat.two_pow_pos a))
  · rw [if_neg h0]
    by_cases ha : a ≤ k / 2 ^ 23 - 1
    · left
      refine ⟨(2 ^ 23 + k % 2 ^ 23) * 2 ^ (k / 2 ^ 23 - 1 - a), ?_⟩
      rw [Nat.mul_assoc, ← Nat.pow_add, show k / 2 ^ 23 - 1 - a + a = k / 2 ^ 23 - 1 by omega]
    · right
      obtain ⟨t, ht⟩ : ∃ t, a = k / 2 ^ 23 - 1 + 1 + t := ⟨a - (k / 2 ^ 23 - 1 + 1), by omega⟩
      generalize k / 2 ^ 23 - 1 = c at *
      have h1 : k % 2 ^ 23 < 2 ^ 23 := Nat.mod_lt _ (by decide)
      rw [ht, Nat.pow_add, Nat.pow_succ 2 c]
      have h2 : 0 < 2 ^ c := Nat.two_pow_pos c
      have h3 : 0 < 2 ^ t := Nat.two_pow_pos t
      have h4 : (2 ^ 23 + k % 2 ^ 23) * 2 ^ c < 2 ^ 24 * 2 ^ c := Nat.mul_lt_mul_of_pos_right (by omega) h2
      have h5 : 2 ^ c * 2 ≤ 2 ^ c * 2 * 2 ^ t := Nat.le_mul_of_pos_right _ h3
      generalize (2 ^ 23 + k % 2 ^ 23) * 2 ^ c = X at *
      generalize 2 ^ c * 2 * 2 ^ t = Y at *
      omega

/-- significand and effective exponent of a double -/
def sig64 (e m : Nat) : Nat := if e = 0 then m else 2 ^ 52 + m
def exp64' (e : Nat) : Nat := if e = 0 then 1 else e

theorem narrowMag_eq (e m : Nat) : narrowMag e m =
    if 897 ≤ exp64' e then (exp64' e - 897) * 2 ^ 23 + rne (sig64 e m) 29 else rne (sig64 e m) (926 - exp64' e) := rfl

theorem ndist_mul (a b c : Nat) : ndist (a * c) (b * c) = ndist a b * c := by
  unfold ndist
  rw [Nat.add_mul, Nat.sub_mul, Nat.sub_mul]

theorem nearer {X R B Y : Nat} {c : Prop} {d : Prop} (h1 : ndist X R ≤ ndist X B) (h2 : Y < B) (h3 : B ≤ X) :
    ndist X R ≤ ndist X Y ∧ (ndist X R = ndist X Y → c → d) := by
  have : ndist X R < ndist X Y := by unfold ndist at *; omega
  exact ⟨by omega, fun h => by omega⟩

/-- Narrowing is nearest among all single magnitudes (unbounded exponent). -/
theorem narrowMag_nearest {e m : Nat} (he : e < 2047) (hm : m < 2 ^ 52) (k : Nat) :
    ndist (sig64 e m * 2 ^ (exp64' e - 1)) (mag32 (narrowMag e m) * 2 ^ 925) ≤
      ndist (sig64 e m * 2 ^ (exp64' e - 1)) (mag32 k * 2 ^ 925) ∧
    (ndist (sig64 e m * 2 ^ (exp64' e - 1)) (mag32 (narrowMag e m) * 2 ^ 925) =
      ndist (sig64 e m * 2 ^ (exp64' e - 1)) (mag32 k * 2 ^ 925) → mag32 k ≠ mag32 (narrowMag e m) →
      narrowMag e m % 2 = 0) := by
  rw [narrowMag_eq]
  have hsig : sig64 e m < 2 ^ 53 := by unfold sig64; split <;> omega
  have hexp : 1 ≤ exp64' e := by unfold exp64'; split <;> omega
  by_cases hc : 897 ≤ exp64' e
  · rw [if_pos hc]
    have hsig2 : 2 ^ 52 ≤ sig64 e m := by
      unfold sig64 exp64' at *; split at hc <;> split <;> omega
    obtain ⟨a, ha⟩ : ∃ a, exp64' e = 897 + a := ⟨exp64' e - 897, by omega⟩
    rw [ha, show 897 + a - 897 = a by omega, show 897 + a - 1 = a + 896 by omega]
    generalize sig64 e m = x at *
    obtain ⟨b1, b2⟩ := rne_bounds (x := x) (sh := 29) (a := 2 ^ 23) (b := 2 ^ 24) (by omega) (by omega)
    rw [mag32_normal b1 b2]
    have e1 : x * 2 ^ (a + 896) = x * (2 ^ a * 2 ^ 896) := by rw [Nat.pow_add]
    have e2 : ∀ j, j * 2 ^ a * 2 ^ 925 = (j * 2 ^ 29) * (2 ^ a * 2 ^ 896) := by
      intro j
      rw [show (925 : Nat) = 29 + 896 from rfl, Nat.pow_add]
      generalize 2 ^ 896 = P
      generalize 2 ^ a = A
      simp only [Nat.mul_assoc, Nat.mul_left_comm, Nat.mul_comm]
    have hpos : 0 < 2 ^ a * 2 ^ 896 := Nat.mul_pos (Nat.two_pow_pos _) (Nat.two_pow_pos _)
    have hpar : (a * 2 ^ 23 + rne x 29) % 2 = rne x 29 % 2 := by omega
    rw [hpar]
    rcases mag32_multiple k a with ⟨j, hj⟩ | hlt
    · obtain ⟨n1, n2⟩ := rne_nearest x 29 j (by omega)
      rw [hj, e1, e2, e2, ndist_mul, ndist_mul]
      refine ⟨Nat.mul_le_mul_right _ n1, ?_⟩
      intro h1 h2
      refine n2 (Nat.eq_of_mul_eq_mul_right hpos h1) ?_
      rintro rfl; exact h2 rfl
    · -- below the binade: `2^23` is nearer
      obtain ⟨n1, -⟩ := rne_nearest x 29 (2 ^ 23) (by omega)
      have e3 : mag32 k * 2 ^ 925 < 2 ^ 23 * 2 ^ a * 2 ^ 925 :=
        Nat.mul_lt_mul_of_pos_right hlt (Nat.two_pow_pos _)
      rw [e2] at e3
      rw [e1, e2]
      have n3 : ndist x (rne x 29 * 2 ^ 29) * (2 ^ a * 2 ^ 896) ≤ ndist x (2 ^ 23 * 2 ^ 29) * (2 ^ a * 2 ^ 896) :=
        Nat.mul_le_mul_right _ n1
      rw [← ndist_mul x, ← ndist_mul x] at n3
      have n4 : 2 ^ 23 * 2 ^ 29 * (2 ^ a * 2 ^ 896) ≤ x * (2 ^ a * 2 ^ 896) := Nat.mul_le_mul_right _ (by omega)
      exact nearer n3 e3 n4
  · rw [if_neg hc]
    obtain ⟨sh, hsh⟩ : ∃ sh, 926 - exp64' e = sh ∧ exp64' e - 1 + sh = 925 ∧ 30 ≤ sh := ⟨_, rfl, by omega, by omega⟩
    rw [hsh.1]
    generalize sig64 e m = x at *
    have hb : rne x sh ≤ 2 ^ 23 := by
      refine (rne_bounds (a := 0) (b := 2 ^ 23) (by omega) ?_).2
      have : 2 ^ 30 ≤ 2 ^ sh := Nat.pow_le_pow_right (by omega) hsh.2.2
      omega
    rw [mag32_small hb]
    have e2 : ∀ j, j * 2 ^ 925 = (j * 2 ^ sh) * 2 ^ (exp64' e - 1) := by
      intro j
      rw [← hsh.2.1, Nat.pow_add, Nat.mul_assoc, Nat.mul_comm (2 ^ sh)]
    obtain ⟨n1, n2⟩ := rne_nearest x sh (mag32 k) (by omega)
    rw [e2, e2, ndist_mul, ndist_mul]
    refine ⟨Nat.mul_le_mul_right _ n1, ?_⟩
    intro h1 h2
    exact n2 (Nat.eq_of_mul_eq_mul_right (Nat.two_pow_pos _) h1) h2

end F
end Genie
