import Verif.Proof.Nearest
/-! # Values of widened and narrowed floats -/

namespace Genie
namespace F
set_option exponentiation.threshold 2000

theorem magnitude32_eq {w : Nat} (_hw : w < 2 ^ 32) : magnitude32 w = mag32 (w % 2 ^ 31) * 2 ^ 925 := by
  unfold magnitude32 mag32
  have e1 : w % 2 ^ 31 / 2 ^ 23 = w / 2 ^ 23 % 2 ^ 8 := by omega
  have e2 : w % 2 ^ 31 % 2 ^ 23 = w % 2 ^ 23 := by omega
  rw [e1, e2]
  congr 1
  split
  · omega
  · rfl

theorem magnitude64_eq (d : Nat) : magnitude64 d = sig64 (exp64 d) (man64 d) * 2 ^ (exp64' (exp64 d) - 1) := by
  unfold magnitude64 sig64 exp64' exp64 man64
  rw [show (2 : Nat) ^ 11 = 2048 from rfl]
  split
  · simp
  · rfl

theorem narrow_finite {d : Nat} (hf : exp64 d ≠ 2047) (ho : narrowOverflows d = false) :
    narrow d = sign64 d * 2 ^ 31 + narrowMag (exp64 d) (man64 d) ∧
      narrowMag (exp64 d) (man64 d) < 255 * 2 ^ 23 := by
  refine ⟨?_, ?_⟩
  · unfold narrow; simp only; rw [if_neg hf, ho]; rfl
  · unfold narrowOverflows at ho
    simp only [Bool.and_eq_false_iff, bne_eq_false_iff_eq, decide_eq_false_iff_not] at ho
    omega

theorem signs {X R Y : Nat} {s s' : Prop} [Decidable s] [Decidable s'] {e : Prop}
    (h : ndist X R ≤ ndist X Y ∧ (ndist X R = ndist X Y → Y ≠ R → e))
    (h0 : ndist X R ≤ ndist X 0 ∧ (ndist X R = ndist X 0 → 0 ≠ R → e)) :
    ((if s then (X : Int) else -X) - (if s then (R : Int) else -R)).natAbs ≤
        ((if s then (X : Int) else -X) - (if s' then (Y : Int) else -Y)).natAbs ∧
      (((if s then (X : Int) else -X) - (if s then (R : Int) else -R)).natAbs =
        ((if s then (X : Int) else -X) - (if s' then (Y : Int) else -Y)).natAbs →
        (if s then (R : Int) else -R) ≠ (if s' then (Y : Int) else -Y) → e) := by
  unfold ndist at *
  obtain ⟨a1, a2⟩ := h
  obtain ⟨b1, b2⟩ := h0
  split <;> split
  · refine ⟨by omega, fun h1 h2 => a2 (by omega) (by omega)⟩
  · refine ⟨by omega, fun h1 h2 => b2 (by omega) (by omega)⟩
  · refine ⟨by omega, fun h1 h2 => b2 (by omega) (by omega)⟩
  · refine ⟨by omega, fun h1 h2 => a2 (by omega) (by omega)⟩

theorem narrow_nearest {d : Nat} (hd : d < 2 ^ 64) (hf : Finite64 d) (ho : narrowOverflows d = false) :
    NearestEven (value64 d) (narrow d) := by
  have hf' : exp64 d ≠ 2047 := hf
  have he : exp64 d < 2047 := by have := exp64_lt d; omega
  have hm := man64_lt d
  have hs := sign64_lt hd
  obtain ⟨n1, n2⟩ := narrow_finite hf' ho
  have hlt : narrow d < 2 ^ 32 := by rw [n1]; omega
  have hmod : narrow d % 2 ^ 31 = narrowMag (exp64 d) (man64 d) := by rw [n1]; omega
  have hsign : narrow d / 2 ^ 31 = sign64 d := by rw [n1]; omega
  have hpar : narrow d % 2 = narrowMag (exp64 d) (man64 d) % 2 := by omega
  refine ⟨?_, ?_⟩
  · unfold Finite32; rw [n1]; omega
  · intro w' hw' _
    have key := narrowMag_nearest he hm (w' % 2 ^ 31)
    have key0 := narrowMag_nearest he hm 0
    rw [show mag32 0 = 0 from rfl, Nat.zero_mul] at key0
    rw [← hmod, ← magnitude32_eq hlt, ← magnitude32_eq hw', ← magnitude64_eq] at key
    rw [← hmod, ← magnitude32_eq hlt, ← magnitude64_eq] at key0
    have hP : 0 < 2 ^ 925 := Nat.two_pow_pos _
    rw [hmod, ← hpar] at key key0
    unfold value64 value32
    rw [hsign]
    change _ ≤ _ ∧ _
    unfold sign64
    refine signs ⟨key.1, fun h1 h2 => key.2 h1 ?_⟩ ⟨key0.1, fun h1 h2 => key0.2 h1 ?_⟩
    · intro h; apply h2; rw [magnitude32_eq hlt, magnitude32_eq hw', hmod, h]
    · intro h; apply h2; rw [magnitude32_eq hlt, hmod, ← h, Nat.zero_mul]

theorem narrowMag_overflow {e m : Nat} (he : e < 2047) (hm : m < 2 ^ 52) :
    255 * 2 ^ 23 ≤ narrowMag e m ↔ overflowThreshold ≤ sig64 e m * 2 ^ (exp64' e - 1) := by
  rw [narrowMag_eq]
  have hsig : sig64 e m < 2 ^ 53 := by unfold sig64; split <;> omega
  have hexp : 1 ≤ exp64' e := by unfold exp64'; split <;> omega
  have hT : overflowThreshold = (2 ^ 53 - 2 ^ 28) * 2 ^ 1149 := by
    unfold overflowThreshold
    rw [show (1177 : Nat) = 28 + 1149 from rfl, Nat.pow_add, ← Nat.mul_assoc]
  rw [hT]
  have small : ∀ x k, x < 2 ^ 53 → k < 1149 → x * 2 ^ k < (2 ^ 53 - 2 ^ 28) * 2 ^ 1149 := by
    intro x k hx hk
    obtain ⟨t, ht⟩ : ∃ t, 1149 = k + 1 + t := ⟨1149 - k - 1, by omega⟩
    rw [ht, Nat.pow_add, Nat.pow_succ 2 k]
    have h1 : x * 2 ^ k < 2 ^ 53 * 2 ^ k := Nat.mul_lt_mul_of_pos_right hx (Nat.two_pow_pos _)
    have h2 : 2 ^ k * 2 ≤ 2 ^ k * 2 * 2 ^ t := Nat.le_mul_of_pos_right _ (Nat.two_pow_pos _)
    have h3 := Nat.two_pow_pos k
    generalize 2 ^ k * 2 * 2 ^ t = Z at *
    generalize 2 ^ k = K at *
    generalize x * K = W at *
    omega
  by_cases hc : 897 ≤ exp64' e
  · rw [if_pos hc]
    have hsig2 : 2 ^ 52 ≤ sig64 e m := by
      unfold sig64 exp64' at *; split at hc <;> split <;> omega
    generalize sig64 e m = x at *
    obtain ⟨b1, b2⟩ := rne_bounds (x := x) (sh := 29) (a := 2 ^ 23) (b := 2 ^ 24) (by omega) (by omega)
    rcases Nat.lt_trichotomy (exp64' e) 1150 with h | h | h
    · have := small x (exp64' e - 1) hsig (by omega)
      constructor
      · intro h'; exfalso; omega
      · intro h'; exact absurd this (Nat.not_lt.2 h')
    · rw [h, show 1150 - 1 = 1149 from rfl]
      rw [Nat.mul_le_mul_right_iff (Nat.two_pow_pos 1149)]
      have : rne x 29 = 2 ^ 24 ↔ 2 ^ 53 - 2 ^ 28 ≤ x := by
        unfold rne; simp only
        constructor
        · intro h; split at h <;> omega
        · intro h; split <;> omega
      rw [← this]; omega
    · constructor
      · intro _
        obtain ⟨t, ht⟩ : ∃ t, exp64' e - 1 = 1149 + 1 + t := ⟨exp64' e - 1 - 1150, by omega⟩
        rw [ht, Nat.pow_add, Nat.pow_succ 2 1149]
        have h1 : 2 ^ 52 * (2 ^ 1149 * 2 * 2 ^ t) ≤ x * (2 ^ 1149 * 2 * 2 ^ t) := Nat.mul_le_mul_right _ hsig2
        have h2 : 2 ^ 1149 * 2 ≤ 2 ^ 1149 * 2 * 2 ^ t := Nat.le_mul_of_pos_right _ (Nat.two_pow_pos _)
        generalize 2 ^ 1149 * 2 * 2 ^ t = Z at *
        generalize 2 ^ 1149 = K at *
        generalize x * Z = W at *
        omega
      · intro _; omega
  · rw [if_neg hc]
    generalize sig64 e m = x at *
    have := small x (exp64' e - 1) hsig (by omega)
    constructor
    · intro h'; exfalso
      have hb : rne x (926 - exp64' e) ≤ 2 ^ 23 := by
        refine (rne_bounds (a := 0) (b := 2 ^ 23) (by omega) ?_).2
        have : 2 ^ 30 ≤ 2 ^ (926 - exp64' e) := Nat.pow_le_pow_right (by omega) (by omega)
        omega
      omega
    · intro h'; exact absurd this (Nat.not_lt.2 h')

theorem narrowOverflows_iff {d : Nat} (hf : Finite64 d) :
    narrowOverflows d = true ↔ overflowThreshold ≤ (value64 d).natAbs := by
  have hf' : exp64 d ≠ 2047 := hf
  have he : exp64 d < 2047 := by have := exp64_lt d; omega
  have : (value64 d).natAbs = magnitude64 d := by unfold value64; split <;> simp
  rw [this, magnitude64_eq, ← narrowMag_overflow he (man64_lt d)]
  unfold narrowOverflows
  simp only [Bool.and_eq_true, bne_iff_ne, ne_eq, hf', not_false_eq_true, true_and, decide_eq_true_eq]

/-- widening keeps the value -/
theorem value64_widen {w : Nat} (hw : w < 2 ^ 32) (hf : Finite32 w) :
    Finite64 (widen w) ∧ value64 (widen w) = value32 w := by
  have hf' : exp32 w ≠ 255 := hf
  obtain ⟨s, e, m, h, hs, he, hm, hsg, hc⟩ := widen_spec hw
  have h1 := sign64_mk64 (s := s) he hm
  have h2 := exp64_mk64 (s := s) he hm
  have h3 := man64_mk64 (s := s) (e := e) hm
  have hman := man32_lt w
  rw [← h] at h1 h2 h3
  have he47 : e ≠ 2047 := by
    rcases hc with ⟨a, b, _⟩ | ⟨a, _⟩ | ⟨_, _, a, b, _⟩ | ⟨_, a, b, _⟩ <;> omega
  have hmag : magnitude64 (widen w) = magnitude32 w := by
    rw [magnitude64_eq, magnitude32_eq hw, h2, h3]
    have hx : w % 2 ^ 31 = exp32 w * 2 ^ 23 + man32 w := by unfold exp32 man32; omega
    rw [hx]
    rcases hc with ⟨a, b, _⟩ | ⟨a, b, c, d⟩ | ⟨a, b, c, d, f, g⟩ | ⟨a, b, c, d⟩
    · omega
    · rw [a, b, c, d]; rfl
    · rw [a, d, Nat.zero_mul, Nat.zero_add, mag32_small (by omega)]
      unfold sig64 exp64'
      rw [if_neg (by omega), if_neg (by omega), f, Nat.mul_assoc, ← Nat.pow_add,
        show 52 - (man32 w).log2 + ((man32 w).log2 + 874 - 1) = 925 by omega]
    · rw [c, d]
      unfold sig64 exp64'
      rw [if_neg (by omega), if_neg (by omega)]
      have : exp32 w * 2 ^ 23 + man32 w = (exp32 w - 1) * 2 ^ 23 + (2 ^ 23 + man32 w) := by omega
      rw [this, mag32_normal (by omega) (by omega)]
      have : 2 ^ 52 + man32 w * 2 ^ 29 = (2 ^ 23 + man32 w) * 2 ^ 29 := by omega
      rw [this, Nat.mul_assoc, Nat.mul_assoc, ← Nat.pow_add, ← Nat.pow_add,
        show 29 + (exp32 w + 896 - 1) = exp32 w - 1 + 925 by omega]
  refine ⟨?_, ?_⟩
  · unfold Finite64; change exp64 _ ≠ _; rw [h2]; exact he47
  · unfold value64 value32
    rw [hmag]
    change (if sign64 (widen w) = 0 then _ else _) = (if sign32 w = 0 then _ else _)
    rw [h1, hsg]

/-- the magnitude determines exponent and mantissa -/
theorem magnitude64_inj {d d' : Nat} (h : magnitude64 d = magnitude64 d') :
    exp64 d = exp64 d' ∧ man64 d = man64 d' := by
  have lt : ∀ a b, exp64 a < exp64 b → magnitude64 a < magnitude64 b := by
    intro a b hab
    rw [magnitude64_eq, magnitude64_eq]
    have ha := man64_lt a
    unfold sig64 exp64'
    rw [if_neg (show exp64 b ≠ 0 by omega), if_neg (show exp64 b ≠ 0 by omega)]
    by_cases h0 : exp64 a = 0
    · rw [if_pos h0, if_pos h0]
      simp only [Nat.sub_self, Nat.pow_zero, Nat.mul_one]
      exact Nat.lt_of_lt_of_le (show man64 a < 2 ^ 52 + man64 b by omega)
        (Nat.le_mul_of_pos_right _ (Nat.two_pow_pos _))
    · rw [if_neg h0, if_neg h0]
      obtain ⟨t, ht⟩ : ∃ t, exp64 b - 1 = exp64 a - 1 + 1 + t := ⟨exp64 b - 1 - exp64 a, by omega⟩
      rw [ht, Nat.pow_add, Nat.pow_succ 2 (exp64 a - 1)]
      have hp := Nat.two_pow_pos (exp64 a - 1)
      have hq : 2 ^ (exp64 a - 1) * 2 ≤ 2 ^ (exp64 a - 1) * 2 * 2 ^ t :=
        Nat.le_mul_of_pos_right _ (Nat.two_pow_pos _)
      have h1 : (2 ^ 52 + man64 a) * 2 ^ (exp64 a - 1) < 2 ^ 53 * 2 ^ (exp64 a - 1) :=
        Nat.mul_lt_mul_of_pos_right (by omega) hp
      have h2 : 2 ^ 52 * (2 ^ (exp64 a - 1) * 2 * 2 ^ t) ≤ (2 ^ 52 + man64 b) * (2 ^ (exp64 a - 1) * 2 * 2 ^ t) :=
        Nat.mul_le_mul_right _ (by omega)
      generalize (2 ^ 52 + man64 b) * (2 ^ (exp64 a - 1) * 2 * 2 ^ t) = Z at *
      generalize 2 ^ (exp64 a - 1) * 2 * 2 ^ t = Y at *
      generalize (2 ^ 52 + man64 a) * 2 ^ (exp64 a - 1) = W at *
      generalize 2 ^ (exp64 a - 1) = V at *
      omega
  rcases Nat.lt_trichotomy (exp64 d) (exp64 d') with hl | he | hg
  · have := lt _ _ hl; omega
  · refine ⟨he, ?_⟩
    rw [magnitude64_eq, magnitude64_eq, he] at h
    have := Nat.eq_of_mul_eq_mul_right (Nat.two_pow_pos _) h
    unfold sig64 at this
    split at this <;> omega
  · have := lt _ _ hg; omega

end F

/-- For numbers, `IsF32` says exactly that some single has the same value. -/
theorem IsF32_iff_value {x : PyFloat} (hf : Finite64 x.bits.toNat) :
    IsF32 x ↔ ∃ w, w < 2 ^ 32 ∧ Finite32 w ∧ value32 w = value64 x.bits.toNat := by
  have hx : x.bits.toNat < 2 ^ 64 := x.bits.isLt
  rw [IsF32_iff]
  constructor
  · rintro ⟨w, hw, -, hwx⟩
    have hfw : Finite32 w := by
      intro h
      obtain ⟨s, e, m, h1, hs, he, hm, hsg, hc⟩ := F.widen_spec hw
      have h2 := F.exp64_mk64 (s := s) he hm
      rw [← h1, hwx] at h2
      have h' : F.exp32 w = 255 := h
      have : F.exp64 x.bits.toNat ≠ 2047 := hf
      rcases hc with ⟨a, b, _⟩ | ⟨a, _, c, _⟩ | ⟨c, _, a, b, _⟩ | ⟨_, a, b, _⟩ <;> omega
    have := F.value64_widen hw hfw
    rw [hwx] at this
    exact ⟨w, hw, hfw, this.2.symm⟩
  · rintro ⟨w, hw, hfw, hv⟩
    have hwid := F.value64_widen hw hfw
    rw [hv] at hwid
    have key : ∀ w', w' < 2 ^ 32 → Finite32 w' → F.widen w' = x.bits.toNat →
        ∃ w, w < 2 ^ 32 ∧ F.isSNaN32 w = false ∧ F.widen w = x.bits.toNat := by
      intro w' h1 h2 h3
      refine ⟨w', h1, ?_, h3⟩
      have : F.exp32 w' ≠ 255 := h2
      simp [F.isSNaN32, this]
    have hmag : magnitude64 (F.widen w) = magnitude64 x.bits.toNat := by
      have h1 := hwid.2
      unfold value64 at h1
      split at h1 <;> split at h1 <;> omega
    obtain ⟨e1, e2⟩ := F.magnitude64_inj hmag
    have f1 := F.mk64_fields (F.widen_lt hw)
    have f2 := F.mk64_fields hx
    have s1 := F.sign64_lt (F.widen_lt hw)
    have s2 := F.sign64_lt hx
    by_cases hsg : F.sign64 (F.widen w) = F.sign64 x.bits.toNat
    · exact key w hw hfw (by rw [← f1, ← f2, e1, e2, hsg])
    · -- signs differ: both are zero
      have h1 := hwid.2
      have hz : magnitude64 x.bits.toNat = 0 := by
        unfold value64 at h1
        unfold F.sign64 at *
        split at h1 <;> split at h1 <;> omega
      have hz0 : F.exp64 x.bits.toNat = 0 ∧ F.man64 x.bits.toNat = 0 := by
        have := @F.magnitude64_inj x.bits.toNat 0 (by rw [hz]; rfl)
        exact this
      refine key (F.sign64 x.bits.toNat * 2 ^ 31) (by omega) (by unfold Finite32; omega) ?_
      have g1 : F.sign32 (F.sign64 x.bits.toNat * 2 ^ 31) = F.sign64 x.bits.toNat := by unfold F.sign32; omega
      have g2 : F.exp32 (F.sign64 x.bits.toNat * 2 ^ 31) = 0 := by unfold F.exp32; omega
      have g3 : F.man32 (F.sign64 x.bits.toNat * 2 ^ 31) = 0 := by unfold F.man32; omega
      unfold F.widen
      simp only [g1, g2, g3]
      rw [hz0.1, hz0.2] at f2
      simpa using f2

end Genie
