import Verif.Py.Float
import Verif.Spec.Ranges
import Verif.Proof.Int
/-! # Lemmas about `F.widen` / `F.narrow` -/

namespace Genie
set_option linter.unusedSimpArgs false

/-- `omega`, proving an equation as two inequalities (avoids a recursion limit with big literals). -/
macro "lomega" : tactic =>
  `(tactic| first | (apply Nat.le_antisymm <;> omega) | (refine ⟨?_, ?_⟩ <;> first | trivial | (apply Nat.le_antisymm <;> omega)))

namespace F

theorem sign64_mk64 {s e m : Nat} (he : e < 2048) (hm : m < 2 ^ 52) : sign64 (mk64 s e m) = s := by
  unfold sign64 mk64; omega
theorem exp64_mk64 {s e m : Nat} (he : e < 2048) (hm : m < 2 ^ 52) : exp64 (mk64 s e m) = e := by
  unfold exp64 mk64; omega
theorem man64_mk64 {s e m : Nat} (hm : m < 2 ^ 52) : man64 (mk64 s e m) = m := by
  unfold man64 mk64; omega
theorem mk64_lt {s e m : Nat} (hs : s < 2) (he : e < 2048) (hm : m < 2 ^ 52) :
    mk64 s e m < 2 ^ 64 := by unfold mk64; omega
theorem mk64_fields {d : Nat} (_h : d < 2 ^ 64) : mk64 (sign64 d) (exp64 d) (man64 d) = d := by
  unfold mk64 sign64 exp64 man64; omega
theorem exp64_lt (d : Nat) : exp64 d < 2048 := by unfold exp64; omega
theorem man64_lt (d : Nat) : man64 d < 2 ^ 52 := by unfold man64; omega
theorem sign64_lt {d : Nat} (_h : d < 2 ^ 64) : sign64 d < 2 := by unfold sign64; omega
theorem exp32_lt (w : Nat) : exp32 w < 256 := by unfold exp32; omega
theorem man32_lt (w : Nat) : man32 w < 2 ^ 23 := by unfold man32; omega
theorem sign32_lt {w : Nat} (_h : w < 2 ^ 32) : sign32 w < 2 := by unfold sign32; omega
theorem fields32 (w : Nat) : sign32 w * 2 ^ 31 + exp32 w * 2 ^ 23 + man32 w = w := by
  unfold sign32 exp32 man32; omega

theorem rne_mul (m sh : Nat) : rne (m * 2 ^ sh) sh = m := by
  unfold rne
  have hp : 0 < 2 ^ sh := Nat.two_pow_pos sh
  simp only [Nat.mul_mod_left, Nat.mul_div_cancel _ hp]
  rw [if_neg]; omega

/-- mantissa of a subnormal single -/
theorem sub_man {m : Nat} (h0 : m ≠ 0) (hm : m < 2 ^ 23) :
    m.log2 ≤ 22 ∧ 2 ^ m.log2 ≤ m ∧ (m - 2 ^ m.log2) * 2 ^ (52 - m.log2) < 2 ^ 52 ∧
      2 ^ 52 + (m - 2 ^ m.log2) * 2 ^ (52 - m.log2) = m * 2 ^ (52 - m.log2) := by
  have h1 : m.log2 < 23 := (Nat.log2_lt h0).2 hm
  have h2 : 2 ^ m.log2 ≤ m := Nat.log2_self_le h0
  have h3 : m < 2 ^ (m.log2 + 1) := Nat.lt_log2_self
  have h4 : 2 ^ m.log2 * 2 ^ (52 - m.log2) = 2 ^ 52 := by rw [← Nat.pow_add]; congr 1; omega
  have h5 : m - 2 ^ m.log2 < 2 ^ m.log2 := by rw [Nat.pow_succ] at h3; omega
  refine ⟨by omega, h2, ?_, ?_⟩
  · calc _ < 2 ^ m.log2 * 2 ^ (52 - m.log2) := Nat.mul_lt_mul_of_pos_right h5 (Nat.two_pow_pos _)
      _ = _ := h4
  · rw [Nat.sub_mul, h4]
    have : 2 ^ 52 ≤ m * 2 ^ (52 - m.log2) := by rw [← h4]; exact Nat.mul_le_mul_right _ h2
    omega

/-- Everything about the image of `widen` at once. -/
theorem widen_spec {w : Nat} (hw : w < 2 ^ 32) :
    ∃ s e m, widen w = mk64 s e m ∧ s < 2 ∧ e < 2048 ∧ m < 2 ^ 52 ∧ s = sign32 w ∧
      ((e = 2047 ∧ exp32 w = 255 ∧
          m = (if man32 w = 0 then 0 else if man32 w < 2 ^ 22 then man32 w + 2 ^ 22 else man32 w) * 2 ^ 29)
        ∨ (e = 0 ∧ m = 0 ∧ exp32 w = 0 ∧ man32 w = 0)
        ∨ (exp32 w = 0 ∧ man32 w ≠ 0 ∧ (man32 w).log2 ≤ 22 ∧ e = (man32 w).log2 + 874 ∧
            2 ^ 52 + m = man32 w * 2 ^ (52 - (man32 w).log2) ∧
            m = (man32 w - 2 ^ (man32 w).log2) * 2 ^ (52 - (man32 w).log2))
        ∨ (exp32 w ≠ 0 ∧ exp32 w ≤ 254 ∧ e = exp32 w + 896 ∧ m = man32 w * 2 ^ 29)) := by
  have hs := sign32_lt hw
  have he := exp32_lt w
  have hm := man32_lt w
  unfold widen
  simp only
  by_cases h1 : exp32 w = 255
  · by_cases h2 : man32 w = 0
    · exact ⟨_, _, _, by rw [if_pos h1, if_pos h2], hs, by omega, by omega, rfl, Or.inl ⟨rfl, h1, by simp [h2]⟩⟩
    · refine ⟨_, _, _, by rw [if_pos h1, if_neg h2], hs, by omega, ?_, rfl, Or.inl ⟨rfl, h1, by rw [if_neg h2]⟩⟩
      split <;> omega
  · by_cases h2 : exp32 w = 0
    · by_cases h3 : man32 w = 0
      · exact ⟨_, _, _, by rw [if_neg h1, if_pos h2, if_pos h3], hs, by omega, by omega, rfl, Or.inr (Or.inl ⟨rfl, rfl, h2, h3⟩)⟩
      · have hsub := sub_man h3 hm
        exact ⟨_, _, _, by rw [if_neg h1, if_pos h2, if_neg h3], hs, by omega, hsub.2.2.1, rfl,
          Or.inr (Or.inr (Or.inl ⟨h2, h3, hsub.1, rfl, hsub.2.2.2, rfl⟩))⟩
    · exact ⟨_, _, _, by rw [if_neg h1, if_neg h2], hs, by omega, by omega, rfl,
        Or.inr (Or.inr (Or.inr ⟨h2, by omega, rfl, rfl⟩))⟩

theorem widen_lt {w : Nat} (hw : w < 2 ^ 32) : widen w < 2 ^ 64 := by
  obtain ⟨s, e, m, h, hs, he, hm, _⟩ := widen_spec hw
  rw [h]; exact mk64_lt hs he hm

/-- Narrowing magnitude of a widened finite single is its magnitude. -/
theorem narrowMag_normal {e m : Nat} (he1 : 1 ≤ e) :
    narrowMag (e + 896) (m * 2 ^ 29) = e * 2 ^ 23 + m := by
  unfold narrowMag
  simp only [show e + 896 ≠ 0 by omega, if_false]
  rw [if_pos (by omega)]
  have : 2 ^ 52 + m * 2 ^ 29 = (2 ^ 23 + m) * 2 ^ 29 := by omega
  rw [this, rne_mul]; omega

theorem narrowMag_sub {k m x : Nat} (hk : k ≤ 22) (hx : 2 ^ 52 + m = x * 2 ^ (52 - k)) :
    narrowMag (k + 874) m = x := by
  unfold narrowMag
  simp only [show k + 874 ≠ 0 by omega, if_false]
  rw [if_neg (by omega), hx, show 926 - (k + 874) = 52 - k by omega, rne_mul]

theorem narrow_widen_aux {w : Nat} (hw : w < 2 ^ 32) :
    narrow (widen w) = (if isSNaN32 w then w + 2 ^ 22 else w) ∧ narrowOverflows (widen w) = false := by
  obtain ⟨s, e, m, h, hs, he, hm, hsg, hc⟩ := widen_spec hw
  have hfields := fields32 w
  have hman := man32_lt w
  rw [h]
  clear h
  unfold narrow narrowOverflows
  simp only [sign64_mk64 he hm, exp64_mk64 he hm, man64_mk64 hm]
  rcases hc with ⟨h1, h2, h3⟩ | ⟨h1, h2, h3, h4⟩ | ⟨h1, h2, h3, h4, h5, -⟩ | ⟨h1, h2, h3, h4⟩
  · subst h1
    simp only [bne_self_eq_false, Bool.false_and, and_true, if_true]
    by_cases hz : man32 w = 0
    · simp only [hz, if_true] at h3
      have : isSNaN32 w = false := by simp [isSNaN32, hz]
      rw [if_pos (by omega), this]; simp only [Bool.false_eq_true, if_false, if_true]; lomega
    · rw [if_neg hz] at h3
      by_cases hq : man32 w < 2 ^ 22
      · have : isSNaN32 w = true := by unfold isSNaN32; simp only [h2, beq_self_eq_true, Bool.true_and, Bool.and_eq_true, bne_iff_ne, ne_eq, hz, not_false_eq_true, decide_eq_true_eq, true_and, Bool.and_eq_false_iff, decide_eq_false_iff_not]; omega
        rw [if_pos hq] at h3
        rw [if_neg (by omega), if_neg (by omega), this]; simp only [Bool.false_eq_true, if_false, if_true]; lomega
      · have : isSNaN32 w = false := by unfold isSNaN32; simp only [h2, beq_self_eq_true, Bool.true_and, Bool.and_eq_true, bne_iff_ne, ne_eq, hz, not_false_eq_true, decide_eq_true_eq, true_and, Bool.and_eq_false_iff, decide_eq_false_iff_not]; omega
        rw [if_neg hq] at h3
        rw [if_neg (by omega), if_neg (by omega), this]; simp only [Bool.false_eq_true, if_false, if_true]; lomega
  · subst h1 h2
    have : isSNaN32 w = false := by simp [isSNaN32, h3]
    have h0 : narrowMag 0 0 = 0 := by
      unfold narrowMag; simp only [if_true]; rw [if_neg (by omega)]; unfold rne; simp only [Nat.zero_div, Nat.zero_mod]; rw [if_neg]; have := Nat.two_pow_pos (926 - 1); omega
    rw [this, h0]; simp only [show (255 * 2 ^ 23 ≤ 0) = False by simp, decide_false, Bool.and_false, Bool.false_eq_true, if_false, and_true, show (0:Nat) ≠ 2047 by omega]; lomega
  · have : isSNaN32 w = false := by simp [isSNaN32, h1]
    rw [h4, narrowMag_sub h3 h5, this]
    have hov : (decide (255 * 2 ^ 23 ≤ man32 w)) = false := decide_eq_false (by omega)
    rw [hov, if_neg (by omega)]; simp only [Bool.and_false, Bool.false_eq_true, if_false, and_true]; lomega
  · have : isSNaN32 w = false := by unfold isSNaN32; rw [show (exp32 w == 255) = false by simp; omega]; rfl
    rw [h3, h4, narrowMag_normal (by omega), this]
    have hov : (decide (255 * 2 ^ 23 ≤ exp32 w * 2 ^ 23 + man32 w)) = false := decide_eq_false (by omega)
    rw [hov, if_neg (by omega)]; simp only [Bool.and_false, Bool.false_eq_true, if_false, and_true]; lomega

theorem narrow_widen {w : Nat} (hw : w < 2 ^ 32) :
    narrow (widen w) = if isSNaN32 w then w + 2 ^ 22 else w := (narrow_widen_aux hw).1

theorem narrowOverflows_widen {w : Nat} (hw : w < 2 ^ 32) : narrowOverflows (widen w) = false :=
  (narrow_widen_aux hw).2

end F

/-- The explicit description of single-precision values is exactly the image of widening. -/
theorem IsF32_iff (x : PyFloat) :
    IsF32 x ↔ ∃ w, w < 2 ^ 32 ∧ F.isSNaN32 w = false ∧ F.widen w = x.bits.toNat := by
  have hx : x.bits.toNat < 2 ^ 64 := x.bits.isLt
  constructor
  · intro h
    have hd := F.mk64_fields hx
    have hs := F.sign64_lt hx
    have hm64 := F.man64_lt x.bits.toNat
    rcases h with ⟨he, hm⟩ | ⟨he1, he2, hm⟩ | ⟨he1, he2, hm⟩ | ⟨he, hm, hq⟩
    · change F.exp64 _ = 0 at he
      change F.man64 _ = 0 at hm
      refine ⟨F.sign64 x.bits.toNat * 2 ^ 31, by omega, ?_, ?_⟩
      · simp only [F.isSNaN32, F.exp32, show (F.sign64 x.bits.toNat * 2 ^ 31 / 2 ^ 23 % 256) = 0 by omega]; rfl
      · unfold F.widen
        have h1 : F.sign32 (F.sign64 x.bits.toNat * 2 ^ 31) = F.sign64 x.bits.toNat := by unfold F.sign32; omega
        have h2 : F.exp32 (F.sign64 x.bits.toNat * 2 ^ 31) = 0 := by unfold F.exp32; omega
        have h3 : F.man32 (F.sign64 x.bits.toNat * 2 ^ 31) = 0 := by unfold F.man32; omega
        simp only [h1, h2, h3]
        rw [he, hm] at hd
        simpa using hd
    · change 897 ≤ F.exp64 _ at he1
      change F.exp64 _ ≤ 1150 at he2
      change F.man64 _ % 2 ^ 29 = 0 at hm
      generalize hS : F.sign64 x.bits.toNat = S at *
      generalize hE : F.exp64 x.bits.toNat = E at *
      generalize hM : F.man64 x.bits.toNat = M at *
      have h1 : F.sign32 (S * 2 ^ 31 + (E - 896) * 2 ^ 23 + M / 2 ^ 29) = S := by unfold F.sign32; omega
      have h2 : F.exp32 (S * 2 ^ 31 + (E - 896) * 2 ^ 23 + M / 2 ^ 29) = E - 896 := by unfold F.exp32; omega
      have h3 : F.man32 (S * 2 ^ 31 + (E - 896) * 2 ^ 23 + M / 2 ^ 29) = M / 2 ^ 29 := by unfold F.man32; omega
      refine ⟨S * 2 ^ 31 + (E - 896) * 2 ^ 23 + M / 2 ^ 29, by omega, ?_, ?_⟩
      · simp [F.isSNaN32, h2]; omega
      · unfold F.widen
        simp only [h1, h2, h3]
        rw [if_neg (by omega), if_neg (by omega), ← hd]
        have : E - 896 + 896 = E := by omega
        have : M / 2 ^ 29 * 2 ^ 29 = M := by omega
        simp only [*]
    · change 874 ≤ F.exp64 _ at he1
      change F.exp64 _ ≤ 896 at he2
      change F.man64 _ % 2 ^ (926 - F.exp64 _) = 0 at hm
      generalize hS : F.sign64 x.bits.toNat = S at *
      generalize hE : F.exp64 x.bits.toNat = E at *
      generalize hM : F.man64 x.bits.toNat = M at *
      obtain ⟨k, rfl⟩ : ∃ k, E = k + 874 := ⟨E - 874, by omega⟩
      rw [show 926 - (k + 874) = 52 - k by omega] at hm
      obtain ⟨q, hq⟩ := Nat.dvd_of_mod_eq_zero hm
      have hpk : 2 ^ k * 2 ^ (52 - k) = 2 ^ 52 := by rw [← Nat.pow_add]; congr 1; omega
      have hql : q < 2 ^ k := by
        have : 2 ^ (52 - k) * q < 2 ^ (52 - k) * 2 ^ k := by rw [← hq, Nat.mul_comm _ (2 ^ k), hpk]; exact hm64
        exact Nat.lt_of_mul_lt_mul_left this
      have hk22 : 2 ^ k ≤ 2 ^ 22 := Nat.pow_le_pow_right (by omega) (by omega)
      have hlog : (2 ^ k + q).log2 = k := by
        rw [Nat.log2_eq_iff (by have := Nat.two_pow_pos k; omega)]
        rw [Nat.pow_succ]; omega
      have hpos := Nat.two_pow_pos k
      have h1 : F.sign32 (S * 2 ^ 31 + (2 ^ k + q)) = S := by unfold F.sign32; omega
      have h2 : F.exp32 (S * 2 ^ 31 + (2 ^ k + q)) = 0 := by unfold F.exp32; omega
      have h3 : F.man32 (S * 2 ^ 31 + (2 ^ k + q)) = 2 ^ k + q := by unfold F.man32; omega
      refine ⟨S * 2 ^ 31 + (2 ^ k + q), by omega, ?_, ?_⟩
      · simp [F.isSNaN32, h2]
      · unfold F.widen
        simp only [h1, h2, h3, hlog]
        rw [if_neg (by omega), if_pos trivial, if_neg (by omega), ← hd]
        congr 1
        rw [hq, show 2 ^ k + q - 2 ^ k = q by omega, Nat.mul_comm]
    · change F.exp64 _ = 2047 at he
      change F.man64 _ % 2 ^ 29 = 0 at hm
      change F.man64 _ = 0 ∨ 2 ^ 51 ≤ F.man64 _ at hq
      generalize hS : F.sign64 x.bits.toNat = S at *
      generalize hE : F.exp64 x.bits.toNat = E at *
      generalize hM : F.man64 x.bits.toNat = M at *
      have h1 : F.sign32 (S * 2 ^ 31 + 255 * 2 ^ 23 + M / 2 ^ 29) = S := by unfold F.sign32; omega
      have h2 : F.exp32 (S * 2 ^ 31 + 255 * 2 ^ 23 + M / 2 ^ 29) = 255 := by unfold F.exp32; omega
      have h3 : F.man32 (S * 2 ^ 31 + 255 * 2 ^ 23 + M / 2 ^ 29) = M / 2 ^ 29 := by unfold F.man32; omega
      refine ⟨S * 2 ^ 31 + 255 * 2 ^ 23 + M / 2 ^ 29, by omega, ?_, ?_⟩
      · simp [F.isSNaN32, h2, h3]; omega
      · unfold F.widen
        simp only [h1, h2, h3]
        rw [if_pos trivial, ← hd, he]
        by_cases h0 : M / 2 ^ 29 = 0
        · rw [if_pos h0]; congr 1; omega
        · rw [if_neg h0, if_neg (by omega)]
          have : M / 2 ^ 29 * 2 ^ 29 = M := by omega
          simp only [*]
  · rintro ⟨w, hw, hsn, hwx⟩
    obtain ⟨s, e, m, h, hs, he, hm, hsg, hc⟩ := F.widen_spec hw
    have hman := F.man32_lt w
    have e1 : x.bits.toNat / 2 ^ 52 % 2048 = e := by
      have := F.exp64_mk64 (s := s) he hm; rw [← h, hwx] at this; exact this
    have e2 : x.bits.toNat % 2 ^ 52 = m := by
      have := F.man64_mk64 (s := s) (e := e) hm; rw [← h, hwx] at this; exact this
    unfold IsF32
    simp only [e1, e2]
    rcases hc with ⟨h1, h2, h3⟩ | ⟨h1, h2, h3, h4⟩ | ⟨h1, h2, h3, h4, h5, h6⟩ | ⟨h1, h2, h3, h4⟩
    · right; right; right
      refine ⟨h1, by rw [h3]; exact Nat.mul_mod_left _ _, ?_⟩
      by_cases hz : F.man32 w = 0
      · left; rw [h3, if_pos hz]
      · right
        rw [if_neg hz] at h3
        have hq : ¬ F.man32 w < 2 ^ 22 := by
          intro hq; simp [F.isSNaN32, h2, hz] at hsn; omega
        rw [if_neg hq] at h3; omega
    · left; exact ⟨h1, h2⟩
    · right; right; left
      refine ⟨by omega, by omega, ?_⟩
      rw [h4, h6, show 926 - ((F.man32 w).log2 + 874) = 52 - (F.man32 w).log2 by omega]
      exact Nat.mul_mod_left _ _
    · right; left
      exact ⟨by omega, by omega, by rw [h4]; exact Nat.mul_mod_left _ _⟩

theorem leNat_lt4 {bs : Bytes} (h : bs.length = 4) : leNat bs < 2 ^ 32 := by
  have := leNat_lt bs; rw [h] at this; omega

/-- `quiet w` : the single pattern `w` with signalling NaNs made quiet. -/
def F.quiet (w : Nat) : Nat := if F.isSNaN32 w then w + 2 ^ 22 else w

theorem F.quiet_lt {w : Nat} (hw : w < 2 ^ 32) : F.quiet w < 2 ^ 32 := by
  unfold F.quiet; split
  · rename_i h
    simp [F.isSNaN32] at h
    have := F.fields32 w; have := F.sign32_lt hw; omega
  · exact hw

theorem F.isSNaN32_quiet (w : Nat) : F.isSNaN32 (F.quiet w) = false := by
  unfold F.quiet; split
  · rename_i h
    have a := F.fields32 w
    simp only [F.isSNaN32, Bool.and_eq_true, beq_iff_eq, bne_iff_ne, ne_eq, decide_eq_true_eq] at h
    obtain ⟨⟨h1, h2⟩, h3⟩ := h
    have : ¬ F.man32 (w + 2 ^ 22) < 2 ^ 22 := by unfold F.exp32 F.man32 F.sign32 at *; omega
    simp only [F.isSNaN32, decide_eq_false this, Bool.and_false]
  · rename_i h; simpa using h

theorem F.widen_quiet (w : Nat) : F.widen (F.quiet w) = F.widen w := by
  unfold F.quiet; split
  · rename_i h
    have hf := F.fields32 w
    simp [F.isSNaN32] at h
    obtain ⟨⟨h1, h2⟩, h3⟩ := h
    have a1 : F.sign32 (w + 2 ^ 22) = F.sign32 w := by unfold F.sign32 F.exp32 F.man32 at *; omega
    have a2 : F.exp32 (w + 2 ^ 22) = 255 := by unfold F.sign32 F.exp32 F.man32 at *; omega
    have a3 : F.man32 (w + 2 ^ 22) = F.man32 w + 2 ^ 22 := by unfold F.sign32 F.exp32 F.man32 at *; omega
    unfold F.widen
    simp only [a1, a2, a3, h1, if_true]
    rw [if_neg (by omega), if_neg h2, if_neg (by omega), if_pos (by omega)]
  · rfl

theorem floatOfBytes_bits {bs : Bytes} (h : bs.length = 4) :
    (floatOfBytes bs).bits.toNat = F.widen (leNat bs) := by
  unfold floatOfBytes
  simp only [BitVec.toNat_ofNat]
  exact Nat.mod_eq_of_lt (F.widen_lt (leNat_lt4 h))

theorem IsF32_floatOfBytes {bs : Bytes} (h : bs.length = 4) : IsF32 (floatOfBytes bs) := by
  rw [IsF32_iff]
  have hw := leNat_lt4 h
  exact ⟨F.quiet (leNat bs), F.quiet_lt hw, F.isSNaN32_quiet _, by
    rw [F.widen_quiet, floatOfBytes_bits h]⟩

theorem bytesOfFloat_floatOfBytes {bs : Bytes} (h : bs.length = 4) :
    bytesOfFloat (floatOfBytes bs) = natLE 4 (F.quiet (leNat bs)) := by
  unfold bytesOfFloat
  rw [floatOfBytes_bits h, F.narrow_widen (leNat_lt4 h)]; rfl

theorem bytesOfFloat_floatOfBytes_clean {bs : Bytes} (h : bs.length = 4)
    (hs : F.isSNaN32 (leNat bs) = false) : bytesOfFloat (floatOfBytes bs) = bs := by
  rw [bytesOfFloat_floatOfBytes h]
  simp [F.quiet, hs, natLE_of_lt h]

theorem bytesOfFloat_length (x : PyFloat) : (bytesOfFloat x).length = 4 := natLE_length _ _

theorem floatOfBytes_bytesOfFloat {x : PyFloat} (h : IsF32 x) :
    floatOfBytes (bytesOfFloat x) = x ∧ F.isSNaN32 (leNat (bytesOfFloat x)) = false ∧
      F.narrowOverflows x.bits.toNat = false := by
  obtain ⟨w, hw, hsn, hx⟩ := (IsF32_iff x).1 h
  have h1 : F.narrow x.bits.toNat = w := by rw [← hx, F.narrow_widen hw]; simp [hsn]
  have h2 : leNat (bytesOfFloat x) = w := by
    unfold bytesOfFloat; rw [leNat_natLE, h1]; omega
  refine ⟨?_, by rw [h2]; exact hsn, by rw [← hx]; exact F.narrowOverflows_widen hw⟩
  cases x with
  | mk b =>
    simp only [floatOfBytes, h2, PyFloat.mk.injEq]
    rw [hx]; simp

end Genie
