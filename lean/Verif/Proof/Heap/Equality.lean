import Verif.Model.HeapEq
import Verif.Spec.Equality
import Verif.Spec.Copies
import Verif.Proof.Heap.CopyTypes
import Verif.Proof.NearestInt
import Verif.Proof.Heap.Onto
/-! # What `==` says -/

namespace Genie
open ObjTree

/-! ## numbers -/

theorem F.isNaN_iff (x : PyFloat) : F.isNaN x = true ↔ NaN x := by
  unfold F.isNaN NaN F.exp64 F.man64
  simp only [Bool.and_eq_true, beq_iff_eq, bne_iff_ne, ne_eq]

theorem F.scaledValue_eq (d : Nat) (hd : d < 2 ^ 64) : F.scaledValue d = 2 * value64 d := by
  unfold F.scaledValue value64 magnitude64
  have hs : F.sign64 d = d / 2 ^ 63 := rfl
  have he : F.exp64 d = d / 2 ^ 52 % 2 ^ 11 := rfl
  have hm : F.man64 d = d % 2 ^ 52 := rfl
  rw [hs, he, hm]
  by_cases h0 : d / 2 ^ 52 % 2 ^ 11 = 0
  · rw [if_pos h0, if_pos h0]
    generalize d % 2 ^ 52 = M
    split <;> omega
  · rw [if_neg h0, if_neg h0]
    obtain ⟨e, hee⟩ : ∃ e, d / 2 ^ 52 % 2 ^ 11 = e + 1 := ⟨d / 2 ^ 52 % 2 ^ 11 - 1, by omega⟩
    rw [hee, Nat.add_sub_cancel, Nat.pow_succ 2 e, ← Nat.mul_assoc]
    generalize ((2 ^ 52 + d % 2 ^ 52) * 2 ^ e : Nat) = M
    split <;> omega

theorem magnitude64_zero (d : Nat) (hd : d < 2 ^ 64) (h : Finite64 d) : magnitude64 d = 0 ↔ d % 2 ^ 63 = 0 := by
  unfold magnitude64
  split
  · omega
  · have : 0 < 2 ^ (d / 2 ^ 52 % 2 ^ 11 - 1) := Nat.two_pow_pos _
    have h2 : (2 ^ 52 + d % 2 ^ 52) * 2 ^ (d / 2 ^ 52 % 2 ^ 11 - 1) ≠ 0 := Nat.mul_ne_zero (by omega) (by omega)
    constructor
    · intro h; exact absurd h h2
    · intro h; omega

/-- Finite doubles of equal magnitude have equal magnitude bits. -/
theorem magnitude64_inj {d e : Nat} (hd : d < 2 ^ 64) (he : e < 2 ^ 64) (h : magnitude64 d = magnitude64 e) : d % 2 ^ 63 = e % 2 ^ 63 := by
  unfold magnitude64 at h
  have hd1 : d % 2 ^ 63 = d / 2 ^ 52 % 2 ^ 11 * 2 ^ 52 + d % 2 ^ 52 := by omega
  have he1 : e % 2 ^ 63 = e / 2 ^ 52 % 2 ^ 11 * 2 ^ 52 + e % 2 ^ 52 := by omega
  rw [hd1, he1]
  have mm : ∀ (a b : Nat), a < 2 ^ 52 → b < 2 ^ 52 → ∀ x y, x < y → (2 ^ 52 + a) * 2 ^ x < (2 ^ 52 + b) * 2 ^ y := by
    intro a b ha hb x y hxy
    obtain ⟨k, rfl⟩ : ∃ k, y = x + 1 + k := ⟨y - x - 1, by omega⟩
    rw [Nat.pow_add, Nat.pow_succ 2 x]
    have h1 : (2 ^ 52 + a) * 2 ^ x < 2 ^ 53 * 2 ^ x := Nat.mul_lt_mul_of_pos_right (by omega) (Nat.two_pow_pos _)
    have h2 : 2 ^ 52 * (2 ^ x * 2 * 2 ^ k) ≤ (2 ^ 52 + b) * (2 ^ x * 2 * 2 ^ k) := Nat.mul_le_mul_right _ (by omega)
    have h3 : 2 ^ x * 2 ≤ 2 ^ x * 2 * 2 ^ k := Nat.le_mul_of_pos_right _ (Nat.two_pow_pos _)
    generalize 2 ^ x * 2 * 2 ^ k = K at *
    generalize 2 ^ x = X at *
    generalize (2 ^ 52 + b) * K = B at *
    generalize (2 ^ 52 + a) * X = A at *
    omega
  have hdm : d % 2 ^ 52 < 2 ^ 52 := Nat.mod_lt _ (by decide)
  have hem : e % 2 ^ 52 < 2 ^ 52 := Nat.mod_lt _ (by decide)
  generalize d / 2 ^ 52 % 2 ^ 11 = x at *
  generalize e / 2 ^ 52 % 2 ^ 11 = y at *
  generalize d % 2 ^ 52 = a at *
  generalize e % 2 ^ 52 = b at *
  have zero : ∀ (a b y : Nat), a < 2 ^ 52 → a = (2 ^ 52 + b) * 2 ^ (y - 1) → False := by
    intro a b y ha h
    have : 2 ^ 52 * 1 ≤ (2 ^ 52 + b) * 2 ^ (y - 1) := Nat.mul_le_mul (by omega) (Nat.two_pow_pos _)
    omega
  by_cases hx : x = 0
  · rw [if_pos hx] at h
    by_cases hy : y = 0
    · rw [if_pos hy] at h; omega
    · rw [if_neg hy] at h; exact (zero a b y hdm h).elim
  · rw [if_neg hx] at h
    by_cases hy : y = 0
    · rw [if_pos hy] at h; exact (zero b a x hem h.symm).elim
    · rw [if_neg hy] at h
      rcases Nat.lt_trichotomy (x - 1) (y - 1) with l | l | l
      · have := mm a b hdm hem _ _ l; omega
      · rw [l] at h
        have := Nat.eq_of_mul_eq_mul_right (Nat.two_pow_pos (y - 1)) h
        have : x = y := by omega
        subst this; omega
      · have := mm b a hem hdm _ _ l; omega

theorem nan_or_finite (x : PyFloat) (h : ¬ NaN x) (hf : ¬ Finite64 x.bits.toNat) : x.bits.toNat % 2 ^ 52 = 0 := by
  unfold NaN at h; unfold Finite64 at hf
  omega

theorem W.floatEq_iff (x y : PyFloat) : W.floatEq x y = true ↔ EqualFloats x y := by
  unfold W.floatEq EqualFloats
  simp only [Bool.and_eq_true, Bool.not_eq_true', Bool.or_eq_true, decide_eq_true_eq]
  have nx := F.isNaN_iff x
  have ny := F.isNaN_iff y
  rw [← Bool.not_eq_true, ← Bool.not_eq_true, nx, ny]
  have lx := x.bits.isLt
  have ly := y.bits.isLt
  have zeroF : ∀ d, d % 2 ^ 63 = 0 → Finite64 d ∧ value64 d = 0 := by
    intro d h
    refine ⟨by unfold Finite64; omega, ?_⟩
    have : magnitude64 d = 0 := by
      unfold magnitude64
      rw [if_pos (by omega)]; omega
    unfold value64
    rw [this]; split <;> rfl
  constructor
  · rintro ⟨⟨hx, hy⟩, h | ⟨h1, h2⟩⟩
    · exact .inr ⟨hx, h⟩
    · have a := zeroF _ h1
      have b := zeroF _ h2
      exact .inl ⟨a.1, b.1, by rw [a.2, b.2]⟩
  · rintro (⟨fx, fy, h⟩ | ⟨hx, rfl⟩)
    · refine ⟨⟨fun n => fx n.1, fun n => fy n.1⟩, ?_⟩
      unfold value64 at h
      have key : magnitude64 x.bits.toNat = magnitude64 y.bits.toNat := by split at h <;> split at h <;> omega
      have := magnitude64_inj lx ly key
      by_cases hz : x.bits.toNat % 2 ^ 63 = 0
      · exact .inr ⟨hz, by omega⟩
      · left
        have hne : magnitude64 x.bits.toNat ≠ 0 := fun h => hz ((magnitude64_zero _ lx fx).1 h)
        have hs : x.bits.toNat / 2 ^ 63 = y.bits.toNat / 2 ^ 63 := by
          split at h <;> split at h <;> omega
        have e : x.bits.toNat = y.bits.toNat := by omega
        have : x.bits = y.bits := BitVec.eq_of_toNat_eq e
        cases x; cases y; simp_all
    · exact ⟨⟨hx, hx⟩, .inl rfl⟩

theorem W.intFloatEq_iff (i : Int) (x : PyFloat) : W.intFloatEq i x = true ↔ EqualsInt i x := by
  unfold W.intFloatEq EqualsInt
  simp only [Bool.and_eq_true, bne_iff_ne, ne_eq, decide_eq_true_eq]
  rw [F.scaledValue_eq _ x.bits.isLt]
  have : (i * 2 ^ 1075 : Int) = 2 * (i * 2 ^ 1074) := by
    rw [show (1075 : Nat) = 1074 + 1 from rfl, Int.pow_succ]
    generalize (2 : Int) ^ 1074 = P
    rw [← Int.mul_assoc, Int.mul_comm]
  rw [this]
  have fin : ¬ F.exp64 x.bits.toNat = 2047 ↔ Finite64 x.bits.toNat := Iff.rfl
  rw [fin]
  generalize i * 2 ^ 1074 = K
  constructor
  · rintro ⟨a, b⟩; exact ⟨a, by omega⟩
  · rintro ⟨a, b⟩; exact ⟨a, by omega⟩

/-! ## places -/

/-- Equality of what is one step away. -/
def AgreeBelow : Option ObjTree → Option ObjTree → Prop
  | Option.none, Option.none => True
  | some x, some y => Equal x y
  | _, _ => False

theorem Equal.iff {t u : ObjTree} : Equal t u ↔ SameHead t u ∧ ∀ st, AgreeBelow (t.child st) (u.child st) := by
  constructor
  · intro h
    refine ⟨h [], fun st => ?_⟩
    cases e1 : t.child st with
    | none =>
      cases e2 : u.child st with
      | none => trivial
      | some y => have := h [st]; simp [ObjTree.get, e1, e2, Agree] at this
    | some x =>
      cases e2 : u.child st with
      | none => have := h [st]; simp [ObjTree.get, e1, e2, Agree] at this
      | some y =>
        intro p
        have := h (st :: p)
        simpa [ObjTree.get, e1, e2] using this
  · rintro ⟨h1, h2⟩ p
    cases p with
    | nil => exact h1
    | cons st p =>
      have := h2 st
      unfold ObjTree.get
      cases e1 : t.child st with
      | none =>
        cases e2 : u.child st with
        | none => trivial
        | some y => rw [e1, e2] at this; exact this.elim
      | some x =>
        cases e2 : u.child st with
        | none => rw [e1, e2] at this; exact this.elim
        | some y => rw [e1, e2] at this; exact this p

theorem SameHead.refl (t : ObjTree) (h : ∀ x, t = .float x → ¬ NaN x) : SameHead t t := by
  cases t with
  | float x => exact .inr ⟨h x rfl, rfl⟩
  | _ => simp [SameHead]

theorem Equal.refl (t : ObjTree) (h : NaNFree t) : Equal t t := by
  intro p
  cases e : t.get p with
  | none => trivial
  | some x => exact SameHead.refl x fun y hy => h p y (by rw [e, hy])

/-- An object is equal to another one with the same value only if there is no NaN. -/
theorem Equal.self_iff (t : ObjTree) : Equal t t ↔ NaNFree t := by
  refine ⟨fun h p x e n => ?_, Equal.refl t⟩
  have := h p
  rw [e] at this
  rcases this with ⟨f, _⟩ | ⟨f, _⟩
  · exact f n.1
  · exact f n

theorem SameHead.symm {t u : ObjTree} (h : SameHead t u) : SameHead u t := by
  cases t <;> cases u <;> simp only [SameHead] at h ⊢ <;> first | exact h.symm | exact h | skip
  rcases h with ⟨a, b, c⟩ | ⟨a, b⟩
  · exact .inl ⟨b, a, c.symm⟩
  · subst b; exact .inr ⟨a, rfl⟩

theorem Equal.symm {t u : ObjTree} (h : Equal t u) : Equal u t := by
  intro p
  have := h p
  revert this
  cases t.get p <;> cases u.get p <;> intro this
  · trivial
  · exact this
  · exact this
  · exact this.symm

/-! ## objects -/

/-- Every instance in the tree has exactly the attributes that its class declares. -/
def ExactFields (t : ObjTree) : Prop :=
  ∀ p c ts, t.get p = some (.obj c ts) → W.fieldNames c = some (ts.map (·.1)) ∧ (ts.map (·.1)).Nodup

theorem ExactFields.child {t u : ObjTree} (h : ExactFields t) {st : PathStep} (e : t.child st = some u) : ExactFields u := by
  intro p c ts hp
  exact h (st :: p) c ts (by simp [ObjTree.get, e, hp])

theorem NaNFree.child {t u : ObjTree} (h : NaNFree t) {st : PathStep} (e : t.child st = some u) : NaNFree u := by
  intro p x hp
  exact h (st :: p) x (by simp [ObjTree.get, e, hp])

theorem W.eqItems_run {H : Heap} {rec : Nat → HVal → HVal → Py Bool} : ∀ {vs ts f ws us g}, RepItems H vs ts f → RepItems H ws us g → ∀ k,
    (∀ i v w t u f' g', vs[i]? = some v → ws[i]? = some w → ts[i]? = some t → us[i]? = some u → Rep H v t f' → Rep H w u g' →
      f'.Sublist f → g'.Sublist g → ∃ r, rec (k + i) v w = .ok r ∧ (r = true ↔ Equal t u)) →
    ∃ r, W.eqItems rec k vs ws = .ok r ∧ (r = true ↔ ts.length = us.length ∧ ∀ (i : Nat) t u, ts[i]? = some t → us[i]? = some u → Equal t u)
  | _, _, _, _, _, _, .nil, .nil, k, _ => ⟨true, rfl, by simp⟩
  | _, _, _, _, _, _, .nil, .cons _ _, k, _ => ⟨false, rfl, by simp⟩
  | _, _, _, _, _, _, .cons _ _, .nil, k, _ => ⟨false, rfl, by simp⟩
  | _, _, _, _, _, _, .cons (t := t0) (ts := ts) r rs, .cons (t := u0) (ts := us) q qs, k, hrec => by
    obtain ⟨r0, h1, h2⟩ := hrec 0 _ _ _ _ _ _ rfl rfl rfl rfl r q (List.sublist_append_left _ _) (List.sublist_append_left _ _)
    rw [Nat.add_zero] at h1
    unfold W.eqItems
    rw [h1]
    cases r0 with
    | false =>
      refine ⟨false, rfl, ⟨fun h => (nomatch h), fun ⟨_, h⟩ => ?_⟩⟩
      exact h2.2 (h 0 _ _ rfl rfl)
    | true =>
      dsimp only
      obtain ⟨r1, k1, k2⟩ := W.eqItems_run rs qs (k + 1) fun i v w t u f' g' a b c d e f s1 s2 => by
        have := hrec (i + 1) v w t u f' g' (by simpa using a) (by simpa using b) (by simpa using c) (by simpa using d) e f
          (s1.trans (List.sublist_append_right _ _)) (s2.trans (List.sublist_append_right _ _))
        rwa [show k + (i + 1) = k + 1 + i by omega] at this
      refine ⟨r1, k1, k2.trans ?_⟩
      constructor
      · rintro ⟨hl, h⟩
        refine ⟨by simp [hl], fun i t u a b => ?_⟩
        cases i with
        | zero => simp at a b; subst a b; exact h2.1 rfl
        | succ i => exact h i t u (by simpa using a) (by simpa using b)
      · rintro ⟨hl, h⟩
        exact ⟨by simpa using hl, fun i t u a b => h (i + 1) t u (by simpa using a) (by simpa using b)⟩

theorem W.eqFields_run {H : Heap} {rec : PyStr → HVal → HVal → Py Bool} {as bs ts us f g} (ra : RepAttrs H as ts f) (rb : RepAttrs H bs us g) :
    ∀ (ns : List PyStr), (∀ n ∈ ns, n ∈ ts.map (·.1) ∧ n ∈ us.map (·.1)) →
    (∀ n ∈ ns, ∀ v w t u f' g', Rep H v t f' → Rep H w u g' → ObjTree.attrOf n ts = some t → ObjTree.attrOf n us = some u → f'.Sublist f → g'.Sublist g →
      ∃ r, rec n v w = .ok r ∧ (r = true ↔ Equal t u)) →
    ∃ r, W.eqFields rec as bs ns = .ok r ∧ (r = true ↔ ∀ n ∈ ns, ∀ t u, ObjTree.attrOf n ts = some t → ObjTree.attrOf n us = some u → Equal t u)
  | [], _, _ => ⟨true, rfl, by simp⟩
  | n :: ns, hn, hrec => by
    obtain ⟨m1, m2⟩ := hn n List.mem_cons_self
    have look : ∀ {as : List (PyStr × HVal)} {ts f}, RepAttrs H as ts f → n ∈ ts.map (·.1) →
        ∃ v t f', HReader.lookup n as = some v ∧ ObjTree.attrOf n ts = some t ∧ Rep H v t f' ∧ f'.Sublist f := by
      intro as ts f ra hm
      induction as generalizing ts f with
      | nil => cases ra; cases hm
      | cons x xs ih =>
        cases ra with
        | cons r rs =>
          rename_i m v t f1 ts' f2
          by_cases e : m = n
          · exact ⟨v, t, f1, by simp [HReader.lookup, e], by simp [ObjTree.attrOf, e], r, List.sublist_append_left _ _⟩
          · simp only [List.map_cons, List.mem_cons] at hm
            rcases hm with h | h
            · exact absurd h.symm e
            · obtain ⟨v', t', f', h1, h2, h3, h4⟩ := ih rs h
              exact ⟨v', t', f', by simp [HReader.lookup, e, h1], by simp [ObjTree.attrOf, e, h2], h3, h4.trans (List.sublist_append_right _ _)⟩
    obtain ⟨v, t, f1, l1, a1, r1, s1⟩ := look ra m1
    obtain ⟨w, u, g1, l2, a2, r2, s2⟩ := look rb m2
    obtain ⟨r0, h1, h2⟩ := hrec n List.mem_cons_self v w t u f1 g1 r1 r2 a1 a2 s1 s2
    unfold W.eqFields
    rw [l1, l2]
    dsimp only
    rw [h1]
    cases r0 with
    | false =>
      refine ⟨false, rfl, ⟨fun h => (nomatch h), fun h => ?_⟩⟩
      exact h2.2 (h n List.mem_cons_self t u a1 a2)
    | true =>
      dsimp only
      obtain ⟨r1, k1, k2⟩ := W.eqFields_run ra rb ns (fun m hm => hn m (List.mem_cons_of_mem _ hm)) fun m hm => hrec m (List.mem_cons_of_mem _ hm)
      refine ⟨r1, k1, k2.trans ?_⟩
      constructor
      · intro h m hm t' u' x y
        rcases List.mem_cons.1 hm with rfl | hm
        · rw [a1] at x; rw [a2] at y; cases x; cases y; exact h2.1 rfl
        · exact h m hm t' u' x y
      · intro h m hm
        exact h m (List.mem_cons_of_mem _ hm)

theorem attrOf_some_iff {n : PyStr} : ∀ {ts : List (PyStr × ObjTree)}, (∃ t, ObjTree.attrOf n ts = some t) ↔ n ∈ ts.map (·.1)
  | [] => by simp [ObjTree.attrOf]
  | (m, t) :: ts => by
    unfold ObjTree.attrOf
    by_cases e : m = n
    · simp [e]
    · rw [if_neg e, attrOf_some_iff (ts := ts)]
      simp [Ne.symm e]

/-- When the identity of floats does not matter: there is no NaN, or nothing is the same object. -/
def Blind (same : ObjPath → Bool) (t : ObjTree) (f g : List Nat) : Prop :=
  NaNFree t ∨ ((∀ p, same p = false) ∧ ∀ a ∈ f, a ∉ g)

theorem Blind.sub {same : ObjPath → Bool} {t u : ObjTree} {f g f' g' : List Nat} (h : Blind same t f g) {st : PathStep} (e : t.child st = some u)
    (sf : f'.Sublist f) (sg : g'.Sublist g) : Blind (fun p => same (st :: p)) u f' g' := by
  rcases h with h | ⟨h1, h2⟩
  · exact .inl (h.child e)
  · exact .inr ⟨fun p => h1 _, fun a ha hg => h2 a (sf.subset ha) (sg.subset hg)⟩

theorem W.eq_scalar {H : Heap} {a b : HVal} {t u : ObjTree} {f g : List Nat} (ra : Rep H a t f) (rb : Rep H b u g) (h : ¬ ∃ x y, a = .ref x ∧ b = .ref y)
    (same : ObjPath → Bool) (bl : Blind same t f g) : W.eqScalar (same []) a b = true ↔ Equal t u := by
  rw [Equal.iff]
  cases ra <;> cases rb <;>
    first
    | (exact absurd ⟨_, _, rfl, rfl⟩ h)
    | (simp only [W.eqScalar, SameHead, ObjTree.child, AgreeBelow, decide_eq_true_eq, W.intFloatEq_iff]; simp)
    | skip
  next x y =>
    simp only [W.eqScalar, SameHead, ObjTree.child, AgreeBelow, Bool.or_eq_true, W.floatEq_iff, Bool.and_eq_true, decide_eq_true_eq, implies_true, and_true]
    constructor
    · rintro (h | ⟨h1, rfl⟩)
      · exact h
      · rcases bl with hn | ⟨hs, _⟩
        · exact .inr ⟨hn [] x rfl, rfl⟩
        · rw [hs] at h1; cases h1
    · exact .inl

/-- `==` says whether the values are equal. -/
theorem W.eq_run {H : Heap} (depth : Nat) : ∀ {a b t u f g}, Rep H a t f → Rep H b u g → t.height ≤ depth → ExactFields t → ExactFields u →
    ∀ same, Blind same t f g → ∃ r, W.eq H depth same a b = .ok r ∧ (r = true ↔ Equal t u) := by
  induction depth with
  | zero => intro a b t u f g _ _ h; exfalso; cases t <;> simp [ObjTree.height] at h
  | succ depth ih =>
    intro a b t u f g ra rb hh xt xu same bl
    by_cases hr : ¬ ∃ x y, a = .ref x ∧ b = .ref y
    · refine ⟨W.eqScalar (same []) a b, ?_, W.eq_scalar ra rb hr same bl⟩
      cases a with
      | ref x =>
        cases b with
        | ref y => exact absurd ⟨x, y, rfl, rfl⟩ hr
        | _ => rfl
      | _ => rfl
    obtain ⟨x, y, rfl, rfl⟩ := Classical.not_not.1 hr
    by_cases hxy : x = y
    · subst hxy
      obtain ⟨rfl, rfl⟩ := ra.det rb
      refine ⟨true, by simp [W.eq], ⟨fun _ => ?_, fun _ => rfl⟩⟩
      rcases bl with hn | ⟨_, hd⟩
      · exact Equal.refl t hn
      · exact absurd ra.head_mem (hd x ra.head_mem)
    have items : ∀ {vs ts f0 ws us g0}, RepItems H vs ts f0 → RepItems H ws us g0 → f0.Sublist f → g0.Sublist g → heightItems ts ≤ depth →
        (∀ (i : Nat), t.child (.item i) = ts[i]?) → (∀ (i : Nat), u.child (.item i) = us[i]?) →
        ∃ r, W.eqItems (fun i => W.eq H depth fun p => same (.item i :: p)) 0 vs ws = .ok r ∧
          (r = true ↔ ts.length = us.length ∧ ∀ (i : Nat) t u, ts[i]? = some t → us[i]? = some u → Equal t u) := by
      intro vs ts f0 ws us g0 rs qs sf sg hi ct cu
      refine W.eqItems_run rs qs 0 fun i v w t' u' f' g' _ _ e3 e4 r q s1 s2 => ?_
      rw [Nat.zero_add]
      have e1 : t.child (.item i) = some t' := by rw [ct, e3]
      have e2 : u.child (.item i) = some u' := by rw [cu, e4]
      exact ih r q (Nat.le_trans (height_item e3) hi) (xt.child e1) (xu.child e2) _ (bl.sub e1 (s1.trans sf) (s2.trans sg))
    have lists : ∀ {ts us : List ObjTree}, (ts.length = us.length ∧ ∀ (i : Nat) t u, ts[i]? = some t → us[i]? = some u → Equal t u) ↔
        (ts.length = us.length ∧ ∀ (i : Nat), AgreeBelow ts[i]? us[i]?) := by
      intro ts us
      constructor
      · rintro ⟨hl, h⟩
        refine ⟨hl, fun i => ?_⟩
        by_cases hi : i < ts.length
        · rw [List.getElem?_eq_getElem hi, List.getElem?_eq_getElem (hl ▸ hi)]
          exact h i _ _ (List.getElem?_eq_getElem hi) (List.getElem?_eq_getElem (hl ▸ hi))
        · rw [List.getElem?_eq_none (by omega), List.getElem?_eq_none (by omega)]
          trivial
      · rintro ⟨hl, h⟩
        refine ⟨hl, fun i t u a b => ?_⟩
        have := h i
        rw [a, b] at this
        exact this
    have no : ∀ {t u : ObjTree}, ¬ SameHead t u → (false = true ↔ Equal t u) := fun h => ⟨fun k => (nomatch k), fun k => absurd (Equal.iff.1 k).1 h⟩
    unfold W.eq
    rw [if_neg hxy]
    cases ra with
    | list ca rs =>
      rename_i vs ts f0
      cases rb with
      | list cb qs =>
        rename_i ws us g0
        rw [ca, cb]
        dsimp only
        have l1 := rs.length
        have l2 := qs.length
        obtain ⟨r, h1, h2⟩ := items rs qs (List.sublist_cons_self _ _) (List.sublist_cons_self _ _) (by simp [ObjTree.height] at hh; omega) (fun _ => rfl) (fun _ => rfl)
        by_cases hl : vs.length = ws.length
        · rw [if_pos hl]
          refine ⟨r, h1, h2.trans (lists.trans ?_)⟩
          rw [Equal.iff]
          refine ⟨fun ⟨a, b⟩ => ⟨a, fun st => ?_⟩, fun ⟨a, b⟩ => ⟨a, fun i => b (.item i)⟩⟩
          cases st with
          | attr n => trivial
          | item i => exact b i
        · rw [if_neg hl]
          exact ⟨false, rfl, no fun h => hl (by have : ts.length = us.length := h; omega)⟩
      | tuple cb _ => rw [ca, cb]; exact ⟨false, rfl, no fun h => h⟩
      | obj cb _ => rw [ca, cb]; exact ⟨false, rfl, no fun h => h⟩
    | tuple ca rs =>
      rename_i vs ts f0
      cases rb with
      | tuple cb qs =>
        rename_i ws us g0
        rw [ca, cb]
        dsimp only
        obtain ⟨r, h1, h2⟩ := items rs qs (List.sublist_cons_self _ _) (List.sublist_cons_self _ _) (by simp [ObjTree.height] at hh; omega) (fun _ => rfl) (fun _ => rfl)
        refine ⟨r, h1, h2.trans (lists.trans ?_)⟩
        rw [Equal.iff]
        refine ⟨fun ⟨a, b⟩ => ⟨a, fun st => ?_⟩, fun ⟨a, b⟩ => ⟨a, fun i => b (.item i)⟩⟩
        cases st with
        | attr n => trivial
        | item i => exact b i
      | list cb _ => rw [ca, cb]; exact ⟨false, rfl, no fun h => h⟩
      | obj cb _ => rw [ca, cb]; exact ⟨false, rfl, no fun h => h⟩
    | obj ca rs =>
      rename_i c vs ts f0
      cases rb with
      | obj cb qs =>
        rename_i d ws us g0
        rw [ca, cb]
        dsimp only
        by_cases hc : c = d
        · subst hc
          rw [if_pos rfl]
          obtain ⟨n1, d1⟩ := xt [] c ts rfl
          obtain ⟨n2, d2⟩ := xu [] c us rfl
          have e12 : ts.map (·.1) = us.map (·.1) := by rw [n1] at n2; exact Option.some.inj n2
          rw [n1]
          dsimp only
          obtain ⟨r, h1, h2⟩ := W.eqFields_run (rec := fun n => W.eq H depth fun p => same (.attr n :: p)) rs qs (ts.map (·.1))
            (fun n hn => ⟨hn, e12 ▸ hn⟩) fun n _ v w t' u' f' g' r q e1 e2 s1 s2 => by
              have c1 : (ObjTree.obj c ts).child (.attr n) = some t' := e1
              have c2 : (ObjTree.obj c us).child (.attr n) = some u' := e2
              exact ih r q (Nat.le_trans (height_attr e1) (by simp [ObjTree.height] at hh; omega)) (xt.child c1) (xu.child c2) _
                (bl.sub c1 (s1.trans (List.sublist_cons_self _ _)) (s2.trans (List.sublist_cons_self _ _)))
          refine ⟨r, h1, h2.trans ?_⟩
          rw [Equal.iff]
          constructor
          · intro h
            refine ⟨rfl, fun st => ?_⟩
            cases st with
            | item i => trivial
            | attr n =>
              show AgreeBelow (ObjTree.attrOf n ts) (ObjTree.attrOf n us)
              by_cases hn : n ∈ ts.map (·.1)
              · obtain ⟨t', e1⟩ := attrOf_some_iff.2 hn
                obtain ⟨u', e2⟩ := attrOf_some_iff.2 (e12 ▸ hn)
                rw [e1, e2]
                exact h n hn t' u' e1 e2
              · have e1 : ObjTree.attrOf n ts = Option.none := by
                  cases e : ObjTree.attrOf n ts with
                  | none => rfl
                  | some t' => exact absurd (attrOf_some_iff.1 ⟨t', e⟩) hn
                have e2 : ObjTree.attrOf n us = Option.none := by
                  cases e : ObjTree.attrOf n us with
                  | none => rfl
                  | some t' => exact absurd (e12 ▸ attrOf_some_iff.1 ⟨t', e⟩) hn
                rw [e1, e2]; trivial
          · rintro ⟨_, h⟩ n _ t' u' e1 e2
            have := h (.attr n)
            simp only [ObjTree.child, e1, e2] at this
            exact this
        · rw [if_neg hc]
          exact ⟨false, rfl, no fun h => hc h⟩
      | list cb _ => rw [ca, cb]; exact ⟨false, rfl, no fun h => h⟩
      | tuple cb _ => rw [ca, cb]; exact ⟨false, rfl, no fun h => h⟩

/-! ## what fits the annotations -/

theorem W.fieldNames_declared {c : PyStr} {fs : List (PyStr × Ann)} (h : Declares false c fs) : W.fieldNames c = some (fs.map (·.1)) := by
  cases h <;> decide +kernel

theorem SuitsFields.names {D : PyStr → List (PyStr × Ann) → Prop} : ∀ {fs ts}, SuitsFields D fs ts → ts.map (·.1) = fs.map (·.1)
  | _, _, .nil => rfl
  | _, _, .cons _ hs => by simp [hs.names]

theorem SuitsFields.any {D : PyStr → List (PyStr × Ann) → Prop} {n : PyStr} {t : ObjTree} : ∀ {fs ts}, SuitsFields D fs ts → ObjTree.attrOf n ts = some t →
    ∃ a, Suits D a t
  | _, _, .nil, h => nomatch h
  | _, _, .cons (n := m) h hs, e => by
    unfold ObjTree.attrOf at e
    split at e
    · cases e; exact ⟨_, h⟩
    · exact hs.any e

theorem Suits.child {D : PyStr → List (PyStr × Ann) → Prop} {u : ObjTree} {st : PathStep} : ∀ {a t}, Suits D a t → t.child st = Option.some u → ∃ b, Suits D b u
  | _, _, .int _, h => by cases st <;> cases h
  | _, _, .float _, h => by cases st <;> cases h
  | _, _, .promote _, h => by cases st <;> cases h
  | _, _, .str _, h => by cases st <;> cases h
  | _, _, .none, h => by cases st <;> cases h
  | _, _, .some f, h => f.child h
  | _, _, .list hs, h => by
    cases st with
    | attr n => cases h
    | item i => exact ⟨_, hs u (List.mem_of_getElem? h)⟩
  | _, _, .tuple hs, h => by
    cases st with
    | attr n => cases h
    | item i =>
      obtain ⟨a, _, k⟩ := hs.zip u (List.mem_of_getElem? h)
      exact ⟨a, k⟩
  | _, _, .cls _ hs, h => by
    cases st with
    | attr n => exact hs.any h
    | item i => cases h

theorem Suits.declared {c : PyStr} {ts : List (PyStr × ObjTree)} : ∀ {a}, Suits (Declares false) a (.obj c ts) →
    W.fieldNames c = Option.some (ts.map (·.1)) ∧ (ts.map (·.1)).Nodup
  | _, .cls hd hf => by
    rw [hf.names, W.fieldNames_declared hd]
    exact ⟨rfl, Declares.names _ _ hd⟩
  | _, .some h => h.declared

theorem Suits.exact {t : ObjTree} {a : Ann} (h : Suits (Declares false) a t) : ExactFields t := by
  intro p
  induction p generalizing t a with
  | nil =>
    intro c ts e
    cases e
    exact h.declared
  | cons st p ih =>
    intro c ts e
    unfold ObjTree.get at e
    cases e1 : t.child st with
    | none => rw [e1] at e; cases e
    | some x =>
      rw [e1] at e
      obtain ⟨b, hb⟩ := h.child e1
      exact ih hb c ts e

/-! ## equal objects are written alike -/

theorem NoNegativeZero.child {t u : ObjTree} (h : NoNegativeZero t) {st : PathStep} (e : t.child st = some u) : NoNegativeZero u := by
  intro p hp
  exact h (st :: p) (by simp [ObjTree.get, e, hp])

theorem EqualFloats.eq {x y : PyFloat} (h : EqualFloats x y) (hx : x ≠ ⟨0x8000000000000000⟩) (hy : y ≠ ⟨0x8000000000000000⟩) : x = y := by
  have h := (W.floatEq_iff x y).2 h
  unfold W.floatEq at h
  simp only [Bool.and_eq_true, Bool.not_eq_true', Bool.or_eq_true, decide_eq_true_eq] at h
  rcases h.2 with h | ⟨h1, h2⟩
  · exact h
  · have zero : ∀ z : PyFloat, z ≠ ⟨0x8000000000000000⟩ → z.bits.toNat % 2 ^ 63 = 0 → z = ⟨0⟩ := by
      intro z hz h
      obtain ⟨b⟩ := z
      have l := b.isLt
      have : b.toNat = 0 ∨ b.toNat = 2 ^ 63 := by
        have : (PyFloat.mk b).bits.toNat = b.toNat := rfl
        omega
      rcases this with k | k
      · have : b = 0 := BitVec.eq_of_toNat_eq (by simpa using k)
        rw [this]
      · have : b = 0x8000000000000000 := BitVec.eq_of_toNat_eq (by rw [k]; rfl)
        rw [this] at hz; exact absurd rfl hz
    rw [zero x hx h1, zero y hy h2]

theorem value64_ofNat {d : Nat} (hd : d < 2 ^ 64) : (BitVec.ofNat 64 d).toNat = d := by rw [BitVec.toNat_ofNat, Nat.mod_eq_of_lt hd]

/-- `float(i)` of an `int` that is the value of a float is this float, unless that is the negative zero. -/
theorem EqualsInt.ofInt {i : Int} {x : PyFloat} {d : Nat} (h : EqualsInt i x) (hd : F.ofInt i = some d) :
    EqualFloats ⟨BitVec.ofNat 64 d⟩ x := by
  obtain ⟨l, f, near⟩ := F.ofInt_nearest hd
  refine .inl ?_
  show Finite64 (BitVec.ofNat 64 d).toNat ∧ _ ∧ value64 (BitVec.ofNat 64 d).toNat = _
  rw [value64_ofNat l]
  refine ⟨f, h.1, ?_⟩
  have := (near x.bits.toNat x.bits.isLt h.1).1
  rw [h.2] at this
  rw [h.2]
  generalize i * 2 ^ 1074 = K at *
  omega

theorem F.ofInt_not_negative {i : Int} {d : Nat} (h : F.ofInt i = some d) : d ≠ 0x8000000000000000 := by
  intro e
  subst e
  unfold F.ofInt at h
  split at h
  · cases h
  · have h := Option.some.inj h
    by_cases hi : i < 0
    · rw [if_pos hi] at h
      have h0 : F.ofNatMag i.natAbs = 0 := by omega
      unfold F.ofNatMag at h0
      rw [if_neg (by omega)] at h0
      split at h0 <;> omega
    · rw [if_neg hi] at h; omega

/-- What a float place of equal objects is turned into. -/
theorem Equal.float {t u : ObjTree} {x y : PyFloat} (ht : Converts t (.float x)) (hu : Converts u (.float y)) (h : SameHead t u)
    (nt : t ≠ .float ⟨0x8000000000000000⟩) (nu : u ≠ .float ⟨0x8000000000000000⟩) : x = y := by
  have big : ∀ {i d}, F.ofInt i = some d → (⟨BitVec.ofNat 64 d⟩ : PyFloat) ≠ ⟨0x8000000000000000⟩ := by
    intro i d h e
    have := congrArg (fun z : PyFloat => z.bits.toNat) e
    dsimp only at this
    rw [value64_ofNat (F.ofInt_nearest h).1] at this
    exact F.ofInt_not_negative h this
  cases ht with
  | float =>
    have nt : x ≠ ⟨0x8000000000000000⟩ := fun e => nt (by rw [e])
    cases hu with
    | float => exact EqualFloats.eq h nt fun e => nu (by rw [e])
    | promote hi => exact (EqualFloats.eq (EqualsInt.ofInt h hi) (big hi) nt).symm
  | promote hi =>
    cases hu with
    | float => exact EqualFloats.eq (EqualsInt.ofInt h hi) (big hi) fun e => nu (by rw [e])
    | promote hj =>
      have : _ = _ := h
      subst this
      rw [hi] at hj
      cases hj
      rfl

/-- Element by element below a place. -/
def EqualAll (ts us : List ObjTree) : Prop :=
  ts.length = us.length ∧ (∀ (i : Nat) t u, ts[i]? = some t → us[i]? = some u → Equal t u ∧ NoNegativeZero t ∧ NoNegativeZero u)

theorem EqualAll.cons {t u : ObjTree} {ts us : List ObjTree} (h : EqualAll (t :: ts) (u :: us)) :
    (Equal t u ∧ NoNegativeZero t ∧ NoNegativeZero u) ∧ EqualAll ts us :=
  ⟨h.2 0 _ _ rfl rfl, by simpa using h.1, fun i t' u' a b => h.2 (i + 1) t' u' (by simpa using a) (by simpa using b)⟩

/-- Attribute by attribute. -/
def EqualAttrs (ts us : List (PyStr × ObjTree)) : Prop :=
  ∀ n t u, ObjTree.attrOf n ts = some t → ObjTree.attrOf n us = some u → Equal t u ∧ NoNegativeZero t ∧ NoNegativeZero u

theorem EqualAttrs.head {n : PyStr} {t u : ObjTree} {ts us : List (PyStr × ObjTree)} (h : EqualAttrs ((n, t) :: ts) ((n, u) :: us)) :
    Equal t u ∧ NoNegativeZero t ∧ NoNegativeZero u := h n t u (by simp [ObjTree.attrOf]) (by simp [ObjTree.attrOf])

theorem EqualAttrs.tail {n : PyStr} {t u : ObjTree} {ts us : List (PyStr × ObjTree)} (h : EqualAttrs ((n, t) :: ts) ((n, u) :: us))
    (hn : n ∉ ts.map (·.1)) : EqualAttrs ts us := by
  intro m t' u' a b
  have hm : n ≠ m := by
    rintro rfl
    exact hn (attrOf_some_iff.1 ⟨_, a⟩)
  exact h m t' u' (by simp [ObjTree.attrOf, hm, a]) (by simp [ObjTree.attrOf, hm, b])

theorem ConvertsAttrs.names : ∀ {ts us}, ConvertsAttrs ts us → ts.map (·.1) = us.map (·.1)
  | _, _, .nil => rfl
  | _, _, .cons _ hs => by simp [hs.names]

theorem HasFields.names {D : PyStr → List (PyStr × Ann) → Prop} : ∀ {fs ts}, HasFields D fs ts → ts.map (·.1) = fs.map (·.1)
  | _, _, .nil => rfl
  | _, _, .cons _ hs => by simp [hs.names]

mutual
theorem HasType.equal {D : PyStr → List (PyStr × Ann) → Prop} (hD : OneDef D) (hN : ∀ c fs, D c fs → (fs.map (·.1)).Nodup) : ∀ {a T}, HasType D a T → ∀ {U t u}, HasType D a U →
    Converts t T → Converts u U → Equal t u → NoNegativeZero t → NoNegativeZero u → T = U
  | _, _, .int _, _, _, _, .int _, .int _, .int _, h, _, _ => by rw [show _ = _ from h []]
  | _, _, .float _, _, _, _, .float _, ht, hu, h, nt, nu => by
    rw [Equal.float ht hu (h []) (fun e => nt [] (by rw [e]; rfl)) (fun e => nu [] (by rw [e]; rfl))]
  | _, _, .str _, _, _, _, .str _, .str _, .str _, h, _, _ => by rw [show _ = _ from h []]
  | _, _, .list h1, _, _, _, .list h2, .list (ts := ts) c1, .list (ts := us) c2, h, nt, nu => by
    refine congrArg ObjTree.list (HasType.equalList hD hN _ h1 _ h2 c1 c2 ⟨h [], fun i t u a b => ⟨?_, ?_, ?_⟩⟩)
    · have := (Equal.iff.1 h).2 (.item i)
      simp only [ObjTree.child, a, b] at this
      exact this
    · exact nt.child (st := .item i) a
    · exact nu.child (st := .item i) b
  | _, _, .tuple h1, _, _, _, .tuple h2, .tuple (ts := ts) c1, .tuple (ts := us) c2, h, nt, nu => by
    refine congrArg ObjTree.tuple (HasTypes.equal hD hN h1 h2 c1 c2 ⟨h [], fun i t u a b => ⟨?_, ?_, ?_⟩⟩)
    · have := (Equal.iff.1 h).2 (.item i)
      simp only [ObjTree.child, a, b] at this
      exact this
    · exact nt.child (st := .item i) a
    · exact nu.child (st := .item i) b
  | _, _, .none, _, _, _, .none, _, _, _, _, _ => rfl
  | _, _, .none, _, _, _, .some _, .none, c2, h, _, _ => by
    cases c2 with
    | none => rfl
    | _ => exact (h []).elim
  | _, _, .some _, _, _, _, .none, c1, .none, h, _, _ => by
    cases c1 with
    | none => rfl
    | _ => exact (h []).elim
  | _, _, .some h1, _, _, _, .some h2, c1, c2, h, nt, nu => HasType.equal hD hN h1 h2 c1 c2 h nt nu
  | _, _, .cls d1 h1, _, _, _, .cls d2 h2, .obj (ts := ts) c1, .obj (ts := us) c2, h, nt, nu => by
    cases hD _ _ _ d1 d2
    refine congrArg (ObjTree.obj _) (HasFields.equal hD hN h1 h2 (hN _ _ d1) c1 c2 fun n t u a b => ⟨?_, ?_, ?_⟩)
    · have := (Equal.iff.1 h).2 (.attr n)
      simp only [ObjTree.child, a, b] at this
      exact this
    · exact nt.child (st := .attr n) a
    · exact nu.child (st := .attr n) b

theorem HasType.equalList {D : PyStr → List (PyStr × Ann) → Prop} (hD : OneDef D) (hN : ∀ c fs, D c fs → (fs.map (·.1)).Nodup) {a : Ann} : ∀ (Ts : List ObjTree), (∀ T ∈ Ts, HasType D a T) →
    ∀ (Us : List ObjTree), (∀ U ∈ Us, HasType D a U) → ∀ {ts us}, ConvertsItems ts Ts → ConvertsItems us Us → EqualAll ts us → Ts = Us
  | [], _, Us, _, _, _, .nil, c2, h => by
    have := c2.length
    have := h.1
    simp only [List.length_nil] at *
    exact (List.eq_nil_of_length_eq_zero (by omega)).symm
  | T :: Ts, h1, [], _, _, _, .cons _ _, .nil, h => by simp [EqualAll] at h
  | T :: Ts, h1, U :: Us, h2, _, _, .cons c1 cs1, .cons c2 cs2, h => by
    obtain ⟨⟨e, n1, n2⟩, hs⟩ := h.cons
    rw [HasType.equal hD hN (h1 T List.mem_cons_self) (h2 U List.mem_cons_self) c1 c2 e n1 n2,
      HasType.equalList hD hN Ts (fun T hT => h1 T (List.mem_cons_of_mem _ hT)) Us (fun U hU => h2 U (List.mem_cons_of_mem _ hU)) cs1 cs2 hs]

theorem HasTypes.equal {D : PyStr → List (PyStr × Ann) → Prop} (hD : OneDef D) (hN : ∀ c fs, D c fs → (fs.map (·.1)).Nodup) : ∀ {as Ts}, HasTypes D as Ts → ∀ {Us ts us}, HasTypes D as Us →
    ConvertsItems ts Ts → ConvertsItems us Us → EqualAll ts us → Ts = Us
  | _, _, .nil, _, _, _, .nil, _, _, _ => rfl
  | _, _, .cons h1 hs1, _, _, _, .cons h2 hs2, .cons c1 cs1, .cons c2 cs2, h => by
    obtain ⟨⟨e, n1, n2⟩, hs⟩ := h.cons
    rw [HasType.equal hD hN h1 h2 c1 c2 e n1 n2, HasTypes.equal hD hN hs1 hs2 cs1 cs2 hs]

theorem HasFields.equal {D : PyStr → List (PyStr × Ann) → Prop} (hD : OneDef D) (hN : ∀ c fs, D c fs → (fs.map (·.1)).Nodup) :
    ∀ {fs Ts}, HasFields D fs Ts → ∀ {Us ts us}, HasFields D fs Us → (fs.map (·.1)).Nodup →
    ConvertsAttrs ts Ts → ConvertsAttrs us Us → EqualAttrs ts us → Ts = Us
  | _, _, .nil, _, _, _, .nil, _, _, _, _ => rfl
  | _, _, .cons h1 hs1, _, _, _, .cons h2 hs2, nd, .cons c1 cs1, .cons c2 cs2, h => by
    rw [List.map_cons, List.nodup_cons] at nd
    obtain ⟨e, n1, n2⟩ := h.head
    rw [HasType.equal hD hN h1 h2 c1 c2 e n1 n2, HasFields.equal hD hN hs1 hs2 nd.2 cs1 cs2 (h.tail (by rw [cs1.names, hs1.names]; exact nd.1))]
end

/-! ## checking for NaN -/

mutual
/-- Check that there is no NaN. -/
def ObjTree.nanFree : ObjTree → Bool
  | .float x => !F.isNaN x
  | .list ts => nanFreeItems ts
  | .tuple ts => nanFreeItems ts
  | .obj _ ts => nanFreeAttrs ts
  | _ => true
def ObjTree.nanFreeItems : List ObjTree → Bool
  | [] => true
  | t :: ts => t.nanFree && nanFreeItems ts
def ObjTree.nanFreeAttrs : List (PyStr × ObjTree) → Bool
  | [] => true
  | (_, t) :: ts => t.nanFree && nanFreeAttrs ts
end

theorem nanFreeItems_get : ∀ {ts : List ObjTree} {i : Nat} {t : ObjTree}, nanFreeItems ts = true → ts[i]? = some t → t.nanFree = true
  | [], _, _, _, h => by simp at h
  | _ :: _, 0, _, h, e => by
    simp only [nanFreeItems, Bool.and_eq_true] at h
    cases e; exact h.1
  | _ :: ts, i + 1, t, h, e => by
    simp only [nanFreeItems, Bool.and_eq_true] at h
    exact nanFreeItems_get (i := i) h.2 (by simpa using e)

theorem nanFreeAttrs_get {n : PyStr} : ∀ {ts : List (PyStr × ObjTree)} {t : ObjTree}, nanFreeAttrs ts = true → ObjTree.attrOf n ts = some t → t.nanFree = true
  | [], _, _, h => by cases h
  | (m, u) :: ts, t, h, e => by
    simp only [nanFreeAttrs, Bool.and_eq_true] at h
    unfold ObjTree.attrOf at e
    split at e
    · cases e; exact h.1
    · exact nanFreeAttrs_get h.2 e

theorem ObjTree.nanFree_iff {t : ObjTree} (h : t.nanFree = true) : NaNFree t := by
  intro p
  induction p generalizing t with
  | nil =>
    intro x e n
    cases e
    rw [ObjTree.nanFree, (F.isNaN_iff x).2 n] at h
    cases h
  | cons st p ih =>
    intro x e
    unfold ObjTree.get at e
    cases c : t.child st with
    | none => rw [c] at e; cases e
    | some u =>
      rw [c] at e
      refine ih ?_ x e
      cases t <;> cases st <;> simp only [ObjTree.child, reduceCtorEq] at c
      · exact nanFreeItems_get (by simpa [ObjTree.nanFree] using h) c
      · exact nanFreeItems_get (by simpa [ObjTree.nanFree] using h) c
      · exact nanFreeAttrs_get (by simpa [ObjTree.nanFree] using h) c

end Genie
