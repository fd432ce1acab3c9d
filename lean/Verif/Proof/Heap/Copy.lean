import Verif.Proof.Heap.Spread
import Verif.Model.HeapCopy
/-! # What `copy.deepcopy` returns -/

namespace Genie
open HReader ObjTree

/-- An object made of tuples only: it cannot be changed, and it is its own copy. -/
def Frozen (H : Heap) (a : Nat) : Prop := ∃ t f, Rep H (.ref a) t f ∧ ∀ b ∈ f, ¬ H.Mutable b

/-- The copy of an address. -/
def hat (M : Memo) (a : Nat) : Nat :=
  match M.find a with
  | some (.ref c) => c
  | _ => a

/-- The copy of a value. -/
def hatV (M : Memo) : HVal → HVal
  | .ref a => .ref (hat M a)
  | v => v

/-- What holds while a copy is being made of something in the heap `P`. -/
structure CopyInv (P H : Heap) (M : Memo) : Prop where
  len : P.length ≤ H.length
  same : ∀ a, a < P.length → H[a]? = P[a]?
  memo : ∀ b w, M.find b = some w → b < P.length ∧ ∃ c, w = .ref c ∧ P.length ≤ c ∧ c < H.length
  inj : ∀ b b' w, M.find b = some w → M.find b' = some w → b = b'
  frozen : ∀ b, Frozen P b → M.find b = Option.none

/-- Everything is copied that has to be. -/
def Complete (P : Heap) (M : Memo) (f : List Nat) : Prop := ∀ x ∈ f, M.find x ≠ Option.none ∨ Frozen P x

/-- The copy of an object is finished. -/
def Done (P H : Heap) (M : Memo) (b : Nat) : Prop :=
  ∀ w t f, M.find b = some w → Rep P (.ref b) t f → Complete P M f ∧ Rep H w t (f.map (hat M))

/-- The memo has grown. -/
def Memo.Le (M M' : Memo) : Prop := ∀ b w, M.find b = some w → M'.find b = some w

theorem Complete.hat {P H' : Heap} {M M' : Memo} {f : List Nat} (i : CopyInv P H' M') (le : M.Le M') (c : Complete P M f) :
    f.map (hat M') = f.map (hat M) := by
  apply List.map_congr_left
  intro x hx
  unfold Genie.hat
  cases e : M.find x with
  | some w => rw [le x w e]
  | none =>
    rcases c x hx with h | h
    · exact absurd e h
    · rw [i.frozen x h]

theorem Complete.mono {P : Heap} {M M' : Memo} {f : List Nat} (le : M.Le M') (c : Complete P M f) : Complete P M' f := by
  intro x hx
  refine (c x hx).imp (fun h => ?_) id
  cases e : M.find x with
  | none => exact absurd e h
  | some w => rw [le x w e]; simp

theorem Done.mono {P H H' : Heap} {M M' : Memo} {b : Nat} (i : CopyInv P H' M') (le : M.Le M') (hb : M.find b ≠ Option.none)
    (d : Done P H M b) (hs : ∀ w t f, M.find b = some w → Rep P (.ref b) t f → ∀ x ∈ f.map (hat M), H'[x]? = H[x]?) : Done P H' M' b := by
  intro w t f hw r
  have hw' : M.find b = some w := by
    cases e : M.find b with
    | none => exact absurd e hb
    | some w' => rw [le b w' e] at hw; exact hw
  obtain ⟨c, r'⟩ := d w t f hw' r
  refine ⟨c.mono le, ?_⟩
  rw [c.hat i le]
  exact r'.frame fun a ha => hs w t f hw' r a ha

theorem Memo.find_cons_ne {a b : Nat} {w : HVal} {M : Memo} (h : b ≠ a) : Memo.find a ((b, w) :: M) = M.find a := by
  show (if b = a then some w else Memo.find a M) = _
  rw [if_neg h]

theorem Memo.find_cons_self {a : Nat} {w : HVal} {M : Memo} : Memo.find a ((a, w) :: M) = some w := by
  show (if a = a then some w else Memo.find a M) = _
  rw [if_pos rfl]

theorem Memo.le_cons {a : Nat} {w : HVal} {M : Memo} (h : M.find a = Option.none) : M.Le ((a, w) :: M) := by
  intro b x hb
  rw [Memo.find_cons_ne]
  · exact hb
  · rintro rfl; rw [h] at hb; cases hb

theorem Memo.Le.trans {M M' M'' : Memo} (h : M.Le M') (k : M'.Le M'') : M.Le M'' := fun b w e => k b w (h b w e)

theorem not_frozen {P : Heap} {a : Nat} (h : P.Mutable a) : ¬ Frozen P a := by
  rintro ⟨t, f, r, k⟩
  obtain ⟨fps, e, _⟩ := r.acyclic
  exact k a (by rw [e]; exact List.mem_cons_self) h

/-- A new object for `a`, entered in the memo. -/
theorem CopyInv.enter {P H : Heap} {M : Memo} (i : CopyInv P H M) {a : Nat} (ha : a < P.length) (nf : ¬ Frozen P a)
    (c : Cell) : CopyInv P (H ++ [c]) ((a, .ref H.length) :: M) := by
  refine ⟨by simp; have := i.len; omega, fun b hb => ?_, fun b w hw => ?_, fun b b' w hw hw' => ?_, fun b hb => ?_⟩
  · rw [List.getElem?_append_left (by have := i.len; omega)]; exact i.same b hb
  · by_cases e : a = b
    · subst e
      rw [Memo.find_cons_self] at hw
      cases hw
      exact ⟨ha, _, rfl, i.len, by simp⟩
    · rw [Memo.find_cons_ne e] at hw
      obtain ⟨h1, c', h2, h3, h4⟩ := i.memo b w hw
      exact ⟨h1, c', h2, h3, by simp; omega⟩
  · by_cases e : a = b <;> by_cases e' : a = b'
    · rw [← e, ← e']
    · subst e
      rw [Memo.find_cons_self] at hw
      rw [Memo.find_cons_ne e'] at hw'
      cases hw
      obtain ⟨_, c', h2, _, h4⟩ := i.memo b' _ hw'
      cases h2
      omega
    · subst e'
      rw [Memo.find_cons_self] at hw'
      rw [Memo.find_cons_ne e] at hw
      cases hw'
      obtain ⟨_, c', h2, _, h4⟩ := i.memo b _ hw
      cases h2
      omega
    · rw [Memo.find_cons_ne e] at hw
      rw [Memo.find_cons_ne e'] at hw'
      exact i.inj b b' w hw hw'
  · by_cases e : a = b
    · subst e; exact absurd hb nf
    · rw [Memo.find_cons_ne e]; exact i.frozen b hb

/-- Filling the new object. -/
theorem CopyInv.fill {P H : Heap} {M : Memo} (i : CopyInv P H M) {y : Nat} (hy : P.length ≤ y) (c : Cell) : CopyInv P (H.set y c) M :=
  ⟨by rw [List.length_set]; exact i.len, fun b hb => by rw [List.getElem?_set_ne (by omega)]; exact i.same b hb,
    fun b w hw => by rw [List.length_set]; exact i.memo b w hw, i.inj, i.frozen⟩

/-- The outcome of copying, `fp` being the objects met in the original. -/
structure Copied (P H : Heap) (M : Memo) (fp : List Nat) (H' : Heap) (M' : Memo) : Prop where
  inv : CopyInv P H' M'
  len : H.length ≤ H'.length
  same : ∀ a, a < H.length → H'[a]? = H[a]?
  le : M.Le M'
  only : ∀ b, M'.find b ≠ Option.none → M.find b ≠ Option.none ∨ b ∈ fp
  complete : Complete P M' fp
  done : ∀ b ∈ fp, M'.find b ≠ Option.none → Done P H' M' b

theorem hat_eq_of_find {M : Memo} {a c : Nat} (h : M.find a = some (.ref c)) : hat M a = c := by
  unfold hat; rw [h]

/-- The address of a new object is no copy of anything else. -/
theorem not_mem_hat {P H : Heap} {M : Memo} (i : CopyInv P H M) {a y : Nat} (ha : M.find a = some (.ref y)) (hy : P.length ≤ y) {f : List Nat}
    (hf : ∀ x ∈ f, x < P.length) (na : a ∉ f) : y ∉ f.map (hat M) := by
  intro hm
  obtain ⟨x, hx, e⟩ := List.mem_map.1 hm
  cases ex : M.find x with
  | none =>
    unfold hat at e
    rw [ex] at e
    have := hf x hx
    dsimp only at e
    omega
  | some w =>
    obtain ⟨_, c, rfl, _, _⟩ := i.memo x w ex
    rw [hat_eq_of_find ex] at e
    subst e
    have := i.inj _ _ _ ex ha
    subst this
    exact na hx

/-- Nothing new is needed. -/
theorem Copied.refl {P H : Heap} {M : Memo} {fp : List Nat} (i : CopyInv P H M) (c : Complete P M fp)
    (d : ∀ b ∈ fp, M.find b ≠ Option.none → Done P H M b) : Copied P H M fp H M :=
  ⟨i, Nat.le_refl _, fun _ _ => rfl, fun _ _ h => h, fun _ h => .inl h, c, d⟩

/-- A finished copy stays finished while more is copied. -/
theorem Copied.keep {P H H' : Heap} {M M' : Memo} {fp : List Nat} (k : Copied P H M fp H' M') {b : Nat} (hb : M.find b ≠ Option.none)
    (d : Done P H M b) : Done P H' M' b :=
  d.mono k.inv k.le hb fun w t f hw r x hx => k.same x (((d w t f hw r).2).bound x hx)

theorem Copied.append {P H H' H'' : Heap} {M M' M'' : Memo} {f g : List Nat} (h : Copied P H M f H' M') (k : Copied P H' M' g H'' M'') :
    Copied P H M (f ++ g) H'' M'' := by
  refine ⟨k.inv, Nat.le_trans h.len k.len, fun a ha => ?_, h.le.trans k.le, fun b hb => ?_, fun x hx => ?_, fun b hb hn => ?_⟩
  · rw [k.same a (Nat.lt_of_lt_of_le ha h.len), h.same a ha]
  · rcases k.only b hb with hb | hb
    · rcases h.only b hb with hb | hb
      · exact .inl hb
      · exact .inr (List.mem_append_left _ hb)
    · exact .inr (List.mem_append_right _ hb)
  · rcases List.mem_append.1 hx with hx | hx
    · exact h.complete.mono k.le x hx
    · exact k.complete x hx
  · by_cases hg : b ∈ g
    · exact k.done b hg hn
    · have hf : b ∈ f := (List.mem_append.1 hb).resolve_right hg
      have hm : M'.find b ≠ Option.none := (k.only b hn).resolve_right hg
      exact k.keep hm (h.done b hf hm)

/-- A list or an instance: enter it, copy what it holds, fill it. -/
theorem Copied.container {P H : Heap} {M : Memo} (i : CopyInv P H M) {a : Nat} {t : ObjTree} {fps : List Nat} {c0 c : Cell}
    (ra : Rep P (.ref a) t (a :: fps)) (hm : P.Mutable a) (hn : M.find a = Option.none) {H' : Heap} {M' : Memo}
    (k : Copied P (H ++ [c0]) ((a, .ref H.length) :: M) fps H' M')
    (rc : H.length ∉ fps.map (hat M') → Rep (H'.set H.length c) (.ref H.length) t (H.length :: fps.map (hat M'))) :
    Copied P H M (a :: fps) (H'.set H.length c) M' ∧ hat M' a = H.length ∧
      Rep (H'.set H.length c) (.ref H.length) t ((a :: fps).map (hat M')) := by
  have hfind : M'.find a = some (.ref H.length) := k.le a _ Memo.find_cons_self
  have hhat := hat_eq_of_find hfind
  obtain ⟨fps', e, na⟩ := ra.acyclic
  cases e
  have below : ∀ x ∈ fps, x < P.length := fun x hx => ra.bound x (List.mem_cons_of_mem _ hx)
  have nin := not_mem_hat k.inv hfind i.len below na
  have rep : Rep (H'.set H.length c) (.ref H.length) t ((a :: fps).map (hat M')) := by
    rw [List.map_cons, hhat]; exact rc nin
  have comp : Complete P M' (a :: fps) := by
    intro x hx
    rcases List.mem_cons.1 hx with rfl | hx
    · exact .inl (by rw [hfind]; simp)
    · exact k.complete x hx
  refine ⟨⟨k.inv.fill i.len c, ?_, fun b hb => ?_, (Memo.le_cons hn).trans k.le, fun b hb => ?_, comp, fun b hb hn' => ?_⟩, hhat, rep⟩
  · rw [List.length_set]; exact Nat.le_trans (by simp) k.len
  · rw [List.getElem?_set_ne (by omega), k.same b (by simp; omega), List.getElem?_append_left hb]
  · rcases k.only b hb with h | h
    · by_cases e : a = b
      · subst e; exact .inr List.mem_cons_self
      · rw [Memo.find_cons_ne e] at h; exact .inl h
    · exact .inr (List.mem_cons_of_mem _ h)
  · by_cases e : b = a
    · subst e
      intro w t' f hw r
      obtain ⟨e1, e2⟩ := r.det ra
      subst e1 e2
      rw [hfind] at hw
      cases hw
      exact ⟨comp, rep⟩
    · have hb' : b ∈ fps := (List.mem_cons.1 hb).resolve_left e
      refine (k.done b hb' hn').mono (k.inv.fill i.len c) (fun _ _ h => h) hn' fun w t' f hw r x hx => ?_
      refine List.getElem?_set_ne ?_
      rintro rfl
      obtain ⟨tb, fb, rb, _, sub⟩ := ra.within b hb
      obtain ⟨_, e2⟩ := r.det rb
      subst e2
      have naf : a ∉ f := by
        intro haf
        obtain ⟨ta, fa, ra', l, _⟩ := r.within a haf
        obtain ⟨_, e3⟩ := ra'.det ra
        subst e3
        have hw2 : ∀ b ∈ fps, ∃ tb fb, Rep P (.ref b) tb fb ∧ fb.length ≤ fps.length := by
          cases ra with
          | list h rs => exact fun b hb => (rs.within b hb).imp fun _ ⟨f, h1, h2, _⟩ => ⟨f, h1, h2⟩
          | tuple h rs => exact fun b hb => (rs.within b hb).imp fun _ ⟨f, h1, h2, _⟩ => ⟨f, h1, h2⟩
          | obj h rs => exact fun b hb => (rs.within b hb).imp fun _ ⟨f, h1, h2, _⟩ => ⟨f, h1, h2⟩
        obtain ⟨tb2, fb2, rb2, l2⟩ := hw2 b hb'
        obtain ⟨_, e4⟩ := rb2.det r
        subst e4
        simp only [List.length_cons] at l
        omega
      exact not_mem_hat k.inv hfind i.len (fun x hx => r.bound x hx) naf hx

end Genie
