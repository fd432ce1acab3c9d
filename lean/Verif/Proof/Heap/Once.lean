import Verif.Proof.Heap.Commands
import Verif.Spec.Forest
/-! # An object that occurs once in a tree is at one place -/

namespace Genie
open HReader ObjTree

theorem RepItems.apart {H : Heap} : ∀ {vs ts fps} {i j : Nat} {w x}, RepItems H vs ts fps → vs[i]? = some w → vs[j]? = some x →
    i ≠ j → ∃ u f u' f', Rep H w u f ∧ Rep H x u' f' ∧ ∀ a, f.count a + f'.count a ≤ fps.count a
  | _, _, _, _, _, _, _, .nil, h, _, _ => by simp at h
  | _, _, _, 0, 0, _, _, .cons r rs, h, h', ne => absurd rfl ne
  | _, _, _, 0, j + 1, _, _, .cons r rs, h, h', ne => by
    cases h
    obtain ⟨u, f, ru, sub⟩ := rs.item (i := j) (by simpa using h')
    exact ⟨_, _, u, f, r, ru, fun a => by rw [List.count_append]; have := sub.count_le a; omega⟩
  | _, _, _, i + 1, 0, _, _, .cons r rs, h, h', ne => by
    cases h'
    obtain ⟨u, f, ru, sub⟩ := rs.item (i := i) (by simpa using h)
    exact ⟨u, f, _, _, ru, r, fun a => by rw [List.count_append]; have := sub.count_le a; omega⟩
  | _, _, _, i + 1, j + 1, _, _, .cons r rs, h, h', ne => by
    obtain ⟨u, f, u', f', r1, r2, c⟩ := rs.apart (i := i) (j := j) (by simpa using h) (by simpa using h') (by omega)
    exact ⟨u, f, u', f', r1, r2, fun a => by rw [List.count_append]; have := c a; omega⟩

theorem RepAttrs.apart {H : Heap} {n m : PyStr} (ne : n ≠ m) : ∀ {vs ts fps} {w x}, RepAttrs H vs ts fps →
    lookup n vs = some w → lookup m vs = some x → ∃ u f u' f', Rep H w u f ∧ Rep H x u' f' ∧ ∀ a, f.count a + f'.count a ≤ fps.count a
  | _, _, _, _, _, .nil, h, _ => by cases h
  | _, _, _, _, _, .cons r rs, h, h' => by
    unfold lookup at h h'
    split at h
    · next e =>
      subst e
      rw [if_neg ne] at h'
      cases h
      obtain ⟨u, f, ru, sub⟩ := rs.attr h'
      exact ⟨_, _, u, f, r, ru, fun a => by rw [List.count_append]; have := sub.count_le a; omega⟩
    · split at h'
      · cases h'
        obtain ⟨u, f, ru, sub⟩ := rs.attr h
        exact ⟨u, f, _, _, ru, r, fun a => by rw [List.count_append]; have := sub.count_le a; omega⟩
      · obtain ⟨u, f, u', f', r1, r2, c⟩ := rs.apart ne h h'
        exact ⟨u, f, u', f', r1, r2, fun a => by rw [List.count_append]; have := c a; omega⟩

theorem Rep.step_apart {H : Heap} {v t fp st st' w x} (r : Rep H v t fp) (h : H.step v st = some w)
    (h' : H.step v st' = some x) (ne : st ≠ st') : ∃ u f u' f', Rep H w u f ∧ Rep H x u' f' ∧ ∀ a, f.count a + f'.count a ≤ fp.count a := by
  unfold Heap.step at h h'
  split at h
  · next a =>
    cases r with
    | list hc rs | tuple hc rs =>
      rw [hc] at h
      simp only [hc] at h'
      cases st with
      | attr => cases h
      | item i =>
        cases st' with
        | attr => cases h'
        | item j =>
          obtain ⟨u, f, u', f', r1, r2, c⟩ := rs.apart h h' (fun e => ne (by rw [e]))
          exact ⟨u, f, u', f', r1, r2, fun a => by rw [List.count_cons]; have := c a; omega⟩
    | obj hc rs =>
      rw [hc] at h
      simp only [hc] at h'
      cases st with
      | item => cases h
      | attr n =>
        cases st' with
        | item => cases h'
        | attr m =>
          obtain ⟨u, f, u', f', r1, r2, c⟩ := rs.apart (fun e => ne (by rw [e])) h h'
          exact ⟨u, f, u', f', r1, r2, fun a => by rw [List.count_cons]; have := c a; omega⟩
  · cases h

/-- An object that occurs at most once is at one place. -/
theorem Rep.follow_once {H : Heap} : ∀ {p q : ObjPath} {v t fp a}, Rep H v t fp → fp.count a ≤ 1 → H.follow v p = some (.ref a) →
    H.follow v q = some (.ref a) → p = q
  | [], q, _, _, _, _, r, _, h, h' => by cases h; exact (r.follow_self h').symm
  | st :: p, [], _, _, _, _, r, _, h, h' => by cases h'; exact r.follow_self h
  | st :: p, st' :: q, v, t, fp, a, r, c, h, h' => by
    unfold Heap.follow at h h'
    cases e : H.step v st with
    | none => rw [e] at h; cases h
    | some w =>
      rw [e] at h
      cases e' : H.step v st' with
      | none => rw [e'] at h'; cases h'
      | some x =>
        rw [e'] at h'
        by_cases ne : st = st'
        · subst ne
          rw [e] at e'
          cases e'
          obtain ⟨_, _, u, fpu, _, rfl, ru, sub⟩ := r.step_sub e
          have := sub.count_le a
          rw [List.count_cons] at c
          rw [ru.follow_once (by omega) h h']
        · obtain ⟨u, f, u', f', r1, r2, cc⟩ := r.step_apart e e' ne
          have h1 := List.count_pos_iff.2 (r1.follow_mem h)
          have h2 := List.count_pos_iff.2 (r2.follow_mem h')
          have := cc a
          omega

theorem step_set_ne {H : Heap} {v : HVal} {a : Nat} (c : Cell) (ne : v ≠ .ref a) (st : PathStep) : Heap.step (H.set a c) v st = H.step v st := by
  unfold Heap.step
  cases v with
  | ref b =>
    have : a ≠ b := fun e => ne (by rw [e])
    simp only [List.getElem?_set_ne this]
  | _ => rfl

/-- A way that does not go through a changed object stays. -/
theorem follow_set {H : Heap} {a : Nat} {c : Cell} : ∀ {q : ObjPath} {v w : HVal}, H.follow v q = some w →
    (∀ q' st rest, q = q' ++ st :: rest → H.follow v q' ≠ some (.ref a)) → Heap.follow (H.set a c) v q = some w
  | [], _, _, h, _ => h
  | st :: q, v, w, h, n => by
    unfold Heap.follow at h ⊢
    rw [step_set_ne c (fun e => n [] st q rfl (by rw [e]; rfl))]
    cases e : H.step v st with
    | none => rw [e] at h; cases h
    | some x =>
      rw [e] at h
      exact follow_set h fun q' st' rest e' hf => n (st :: q') st' rest (by rw [e']; rfl) (by unfold Heap.follow; rw [e]; exact hf)

theorem follow_snoc {H : Heap} {v w : HVal} {p : ObjPath} (h : H.follow v p = some w) (st : PathStep) : H.follow v (p ++ [st]) = H.step w st := by
  rw [Heap.follow_append h]
  unfold Heap.follow Heap.follow
  cases H.step w st <;> rfl

theorem follow_inside {H : Heap} {v w : HVal} {p rest : ObjPath} {st : PathStep} (h : H.follow v p = some w) :
    H.follow v (p ++ st :: rest) = match H.step w st with | some x => H.follow x rest | Option.none => Option.none := by
  rw [Heap.follow_append h, Heap.follow.eq_2]; cases H.step w st <;> rfl

/-! ## parts that are taken out -/

theorem RepItems.get? {H : Heap} {vs ts fps} (rs : RepItems H vs ts fps) {i : Nat} {v : HVal} {t : ObjTree} (h : vs[i]? = some v)
    (h' : ts[i]? = some t) : ∃ f A B, fps = A ++ f ++ B ∧ Rep H v t f ∧
      ∀ H' v' t' f', Rep H' v' t' f' → (∀ x, x ∈ A ∨ x ∈ B → H'[x]? = H[x]?) → RepItems H' (vs.set i v') (ts.set i t') (A ++ f' ++ B) := by
  obtain ⟨w, f, A, B, h1, h2, h3, h4⟩ := rs.hole h'
  rw [h] at h1
  cases h1
  exact ⟨f, A, B, h3, h2, h4⟩

mutual
theorem ObjTree.immutable_spec : ∀ {t : ObjTree}, t.immutable = true → t.Immutable
  | .none, _ => .none
  | .int _, _ => .int _
  | .float _, _ => .float _
  | .str _, _ => .str _
  | .list _, h => by simp [ObjTree.immutable] at h
  | .tuple ts, h => .tuple (ObjTree.immutableItems_spec (by simpa [ObjTree.immutable] using h))
  | .obj _ _, h => by simp [ObjTree.immutable] at h
theorem ObjTree.immutableItems_spec : ∀ {ts : List ObjTree}, immutableItems ts = true → ImmutableItems ts
  | [], _ => .nil
  | t :: ts, h => by
    simp only [ObjTree.immutableItems, Bool.and_eq_true] at h
    exact .cons (ObjTree.immutable_spec h.1) (ObjTree.immutableItems_spec h.2)
end

end Genie
