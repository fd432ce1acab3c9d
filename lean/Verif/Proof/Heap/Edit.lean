import Verif.Proof.Heap.Rep
/-! # Editing one object of a tree of objects -/

namespace Genie
open HReader ObjTree

/-- In `H`, the tree `t` at `v` contains, at the value `w`, the tree `u`; replacing what is there replaces it in `t` by way of `plug`. -/
structure Hole (H : Heap) (v : HVal) (fp : List Nat) (w : HVal) (u : ObjTree) (plug : ObjTree → ObjTree) : Prop where
  hole : ∃ fpu A B, Rep H w u fpu ∧ fp = A ++ fpu ++ B ∧
    ∀ H' u' fpu', Rep H' w u' fpu' → (∀ x, x ∈ A ∨ x ∈ B → H'[x]? = H[x]?) → Rep H' v (plug u') (A ++ fpu' ++ B)

theorem Hole.rfl {H v t fp} (r : Rep H v t fp) : Hole H v fp v t id :=
  ⟨fp, [], [], r, by simp, fun H' u' fpu' r' _ => by simpa using r'⟩

theorem Hole.trans {H v fp w u f x y g} (h : Hole H v fp w u f) (k : ∀ fpu, Rep H w u fpu → Hole H w fpu x y g) :
    Hole H v fp x y (f ∘ g) := by
  obtain ⟨fpu, A, B, r, e, c⟩ := h.hole
  obtain ⟨fpy, A', B', r', e', c'⟩ := (k fpu r).hole
  subst e e'
  refine ⟨fpy, A ++ A', B' ++ B, r', by simp [List.append_assoc], fun H' u' fpu' ru ag => ?_⟩
  have h1 := c' H' u' fpu' ru fun x hx => ag x (by rcases hx with h | h <;> simp [h])
  have h2 := c H' _ _ h1 fun x hx => ag x (by rcases hx with h | h <;> simp [h])
  simpa [List.append_assoc] using h2

/-! ## one step -/

theorem RepAttrs.hole {H : Heap} {n : PyStr} : ∀ {vs ts fps u}, RepAttrs H vs ts fps → attrOf n ts = some u →
    ∃ w fpu A B, lookup n vs = some w ∧ Rep H w u fpu ∧ fps = A ++ fpu ++ B ∧
      ∀ H' v' u' fpu', Rep H' v' u' fpu' → (∀ x, x ∈ A ∨ x ∈ B → H'[x]? = H[x]?) →
        RepAttrs H' (assign n v' vs) (setAttrOf n u' ts) (A ++ fpu' ++ B)
  | _, _, _, _, .nil, h => nomatch h
  | _, _, _, u, .cons (n := m) (v := v) (t := t) (fp := fp) (fps := fps) r rs, h => by
    unfold attrOf at h
    by_cases e : m = n
    · rw [if_pos e] at h
      cases h
      refine ⟨v, fp, [], fps, by unfold lookup; rw [if_pos e], r, by simp, fun H' v' u' fpu' r' ag => ?_⟩
      unfold assign setAttrOf
      rw [if_pos e, if_pos e]
      exact .cons r' (rs.frame fun x hx => ag x (.inr hx))
    · rw [if_neg e] at h
      obtain ⟨w, fpu, A, B, h1, h2, h3, h4⟩ := rs.hole h
      refine ⟨w, fpu, fp ++ A, B, by unfold lookup; rw [if_neg e]; exact h1, h2, by rw [h3]; simp [List.append_assoc], fun H' v' u' fpu' r' ag => ?_⟩
      unfold assign setAttrOf
      rw [if_neg e, if_neg e]
      have := RepAttrs.cons (n := m) (r.frame (H' := H') fun x hx => ag x (.inl (List.mem_append_left _ hx)))
        (h4 H' v' u' fpu' r' fun x hx => ag x (hx.imp (List.mem_append_right _) id))
      simpa [List.append_assoc] using this

theorem RepItems.hole {H : Heap} : ∀ {vs ts fps u} {i : Nat}, RepItems H vs ts fps → ts[i]? = some u →
    ∃ w fpu A B, vs[i]? = some w ∧ Rep H w u fpu ∧ fps = A ++ fpu ++ B ∧
      ∀ H' v' u' fpu', Rep H' v' u' fpu' → (∀ x, x ∈ A ∨ x ∈ B → H'[x]? = H[x]?) →
        RepItems H' (vs.set i v') (ts.set i u') (A ++ fpu' ++ B)
  | _, _, _, _, _, .nil, h => nomatch h
  | _, _, _, u, 0, .cons (v := v) (t := t) (fp := fp) (fps := fps) r rs, h => by
    cases h
    refine ⟨v, fp, [], fps, rfl, r, by simp, fun H' v' u' fpu' r' ag => ?_⟩
    exact .cons r' (rs.frame fun x hx => ag x (.inr hx))
  | _, _, _, u, i + 1, .cons (v := v) (t := t) (fp := fp) (fps := fps) r rs, h => by
    obtain ⟨w, fpu, A, B, h1, h2, h3, h4⟩ := rs.hole (i := i) h
    refine ⟨w, fpu, fp ++ A, B, h1, h2, by rw [h3]; simp [List.append_assoc], fun H' v' u' fpu' r' ag => ?_⟩
    have := RepItems.cons (r.frame (H' := H') fun x hx => ag x (.inl (List.mem_append_left _ hx)))
      (h4 H' v' u' fpu' r' fun x hx => ag x (hx.imp (List.mem_append_right _) id))
    simpa [List.append_assoc] using this

theorem assign_lookup {n : PyStr} : ∀ {vs : List (PyStr × HVal)} {w : HVal}, lookup n vs = some w → assign n w vs = vs
  | [], _, h => nomatch h
  | (m, v) :: vs, w, h => by
    unfold lookup at h
    unfold assign
    by_cases e : m = n
    · rw [if_pos e] at h ⊢; cases h; rfl
    · rw [if_neg e] at h ⊢; rw [assign_lookup h]

theorem set_getElem? {α : Type} : ∀ {l : List α} {i : Nat} {a : α}, l[i]? = some a → l.set i a = l
  | [], _, _, h => nomatch h
  | x :: l, 0, a, h => by cases h; rfl
  | x :: l, i + 1, a, h => by
    have : l[i]? = some a := h
    rw [List.set_cons_succ, set_getElem? this]

/-- A step into a tree is a step in the heap. -/
theorem Rep.child {H v t fp st u} (r : Rep H v t fp) (h : t.child st = some u) :
    ∃ w, H.step v st = some w ∧ Hole H v fp w u (fun u' => t.setChild st u') := by
  cases r with
  | none => cases st <;> cases h
  | int => cases st <;> cases h
  | float => cases st <;> cases h
  | str => cases st <;> cases h
  | @list a _ _ _ hc rs =>
    cases st with
    | attr => cases h
    | item i =>
      obtain ⟨w, fpu, A, B, h1, h2, h3, h4⟩ := rs.hole (i := i) h
      refine ⟨w, by unfold Heap.step; simp only [hc]; exact h1, fpu, a :: A, B, h2, by rw [h3]; simp, fun H' u' fpu' r' ag => ?_⟩
      have := h4 H' w u' fpu' r' fun x hx => ag x (hx.imp (List.mem_cons_of_mem _) id)
      rw [set_getElem? h1] at this
      exact .list ((ag _ (.inl List.mem_cons_self)).trans hc) this
  | @tuple a _ _ _ hc rs =>
    cases st with
    | attr => cases h
    | item i =>
      obtain ⟨w, fpu, A, B, h1, h2, h3, h4⟩ := rs.hole (i := i) h
      refine ⟨w, by unfold Heap.step; simp only [hc]; exact h1, fpu, a :: A, B, h2, by rw [h3]; simp, fun H' u' fpu' r' ag => ?_⟩
      have := h4 H' w u' fpu' r' fun x hx => ag x (hx.imp (List.mem_cons_of_mem _) id)
      rw [set_getElem? h1] at this
      exact .tuple ((ag _ (.inl List.mem_cons_self)).trans hc) this
  | @obj a _ _ _ _ hc rs =>
    cases st with
    | item => cases h
    | attr n =>
      obtain ⟨w, fpu, A, B, h1, h2, h3, h4⟩ := rs.hole (n := n) h
      refine ⟨w, by unfold Heap.step; simp only [hc]; exact h1, fpu, a :: A, B, h2, by rw [h3]; simp, fun H' u' fpu' r' ag => ?_⟩
      have := h4 H' w u' fpu' r' fun x hx => ag x (hx.imp (List.mem_cons_of_mem _) id)
      rw [assign_lookup h1] at this
      exact .obj ((ag _ (.inl List.mem_cons_self)).trans hc) this

/-- A place in a tree is a place in the heap. -/
theorem Rep.get {H : Heap} : ∀ {p : ObjPath} {v t fp u}, Rep H v t fp → t.get p = some u →
    ∃ w, H.follow v p = some w ∧ Hole H v fp w u (fun u' => t.put p u')
  | [], v, t, fp, u, r, h => by
    cases h
    exact ⟨v, rfl, Hole.rfl r⟩
  | st :: p, v, t, fp, u, r, h => by
    unfold ObjTree.get at h
    cases e : t.child st with
    | none => rw [e] at h; cases h
    | some c =>
      rw [e] at h
      obtain ⟨w, h1, h2⟩ := r.child e
      obtain ⟨fpc, A, B, rc, _, _⟩ := h2.hole
      obtain ⟨x, h3, _⟩ := rc.get h
      refine ⟨x, by unfold Heap.follow; rw [h1]; exact h3, ?_⟩
      have := h2.trans (x := x) (y := u) (g := fun u' => c.put p u') fun fpu ru => by
        obtain ⟨x', h3', h4'⟩ := ru.get h
        rw [h3] at h3'; cases h3'; exact h4'
      have e' : (fun u' => t.put (st :: p) u') = (fun u' => t.setChild st u') ∘ fun u' => c.put p u' := by
        funext u'
        change ObjTree.put t (st :: p) u' = _
        rw [ObjTree.put]
        simp only [e]
        rfl
      rw [e']; exact this

/-! ## edits -/

/-- `H'` is `H` with some of the objects `fp` changed and new objects added. -/
structure Edited (H H' : Heap) (fp : List Nat) : Prop where
  length : H.length ≤ H'.length
  same : ∀ a, a < H.length → a ∉ fp → H'[a]? = H[a]?

/-- The edited tree. -/
structure EditedTree (H H' : Heap) (v : HVal) (fp : List Nat) (t' : ObjTree) : Prop where
  edited : Edited H H' fp
  rep : ∃ fp', Rep H' v t' fp' ∧ fp'.Nodup ∧ ∀ a ∈ fp', a ∈ fp ∨ H.length ≤ a

theorem Edited.refl (H fp) : Edited H H fp := ⟨Nat.le_refl _, fun _ _ _ => rfl⟩

theorem EditedTree.refl {H v t fp} (r : Rep H v t fp) (nd : fp.Nodup) : EditedTree H H v fp t :=
  ⟨Edited.refl _ _, fp, r, nd, fun _ h => .inl h⟩

theorem EditedTree.trans {H H' H'' v fp t' t''} (h : EditedTree H H' v fp t')
    (k : ∀ fp', Rep H' v t' fp' → fp'.Nodup → EditedTree H' H'' v fp' t'') : EditedTree H H'' v fp t'' := by
  obtain ⟨fp', r, nd, sub⟩ := h.rep
  obtain ⟨e, fp'', r'', nd'', sub''⟩ := k fp' r nd
  refine ⟨⟨Nat.le_trans h.edited.length e.length, fun a ha hf => ?_⟩, fp'', r'', nd'', fun a ha => ?_⟩
  · rw [e.same a (Nat.lt_of_lt_of_le ha h.edited.length) (fun hm => ?_), h.edited.same a ha hf]
    rcases sub a hm with h1 | h1
    · exact hf h1
    · omega
  · rcases sub'' a ha with h1 | h1
    · exact sub a h1
    · exact .inr (Nat.le_trans h.edited.length h1)

/-- An edit of a subtree is an edit of the tree. -/
theorem EditedTree.plug {H H' v fp w u f u'} (nd : fp.Nodup) (h : Hole H v fp w u f) (rv : ∃ t, Rep H v t fp)
    (k : ∀ fpu, Rep H w u fpu → fpu.Nodup → EditedTree H H' w fpu u') : EditedTree H H' v fp (f u') := by
  obtain ⟨t0, r0⟩ := rv
  obtain ⟨fpu, A, B, r, e, c⟩ := h.hole
  subst e
  have nd1 := List.nodup_append.mp nd
  have nd2 := List.nodup_append.mp nd1.1
  obtain ⟨ed, fpu', r', nd', sub⟩ := k fpu r nd2.2.1
  have hA : ∀ x ∈ A, x ∉ fpu := fun x hx hm => nd2.2.2 x hx x hm rfl
  have hB : ∀ x ∈ B, x ∉ fpu := fun x hx hm => nd1.2.2 x (List.mem_append_right _ hm) x hx rfl
  have hAB : ∀ x ∈ A, x ∉ B := fun x hx hm => nd1.2.2 x (List.mem_append_left _ hx) x hm rfl
  have lt : ∀ x ∈ A ++ fpu ++ B, x < H.length := r0.bound
  have hA' : ∀ x ∈ A, x ∉ fpu' := fun x hx hm => by
    rcases sub x hm with h1 | h1
    · exact hA x hx h1
    · have := lt x (by simp [hx]); omega
  have hB' : ∀ x ∈ B, x ∉ fpu' := fun x hx hm => by
    rcases sub x hm with h1 | h1
    · exact hB x hx h1
    · have := lt x (by simp [hx]); omega
  refine ⟨⟨ed.length, fun a ha hf => ed.same a ha fun hm => hf (by simp [hm])⟩, A ++ fpu' ++ B, c H' u' fpu' r' ?_, ?_, ?_⟩
  · intro x hx
    rcases hx with hx | hx
    · exact ed.same x (lt x (by simp [hx])) (hA x hx)
    · exact ed.same x (lt x (by simp [hx])) (hB x hx)
  · rw [List.nodup_append, List.nodup_append]
    refine ⟨⟨nd2.1, nd', fun a ha b hb e => hA' a ha (e ▸ hb)⟩, nd1.2.1, fun a ha b hb e => ?_⟩
    subst e
    rcases List.mem_append.mp ha with h1 | h1
    · exact hAB a h1 hb
    · exact hB' a hb h1
  · intro a ha
    rcases List.mem_append.mp ha with h1 | h1
    · rcases List.mem_append.mp h1 with h2 | h2
      · exact .inl (by simp [h2])
      · exact (sub a h2).imp (fun h => by simp [h]) id
    · exact .inl (by simp [h1])

end Genie
