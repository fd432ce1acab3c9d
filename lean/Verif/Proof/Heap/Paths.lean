import Verif.Proof.Heap.HotKey
import Verif.Spec.Programs
/-! # Expressions and statements of a user, on a tree of objects -/

namespace Genie
open HReader ObjTree

/-! ## evaluation -/

theorem RepAttrs.none {H : Heap} {n : PyStr} : ∀ {vs ts fps}, RepAttrs H vs ts fps → attrOf n ts = Option.none → lookup n vs = Option.none
  | _, _, _, .nil, _ => rfl
  | _, _, _, .cons (n := m) r rs, h => by
    unfold attrOf at h
    unfold lookup
    split at h
    · cases h
    · next hm => rw [if_neg hm]; exact rs.none h

theorem ObjTree.step_child {t u : ObjTree} {st : PathStep} : t.step st = .ok u ↔ t.child st = some u := by
  cases t <;> cases st <;> simp only [ObjTree.step, ObjTree.child] <;> first | (split <;> simp_all) | simp

theorem ObjTree.eval_get {t u : ObjTree} {p : ObjPath} : t.eval p = .ok u ↔ t.get p = some u := by
  induction p generalizing t with
  | nil => simp [ObjTree.eval, ObjTree.get]
  | cons st p ih =>
    unfold ObjTree.eval ObjTree.get
    cases e : t.step st with
    | ok c => rw [ObjTree.step_child.mp e]; exact ih
    | error x =>
      cases e' : t.child st with
      | none => simp
      | some c => rw [ObjTree.step_child.mpr e'] at e; cases e

/-- A step that raises in the tree raises in the heap. -/
theorem Rep.step_error {H v t fp st e} (r : Rep H v t fp) (h : t.step st = .error e) (p : ObjPath) (s : ByteHandler) :
    HReader.eval v (st :: p) H s = .error e := by
  cases st with
  | attr n =>
    unfold HReader.eval
    apply HReader.bind_error
    cases r with
    | none | int | float | str => cases h; rfl
    | list hc _ | tuple hc _ =>
      cases h
      unfold getAttr
      rw [HReader.bind_ok (cell_run hc _ s)]; rfl
    | obj hc rs =>
      simp only [ObjTree.step] at h
      split at h
      · cases h
      · next hn =>
        cases h
        unfold getAttr
        rw [HReader.bind_ok (cell_run hc _ s)]
        simp only [rs.none hn]; rfl
  | item i =>
    unfold HReader.eval
    apply HReader.bind_error
    cases r with
    | none | int | float | str => cases h; rfl
    | list hc rs | tuple hc rs =>
      simp only [ObjTree.step] at h
      split at h
      · cases h
      · next hn =>
        cases h
        unfold HReader.getItem
        rw [HReader.bind_ok (cell_run hc _ s)]
        have := rs.length
        simp only [List.getElem?_eq_none (Nat.le_trans (Nat.le_of_eq this) (List.getElem?_eq_none_iff.mp hn))]
        rfl
    | obj hc rs =>
      cases h
      unfold HReader.getItem
      rw [HReader.bind_ok (cell_run hc _ s)]; rfl

theorem Rep.eval_ok {H : Heap} : ∀ {p : ObjPath} {v w}, H.follow v p = some w → ∀ s, HReader.eval v p H s = .ok (w, H, s)
  | [], v, w, h, s => by cases h; rfl
  | st :: p, v, w, h, s => by
    unfold Heap.follow at h
    cases e : H.step v st with
    | none => rw [e] at h; cases h
    | some x =>
      rw [e] at h
      cases st with
      | attr n => unfold HReader.eval; rw [HReader.bind_ok (getAttr_run e s)]; exact Rep.eval_ok h s
      | item i => unfold HReader.eval; rw [HReader.bind_ok (getItem_run e s)]; exact Rep.eval_ok h s

/-- An expression that raises in the tree raises the same in the heap. -/
theorem Rep.eval_error {H : Heap} : ∀ {p : ObjPath} {v t fp e}, Rep H v t fp → t.eval p = .error e → ∀ s, HReader.eval v p H s = .error e
  | [], _, _, _, _, _, h, _ => by cases h
  | st :: p, v, t, fp, e, r, h, s => by
    unfold ObjTree.eval at h
    cases e1 : t.step st with
    | error e' => rw [e1] at h; cases h; exact r.step_error e1 p s
    | ok u =>
      rw [e1] at h
      obtain ⟨w, h1, hole⟩ := r.child (ObjTree.step_child.mp e1)
      obtain ⟨fpu, _, _, ru, _, _⟩ := hole.hole
      cases st with
      | attr n => unfold HReader.eval; rw [HReader.bind_ok (getAttr_run h1 s)]; exact ru.eval_error h s
      | item i => unfold HReader.eval; rw [HReader.bind_ok (getItem_run h1 s)]; exact ru.eval_error h s

/-! ## no two places share an object -/

theorem RepItems.item {H : Heap} : ∀ {vs ts fps} {i : Nat} {w}, RepItems H vs ts fps → vs[i]? = some w →
    ∃ u f, Rep H w u f ∧ f.Sublist fps
  | _, _, _, _, _, .nil, h => by simp at h
  | _, _, _, 0, _, .cons r rs, h => by
    cases h
    exact ⟨_, _, r, List.sublist_append_left _ _⟩
  | _, _, _, i + 1, _, .cons r rs, h => by
    obtain ⟨u, f, ru, sub⟩ := rs.item (i := i) (by simpa using h)
    exact ⟨u, f, ru, sub.trans (List.sublist_append_right _ _)⟩

theorem RepItems.two {H : Heap} : ∀ {vs ts fps} {i j : Nat} {w x}, RepItems H vs ts fps → fps.Nodup → vs[i]? = some w → vs[j]? = some x →
    i ≠ j → ∃ u f u' f', Rep H w u f ∧ Rep H x u' f' ∧ ∀ a ∈ f, a ∉ f'
  | _, _, _, _, _, _, _, .nil, _, h, _, _ => by simp at h
  | _, _, _, 0, 0, _, _, .cons r rs, nd, h, h', ne => absurd rfl ne
  | _, _, _, 0, j + 1, _, _, .cons r rs, nd, h, h', ne => by
    cases h
    obtain ⟨u, f, ru, sub⟩ := rs.item (i := j) (by simpa using h')
    exact ⟨_, _, u, f, r, ru, fun a ha hf => (List.nodup_append.mp nd).2.2 a ha a (sub.subset hf) rfl⟩
  | _, _, _, i + 1, 0, _, _, .cons r rs, nd, h, h', ne => by
    cases h'
    obtain ⟨u, f, ru, sub⟩ := rs.item (i := i) (by simpa using h)
    exact ⟨u, f, _, _, ru, r, fun a ha hf => (List.nodup_append.mp nd).2.2 a hf a (sub.subset ha) rfl⟩
  | _, _, _, i + 1, j + 1, _, _, .cons r rs, nd, h, h', ne =>
    rs.two (i := i) (j := j) (List.nodup_append.mp nd).2.1 (by simpa using h) (by simpa using h') (by omega)

theorem RepAttrs.attr {H : Heap} {n : PyStr} : ∀ {vs ts fps} {w}, RepAttrs H vs ts fps → lookup n vs = some w →
    ∃ u f, Rep H w u f ∧ f.Sublist fps
  | _, _, _, _, .nil, h => by cases h
  | _, _, _, _, .cons r rs, h => by
    unfold lookup at h
    split at h
    · cases h
      exact ⟨_, _, r, List.sublist_append_left _ _⟩
    · obtain ⟨u, f, ru, sub⟩ := rs.attr h
      exact ⟨u, f, ru, sub.trans (List.sublist_append_right _ _)⟩

theorem RepAttrs.two {H : Heap} {n m : PyStr} (ne : n ≠ m) : ∀ {vs ts fps} {w x}, RepAttrs H vs ts fps → fps.Nodup →
    lookup n vs = some w → lookup m vs = some x → ∃ u f u' f', Rep H w u f ∧ Rep H x u' f' ∧ ∀ a ∈ f, a ∉ f'
  | _, _, _, _, _, .nil, _, h, _ => by cases h
  | _, _, _, _, _, .cons r rs, nd, h, h' => by
    unfold lookup at h h'
    have nd' := List.nodup_append.mp nd
    split at h
    · next e =>
      subst e
      rw [if_neg ne] at h'
      cases h
      obtain ⟨u, f, ru, sub⟩ := rs.attr h'
      exact ⟨_, _, u, f, r, ru, fun a ha hf => nd'.2.2 a ha a (sub.subset hf) rfl⟩
    · split at h'
      · cases h'
        obtain ⟨u, f, ru, sub⟩ := rs.attr h
        exact ⟨u, f, _, _, ru, r, fun a ha hf => nd'.2.2 a hf a (sub.subset ha) rfl⟩
      · exact rs.two ne nd'.2.1 h h'

/-- The object a step leads to is part of the tree, and not its root. -/
theorem Rep.step_sub {H : Heap} {v t fp st w} (r : Rep H v t fp) (h : H.step v st = some w) :
    ∃ a fps u fpu, v = .ref a ∧ fp = a :: fps ∧ Rep H w u fpu ∧ fpu.Sublist fps := by
  unfold Heap.step at h
  split at h
  · next a =>
    cases r with
    | list hc rs | tuple hc rs =>
      rw [hc] at h
      cases st with
      | attr => cases h
      | item i =>
        obtain ⟨u, f, ru, sub⟩ := rs.item h
        exact ⟨_, _, u, f, rfl, rfl, ru, sub⟩
    | obj hc rs =>
      rw [hc] at h
      cases st with
      | item => cases h
      | attr n =>
        obtain ⟨u, f, ru, sub⟩ := rs.attr h
        exact ⟨_, _, u, f, rfl, rfl, ru, sub⟩
  · cases h

/-- Two different steps lead to disjoint trees. -/
theorem Rep.step_two {H : Heap} {v t fp st st' w x} (r : Rep H v t fp) (nd : fp.Nodup) (h : H.step v st = some w)
    (h' : H.step v st' = some x) (ne : st ≠ st') : ∃ u f u' f', Rep H w u f ∧ Rep H x u' f' ∧ ∀ a ∈ f, a ∉ f' := by
  unfold Heap.step at h h'
  split at h
  · next a =>
    cases r with
    | list hc rs | tuple hc rs =>
      rw [hc] at h
      simp only [hc] at h'
      cases st with
      | attr => cases h
      | item i =>
        cases st' with
        | attr => cases h'
        | item j => exact rs.two (List.nodup_cons.mp nd).2 h h' (fun e => ne (by rw [e]))
    | obj hc rs =>
      rw [hc] at h
      simp only [hc] at h'
      cases st with
      | item => cases h
      | attr n =>
        cases st' with
        | item => cases h'
        | attr m => exact rs.two (fun e => ne (by rw [e])) (List.nodup_cons.mp nd).2 h h'
  · cases h

theorem Rep.follow_mem {H : Heap} : ∀ {p : ObjPath} {v t fp a}, Rep H v t fp → H.follow v p = some (.ref a) → a ∈ fp
  | [], v, t, fp, a, r, h => by
    cases h
    cases r <;> exact List.mem_cons_self
  | st :: p, v, t, fp, a, r, h => by
    unfold Heap.follow at h
    cases e : H.step v st with
    | none => rw [e] at h; cases h
    | some w =>
      rw [e] at h
      obtain ⟨_, _, u, fpu, rfl, rfl, ru, sub⟩ := r.step_sub e
      exact List.mem_cons_of_mem _ (sub.subset (ru.follow_mem h))

theorem Rep.follow_inj {H : Heap} : ∀ {p q : ObjPath} {v t fp a}, Rep H v t fp → fp.Nodup → H.follow v p = some (.ref a) →
    H.follow v q = some (.ref a) → p = q
  | [], [], _, _, _, _, _, _, _, _ => rfl
  | [], st :: q, v, t, fp, a, r, nd, h, h' => by
    exfalso
    cases h
    unfold Heap.follow at h'
    cases e : H.step (.ref a) st with
    | none => rw [e] at h'; cases h'
    | some w =>
      rw [e] at h'
      obtain ⟨_, _, u, fpu, e1, rfl, ru, sub⟩ := r.step_sub e
      cases e1
      exact (List.nodup_cons.mp nd).1 (sub.subset (ru.follow_mem h'))
  | st :: p, [], v, t, fp, a, r, nd, h', h => by
    exfalso
    cases h
    unfold Heap.follow at h'
    cases e : H.step (.ref a) st with
    | none => rw [e] at h'; cases h'
    | some w =>
      rw [e] at h'
      obtain ⟨_, _, u, fpu, e1, rfl, ru, sub⟩ := r.step_sub e
      cases e1
      exact (List.nodup_cons.mp nd).1 (sub.subset (ru.follow_mem h'))
  | st :: p, st' :: q, v, t, fp, a, r, nd, h, h' => by
    unfold Heap.follow at h h'
    cases e : H.step v st with
    | none => rw [e] at h; cases h
    | some w =>
      rw [e] at h
      cases e' : H.step v st' with
      | none => rw [e'] at h'; cases h'
      | some x =>
        rw [e'] at h'
        by_cases ne : st = st'
        · subst ne
          rw [e] at e'
          cases e'
          obtain ⟨_, _, u, fpu, _, rfl, ru, sub⟩ := r.step_sub e
          rw [ru.follow_inj ((List.nodup_cons.mp nd).2.sublist sub) h h']
        · obtain ⟨u, f, u', f', r1, r2, dis⟩ := r.step_two nd e e' ne
          exact absurd (r2.follow_mem h') (dis a (r1.follow_mem h))

/-! ## laws of `put` -/

theorem ObjTree.attrOf_set_self {n : PyStr} {u t : ObjTree} : ∀ {ts}, attrOf n ts = some t → attrOf n (setAttrOf n u ts) = some u
  | [], h => by cases h
  | (m, x) :: ts, h => by
    unfold attrOf at h
    unfold setAttrOf
    split at h
    · next e => rw [if_pos e]; unfold attrOf; rw [if_pos e]
    · next e => rw [if_neg e]; unfold attrOf; rw [if_neg e]; exact attrOf_set_self h

theorem ObjTree.attrOf_set_ne {n m : PyStr} {u : ObjTree} (ne : n ≠ m) : ∀ {ts}, attrOf m (setAttrOf n u ts) = attrOf m ts
  | [] => rfl
  | (k, x) :: ts => by
    unfold setAttrOf
    split
    · next e => subst e; unfold attrOf; rw [if_neg ne, if_neg ne]
    · unfold attrOf
      split
      · rfl
      · exact attrOf_set_ne ne

theorem ObjTree.child_set_self {t c u : ObjTree} {st} (h : t.child st = some c) : (t.setChild st u).child st = some u := by
  cases t <;> cases st <;> try cases h
  · next ts i =>
    have : i < ts.length := by
      have h : ts[i]? = some c := h
      exact (List.getElem?_eq_some_iff.mp h).1
    exact List.getElem?_set_self this
  · next ts i =>
    have : i < ts.length := by
      have h : ts[i]? = some c := h
      exact (List.getElem?_eq_some_iff.mp h).1
    exact List.getElem?_set_self this
  · exact attrOf_set_self h

theorem ObjTree.child_set_ne {t u : ObjTree} {st st'} (ne : st ≠ st') : (t.setChild st u).child st' = t.child st' := by
  cases t <;> cases st <;> cases st' <;> try rfl
  · exact List.getElem?_set_ne (fun e => ne (by rw [e]))
  · exact List.getElem?_set_ne (fun e => ne (by rw [e]))
  · exact attrOf_set_ne (fun e => ne (by rw [e]))

theorem ObjTree.get_put_self : ∀ {p : ObjPath} {t c u : ObjTree}, t.get p = some c → (t.put p u).get p = some u
  | [], _, _, _, _ => rfl
  | st :: p, t, c, u, h => by
    unfold ObjTree.get at h
    cases e : t.child st with
    | none => rw [e] at h; cases h
    | some x =>
      rw [e] at h
      unfold ObjTree.put ObjTree.get
      simp only [e, child_set_self e]
      exact get_put_self h

theorem ObjTree.get_put_ne : ∀ {p q : ObjPath} {t u : ObjTree}, ¬ p <+: q → ¬ q <+: p → (t.put p u).get q = t.get q
  | [], _, _, _, h, _ => absurd (List.nil_prefix) h
  | _, [], _, _, _, h => absurd (List.nil_prefix) h
  | st :: p, st' :: q, t, u, h, h' => by
    unfold ObjTree.put ObjTree.get
    cases e : t.child st with
    | none => rfl
    | some x =>
      dsimp only
      by_cases ne : st = st'
      · subst ne
        rw [child_set_self e, e]
        exact get_put_ne (fun k => h (List.cons_prefix_cons.mpr ⟨rfl, k⟩)) (fun k => h' (List.cons_prefix_cons.mpr ⟨rfl, k⟩))
      · rw [child_set_ne ne]

theorem step_extend {H : Heap} {v w : HVal} {st} (N : Heap) (h : H.step v st = some w) : (H ++ N).step v st = some w := by
  unfold Heap.step at h ⊢
  cases v with
  | ref a =>
    dsimp only at h ⊢
    cases e : H[a]? with
    | none => rw [e] at h; cases h
    | some c =>
      rw [List.getElem?_append_left (lt_of_cell e), e]
      rw [e] at h
      exact h
  | _ => cases h

theorem follow_extend {H : Heap} (N : Heap) : ∀ {p : ObjPath} {v w : HVal}, H.follow v p = some w → (H ++ N).follow v p = some w
  | [], _, _, h => h
  | st :: p, v, w, h => by
    unfold Heap.follow at h ⊢
    cases e : H.step v st with
    | none => rw [e] at h; cases h
    | some x =>
      rw [e] at h
      rw [step_extend N e]
      exact follow_extend N h

/-! ## statements -/

theorem Stmt.run_tree {H N : Heap} {v t fp v' u fpv} (r : Rep H v t fp) (nd : fp.Nodup) (r' : Rep (H ++ N) v' u fpv) (nd' : fpv.Nodup)
    (fr : ∀ a ∈ fpv, H.length ≤ a) (st : Stmt) (s : ByteHandler) :
    match st.onTree u t with
    | .ok t' => ∃ H', st.run v v' (H ++ N) s = .ok ((), H', s) ∧ EditedTree H H' v fp t'
    | .error e => st.run v v' (H ++ N) s = .error e := by
  have cellN : ∀ {a c}, H[a]? = some c → (H ++ N)[a]? = some c := fun {a c} h => by
    rw [List.getElem?_append_left (lt_of_cell h)]; exact h
  cases st with
  | setAttr n =>
    cases t with
    | obj c ts =>
      simp only [Stmt.onTree, withAttr, Stmt.run]
      cases e : attrOf n ts with
      | none =>
        simp only [Option.isSome_none, Bool.false_eq_true, if_false]
        cases ho : HReader.ofClass n with
        | true =>
          obtain ⟨a, vs, fps, rfl, rfl, hc, rs⟩ := r.obj_inv
          rw [if_pos rfl]
          unfold HReader.setAttr
          rw [HReader.bind_ok (cell_run (cellN hc) _ s)]
          simp only [rs.none e, ho, if_true]; rfl
        | false =>
          rw [if_neg (by simp)]
          obtain ⟨a, vs, rfl, hc, ed⟩ := newAttr_run (n := n) r nd r' nd' fr
          refine ⟨_, ?_, ed⟩
          unfold HReader.setAttr
          rw [HReader.bind_ok (cell_run (cellN hc) _ s)]
          obtain ⟨_, _, _, e1, rfl, hc1, rs⟩ := r.obj_inv
          cases e1
          rw [hc] at hc1
          cases hc1
          simp only [rs.none e, ho, Bool.false_eq_true, if_false]; rfl
      | some o =>
        simp only [Option.isSome_some, if_true]
        exact setAttr_run r nd e r' nd' fr s
    | list ts | tuple ts =>
      simp only [Stmt.onTree, withAttr, Stmt.run]
      cases r
      next hc rs =>
        unfold HReader.setAttr
        rw [HReader.bind_ok (cell_run (cellN hc) _ s)]; rfl
    | _ => cases r; rfl
  | setItem i =>
    cases t with
    | list ts =>
      simp only [Stmt.onTree, withItem, Stmt.run]
      by_cases hi : i < ts.length
      · rw [if_pos hi]
        exact setItem_run r nd (List.getElem?_eq_getElem hi) r' nd' fr s
      · rw [if_neg hi]
        cases r with
        | list hc rs =>
          dsimp only
          unfold HReader.setItem
          rw [HReader.bind_ok (cell_run (cellN hc) _ s)]
          dsimp only
          rw [if_neg (by rw [rs.length]; exact hi)]; rfl
    | obj c ts | tuple ts =>
      simp only [Stmt.onTree, withItem, Stmt.run]
      cases r
      next hc rs =>
        unfold HReader.setItem
        rw [HReader.bind_ok (cell_run (cellN hc) _ s)]; rfl
    | _ => cases r; rfl
  | append =>
    cases t with
    | list ts => exact append_run r nd r' nd' fr s
    | obj c ts | tuple ts =>
      simp only [Stmt.onTree, withAppended, Stmt.run]
      cases r
      next hc rs =>
        unfold HReader.append
        rw [HReader.bind_ok (cell_run (cellN hc) _ s)]; rfl
    | _ => cases r; rfl
  | pop =>
    cases t with
    | list ts =>
      cases ts with
      | nil => exact pop_empty (r.extend N) s
      | cons x ts =>
        simp only [Stmt.onTree, withoutLast, Stmt.run]
        obtain ⟨H', h1, h2⟩ := pop_run (r.extend N) nd (by simp) s
        refine ⟨H', h1, ⟨?_, fun a ha hf => ?_⟩, ?_⟩
        · exact Nat.le_trans (by simp) h2.edited.length
        · rw [h2.edited.same a (by simp; omega) hf, List.getElem?_append_left ha]
        · obtain ⟨fp', r1, r2, r3⟩ := h2.rep
          exact ⟨fp', r1, r2, fun a ha => (r3 a ha).imp id fun h => by simp at h; omega⟩
    | obj c ts | tuple ts =>
      simp only [Stmt.onTree, withoutLast, Stmt.run]
      cases r
      next hc rs =>
        unfold HReader.pop
        rw [HReader.bind_ok (cell_run (cellN hc) _ s)]; rfl
    | _ => cases r; rfl
  | insert i =>
    cases t with
    | list ts =>
      simp only [Stmt.onTree, withInserted, Stmt.run]
      obtain ⟨a, vs, rfl, hc, -, ed⟩ := splice_run (i := i) (k := i) r nd (Nat.le_refl _) (by simpa using RepItems.cons r' .nil) nd' fr
      refine ⟨_, ?_, ed⟩
      unfold HReader.insert
      rw [HReader.bind_ok (cell_run (cellN hc) _ s)]; rfl
    | obj c ts | tuple ts =>
      simp only [Stmt.onTree, withInserted, Stmt.run]
      cases r
      next hc rs =>
        unfold HReader.insert
        rw [HReader.bind_ok (cell_run (cellN hc) _ s)]; rfl
    | _ => cases r; rfl
  | delItem i =>
    cases t with
    | list ts =>
      simp only [Stmt.onTree, withoutItem, Stmt.run]
      obtain ⟨a, vs, rfl, hc, hl, ed⟩ := splice_run (N := N) (i := i) (k := i + 1) r nd (by omega) .nil .nil (fun _ h => nomatch h)
      simp only [List.append_nil] at ed
      unfold HReader.delItem
      rw [HReader.bind_ok (cell_run (cellN hc) _ s)]
      dsimp only
      rw [hl]
      by_cases hlt : i < ts.length
      · rw [if_pos hlt, if_pos hlt]; exact ⟨_, rfl, ed⟩
      · rw [if_neg hlt, if_neg hlt]; rfl
    | obj c ts | tuple ts =>
      simp only [Stmt.onTree, withoutItem, Stmt.run]
      cases r
      next hc rs =>
        unfold HReader.delItem
        rw [HReader.bind_ok (cell_run (cellN hc) _ s)]; rfl
    | _ => cases r; rfl
  | delSlice i j =>
    cases t with
    | list ts =>
      simp only [Stmt.onTree, withoutSlice, Stmt.run]
      obtain ⟨a, vs, rfl, hc, hl, ed⟩ := splice_run (N := N) (i := i) (k := max i j) r nd (by omega) .nil .nil (fun _ h => nomatch h)
      simp only [List.append_nil] at ed
      refine ⟨_, ?_, ed⟩
      unfold HReader.delSlice
      rw [HReader.bind_ok (cell_run (cellN hc) _ s)]; rfl
    | obj c ts | tuple ts =>
      simp only [Stmt.onTree, withoutSlice, Stmt.run]
      cases r
      next hc rs =>
        unfold HReader.delSlice
        rw [HReader.bind_ok (cell_run (cellN hc) _ s)]; rfl
    | _ => cases r; rfl

/-- A statement at a place. -/
theorem Stmt.run_at {H N : Heap} {v t fp v' u fpv} (r : Rep H v t fp) (nd : fp.Nodup) (r' : Rep (H ++ N) v' u fpv) (nd' : fpv.Nodup)
    (fr : ∀ a ∈ fpv, H.length ≤ a) (p : ObjPath) (st : Stmt) (s : ByteHandler) :
    match t.eval p >>= st.onTree u with
    | .ok t' => ∃ H', (HReader.eval v p >>= fun o => st.run o v') (H ++ N) s = .ok ((), H', s) ∧ EditedTree H H' v fp (t.put p t')
    | .error e => (HReader.eval v p >>= fun o => st.run o v') (H ++ N) s = .error e := by
  cases e : t.eval p with
  | error x =>
    change (HReader.eval v p >>= fun o => st.run o v') (H ++ N) s = .error x
    exact HReader.bind_error ((r.extend N).eval_error e s)
  | ok w =>
    obtain ⟨o, ho, hole⟩ := r.get (ObjTree.eval_get.mp e)
    obtain ⟨o', ho', _⟩ := (r.extend N).get (ObjTree.eval_get.mp e)
    obtain ⟨fpo, A, B, ro, ef, _⟩ := hole.hole
    have ndo : fpo.Nodup := by
      rw [ef] at nd
      exact (List.nodup_append.mp (List.nodup_append.mp nd).1).2.1
    have eo : o' = o := by
      have := follow_extend N ho
      rw [this] at ho'; exact (Option.some.inj ho').symm
    subst eo
    rw [HReader.bind_ok (Rep.eval_ok ho' s)]
    have := Stmt.run_tree ro ndo r' nd' fr st s
    change match st.onTree u w with | .ok t' => _ | .error e => _
    cases e2 : st.onTree u w with
    | error x => rw [e2] at this; exact this
    | ok t' =>
      rw [e2] at this
      obtain ⟨H', h1, h2⟩ := this
      refine ⟨H', h1, EditedTree.plug nd hole ⟨t, r⟩ fun fpu ru _ => ?_⟩
      obtain ⟨_, e⟩ := ru.det ro
      subst e
      exact h2

/-! ## new objects -/

theorem nodup_cons_fresh {H N : Heap} {fp : List Nat} (nd : fp.Nodup) (b : ∀ a ∈ fp, a < (H ++ N).length) : ((H ++ N).length :: fp).Nodup :=
  List.nodup_cons.mpr ⟨fun h => by have := b _ h; omega, nd⟩

mutual
theorem new_run : ∀ (t : ObjTree) (H : Heap) (s : ByteHandler),
    ∃ v N fp, HReader.new t H s = .ok (v, H ++ N, s) ∧ Rep (H ++ N) v t fp ∧ fp.Nodup ∧ ∀ a ∈ fp, H.length ≤ a
  | .none, H, s => ⟨.none, [], [], by rw [List.append_nil]; rfl, .none, List.nodup_nil, fun _ h => nomatch h⟩
  | .int i, H, s => ⟨.int i, [], [], by rw [List.append_nil]; rfl, .int _, List.nodup_nil, fun _ h => nomatch h⟩
  | .float x, H, s => ⟨.float x, [], [], by rw [List.append_nil]; rfl, .float _, List.nodup_nil, fun _ h => nomatch h⟩
  | .str x, H, s => ⟨.str x, [], [], by rw [List.append_nil]; rfl, .str _, List.nodup_nil, fun _ h => nomatch h⟩
  | .list ts, H, s => by
    obtain ⟨vs, N, fp, h, r, nd, fr⟩ := newItems_run ts H s
    refine ⟨.ref (H ++ N).length, N ++ [.list vs], (H ++ N).length :: fp, ?_, ?_, nodup_cons_fresh nd r.bound, ?_⟩
    · unfold HReader.new
      rw [HReader.bind_ok h, ← List.append_assoc]; rfl
    · rw [← List.append_assoc]
      exact .list (by simp) (r.extend _)
    · intro a ha
      rcases List.mem_cons.mp ha with rfl | ha
      · simp
      · exact fr a ha
  | .tuple ts, H, s => by
    obtain ⟨vs, N, fp, h, r, nd, fr⟩ := newItems_run ts H s
    refine ⟨.ref (H ++ N).length, N ++ [.tuple vs], (H ++ N).length :: fp, ?_, ?_, nodup_cons_fresh nd r.bound, ?_⟩
    · unfold HReader.new
      rw [HReader.bind_ok h, ← List.append_assoc]; rfl
    · rw [← List.append_assoc]
      exact .tuple (by simp) (r.extend _)
    · intro a ha
      rcases List.mem_cons.mp ha with rfl | ha
      · simp
      · exact fr a ha
  | .obj c ts, H, s => by
    obtain ⟨vs, N, fp, h, r, nd, fr⟩ := newAttrs_run ts H s
    refine ⟨.ref (H ++ N).length, N ++ [.record c vs], (H ++ N).length :: fp, ?_, ?_, nodup_cons_fresh nd r.bound, ?_⟩
    · unfold HReader.new
      rw [HReader.bind_ok h, ← List.append_assoc]; rfl
    · rw [← List.append_assoc]
      exact .obj (by simp) (r.extend _)
    · intro a ha
      rcases List.mem_cons.mp ha with rfl | ha
      · simp
      · exact fr a ha
theorem newItems_run : ∀ (ts : List ObjTree) (H : Heap) (s : ByteHandler),
    ∃ vs N fp, HReader.newItems ts H s = .ok (vs, H ++ N, s) ∧ RepItems (H ++ N) vs ts fp ∧ fp.Nodup ∧ ∀ a ∈ fp, H.length ≤ a
  | [], H, s => ⟨[], [], [], by rw [List.append_nil]; rfl, .nil, List.nodup_nil, fun _ h => nomatch h⟩
  | t :: ts, H, s => by
    obtain ⟨v, N, fp, h, r, nd, fr⟩ := new_run t H s
    obtain ⟨vs, N', fps, h', r', nd', fr'⟩ := newItems_run ts (H ++ N) s
    refine ⟨v :: vs, N ++ N', fp ++ fps, ?_, ?_, ?_, ?_⟩
    · unfold HReader.newItems
      rw [HReader.bind_ok h, HReader.bind_ok h', List.append_assoc]; rfl
    · rw [← List.append_assoc]
      exact .cons (r.extend _) r'
    · exact List.nodup_append.mpr ⟨nd, nd', fun a ha b hb e => by have := r.bound a ha; have := fr' b hb; omega⟩
    · intro a ha
      rcases List.mem_append.mp ha with ha | ha
      · exact fr a ha
      · have := fr' a ha; simp at this; omega
theorem newAttrs_run : ∀ (ts : List (PyStr × ObjTree)) (H : Heap) (s : ByteHandler),
    ∃ vs N fp, HReader.newAttrs ts H s = .ok (vs, H ++ N, s) ∧ RepAttrs (H ++ N) vs ts fp ∧ fp.Nodup ∧ ∀ a ∈ fp, H.length ≤ a
  | [], H, s => ⟨[], [], [], by rw [List.append_nil]; rfl, .nil, List.nodup_nil, fun _ h => nomatch h⟩
  | (n, t) :: ts, H, s => by
    obtain ⟨v, N, fp, h, r, nd, fr⟩ := new_run t H s
    obtain ⟨vs, N', fps, h', r', nd', fr'⟩ := newAttrs_run ts (H ++ N) s
    refine ⟨(n, v) :: vs, N ++ N', fp ++ fps, ?_, ?_, ?_, ?_⟩
    · unfold HReader.newAttrs
      rw [HReader.bind_ok h, HReader.bind_ok h', List.append_assoc]; rfl
    · rw [← List.append_assoc]
      exact .cons (r.extend _) r'
    · exact List.nodup_append.mpr ⟨nd, nd', fun a ha b hb e => by have := r.bound a ha; have := fr' b hb; omega⟩
    · intro a ha
      rcases List.mem_append.mp ha with ha | ha
      · exact fr a ha
      · have := fr' a ha; simp at this; omega
end

end Genie
