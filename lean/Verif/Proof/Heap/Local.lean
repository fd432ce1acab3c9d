import Verif.Proof.Heap.Spread
/-! # What a statement does to the object it is applied to -/

namespace Genie
open HReader ObjTree

/-- A statement on the object at `o`, whatever else refers to it; `v'` does not lead back to it. -/
def LocalEdit (H : Heap) (o : HVal) (fo fpv : List Nat) (t' : ObjTree) (out : Py (PUnit × Heap × ByteHandler)) (s : ByteHandler) : Prop :=
  ∃ a c fo', o = .ref a ∧ out = .ok ((), H.set a c, s) ∧ Rep (H.set a c) o t' fo' ∧ (∀ b, fo'.count b ≤ fo.count b + fpv.count b) ∧ H.Mutable a ∧
    ∀ vs, c ≠ .tuple vs

theorem count_swap {A B f g : List Nat} {a b : Nat} :
    (a :: (A ++ f ++ B)).count b ≤ (a :: (A ++ g ++ B)).count b + f.count b := by
  simp only [List.count_cons, List.count_append]; omega

theorem LocalEdit.cut {H : Heap} {a : Nat} {vs ts fps fpv} {i k : Nat} (r : Rep H (.ref a) (.list ts) (a :: fps)) (hc : H[a]? = some (.list vs))
    (rs : RepItems H vs ts fps) (h : i ≤ k) {s : ByteHandler} :
    LocalEdit H (.ref a) (a :: fps) fpv (.list (ts.take i ++ ts.drop k)) (HReader.update (.ref a) (.list (vs.take i ++ vs.drop k)) H s) s := by
  obtain ⟨_, e2, na2⟩ := r.acyclic
  cases e2
  obtain ⟨A, G, B, h3, plug⟩ := rs.splice h
  refine ⟨a, .list (vs.take i ++ vs.drop k), a :: (A ++ [] ++ B), rfl, rfl, ?_, ?_, ⟨_, hc, fun _ e => nomatch e⟩, fun _ e => nomatch e⟩
  · have := plug (H.set a (.list (vs.take i ++ vs.drop k))) [] [] [] .nil fun x hx => by
      have hx' : x ∈ fps := by rw [h3]; rcases hx with h | h <;> simp [h]
      exact List.getElem?_set_ne (fun (e : a = x) => na2 (e ▸ hx'))
    simp only [List.append_nil] at this ⊢
    exact .list (getElem?_set_self' (lt_of_cell hc) _) this
  · intro b; rw [h3]; simp only [List.count_cons, List.count_append, List.append_nil]; omega

theorem Stmt.run_local {H : Heap} {o v' : HVal} {t u : ObjTree} {fo fpv : List Nat} (r : Rep H o t fo) (r' : Rep H v' u fpv)
    (na : ∀ a, o = .ref a → a ∉ fpv) (st : Stmt) (s : ByteHandler) :
    match st.onTree u t with
    | .ok t' => LocalEdit H o fo fpv t' (st.run o v' H s) s
    | .error e => st.run o v' H s = .error e := by
  cases st with
  | setAttr n =>
    cases t with
    | obj c ts =>
      simp only [Stmt.onTree, withAttr, Stmt.run]
      cases e : attrOf n ts with
      | none =>
        obtain ⟨a, vs, fps, rfl, rfl, hc, rs⟩ := r.obj_inv
        obtain ⟨_, e2, na2⟩ := r.acyclic
        cases e2
        simp only [Option.isSome_none, Bool.false_eq_true, if_false]
        have run : HReader.setAttr (.ref a) n v' H s = (if HReader.ofClass n = true then HReader.raise .attributeError
            else HReader.update (.ref a) (.record c (vs ++ [(n, v')]))) H s := by
          unfold HReader.setAttr
          rw [HReader.bind_ok (cell_run hc _ s)]
          simp only [rs.none e]
        rw [run]
        cases ho : HReader.ofClass n with
        | true => rfl
        | false =>
          simp only [Bool.false_eq_true, if_false]
          refine ⟨a, .record c (vs ++ [(n, v')]), a :: (fps ++ fpv), rfl, rfl, ?_, ?_, ⟨_, hc, fun _ e => nomatch e⟩, fun _ e => nomatch e⟩
          · exact .obj (getElem?_set_self' (lt_of_cell hc) _) ((rs.set na2 _).snoc (r'.set (na a rfl) _))
          · intro b; simp only [List.count_cons, List.count_append]; omega
      | some old =>
        simp only [Option.isSome_some, if_true]
        obtain ⟨a, vs, fps, rfl, rfl, hc, rs⟩ := r.obj_inv
        obtain ⟨_, e2, na2⟩ := r.acyclic
        cases e2
        obtain ⟨w, fpu, A, B, h1, h2, h3, h4⟩ := rs.hole e
        refine ⟨a, .record c (assign n v' vs), a :: (A ++ fpv ++ B), rfl, ?_, ?_, ?_, ⟨_, hc, fun _ e => nomatch e⟩, fun _ e => nomatch e⟩
        · unfold HReader.setAttr
          rw [HReader.bind_ok (cell_run hc _ s)]
          simp only [h1]; rfl
        · refine .obj (getElem?_set_self' (lt_of_cell hc) _) (h4 _ v' u fpv (r'.set (na a rfl) _) fun x hx => ?_)
          have hx' : x ∈ fps := by rw [h3]; rcases hx with h | h <;> simp [h]
          exact List.getElem?_set_ne (fun (e : a = x) => na2 (e ▸ hx'))
        · intro b; rw [h3]; exact count_swap
    | list ts | tuple ts =>
      simp only [Stmt.onTree, withAttr, Stmt.run]
      cases r
      next hc rs =>
        unfold HReader.setAttr
        rw [HReader.bind_ok (cell_run hc _ s)]; rfl
    | _ => cases r; rfl
  | setItem i =>
    cases t with
    | list ts =>
      simp only [Stmt.onTree, withItem, Stmt.run]
      obtain ⟨a, vs, fps, rfl, rfl, hc, rs⟩ := r.list_inv
      by_cases hi : i < ts.length
      · rw [if_pos hi]
        obtain ⟨_, e2, na2⟩ := r.acyclic
        cases e2
        obtain ⟨w, fpu, A, B, h1, h2, h3, h4⟩ := rs.hole (List.getElem?_eq_getElem hi)
        have hi' : i < vs.length := by rw [rs.length]; exact hi
        refine ⟨a, .list (vs.set i v'), a :: (A ++ fpv ++ B), rfl, ?_, ?_, ?_, ⟨_, hc, fun _ e => nomatch e⟩, fun _ e => nomatch e⟩
        · unfold HReader.setItem
          rw [HReader.bind_ok (cell_run hc _ s)]
          simp only [if_pos hi']; rfl
        · refine .list (getElem?_set_self' (lt_of_cell hc) _) (h4 _ v' u fpv (r'.set (na a rfl) _) fun x hx => ?_)
          have hx' : x ∈ fps := by rw [h3]; rcases hx with h | h <;> simp [h]
          exact List.getElem?_set_ne (fun (e : a = x) => na2 (e ▸ hx'))
        · intro b; rw [h3]; exact count_swap
      · rw [if_neg hi]
        dsimp only
        unfold HReader.setItem
        rw [HReader.bind_ok (cell_run hc _ s)]
        dsimp only
        rw [if_neg (by rw [rs.length]; exact hi)]; rfl
    | obj c ts | tuple ts =>
      simp only [Stmt.onTree, withItem, Stmt.run]
      cases r
      next hc rs =>
        unfold HReader.setItem
        rw [HReader.bind_ok (cell_run hc _ s)]; rfl
    | _ => cases r; rfl
  | append =>
    cases t with
    | list ts =>
      simp only [Stmt.onTree, withAppended, Stmt.run]
      obtain ⟨a, vs, fps, rfl, rfl, hc, rs⟩ := r.list_inv
      obtain ⟨_, e2, na2⟩ := r.acyclic
      cases e2
      refine ⟨a, .list (vs ++ [v']), a :: (fps ++ fpv), rfl, ?_, ?_, ?_, ⟨_, hc, fun _ e => nomatch e⟩, fun _ e => nomatch e⟩
      · unfold HReader.append
        rw [HReader.bind_ok (cell_run hc _ s)]; rfl
      · exact .list (getElem?_set_self' (lt_of_cell hc) _) ((rs.set na2 _).snoc (r'.set (na a rfl) _))
      · intro b; simp only [List.count_cons, List.count_append]; omega
    | obj c ts | tuple ts =>
      simp only [Stmt.onTree, withAppended, Stmt.run]
      cases r
      next hc rs =>
        unfold HReader.append
        rw [HReader.bind_ok (cell_run hc _ s)]; rfl
    | _ => cases r; rfl
  | pop =>
    cases t with
    | list ts =>
      cases ts with
      | nil => exact pop_empty r s
      | cons x ts =>
        simp only [Stmt.onTree, withoutLast, Stmt.run]
        obtain ⟨a, vs, fps, rfl, rfl, hc, rs⟩ := r.list_inv
        obtain ⟨_, e2, na2⟩ := r.acyclic
        cases e2
        obtain ⟨fps', rs', sub⟩ := rs.dropLast
        have hv : vs ≠ [] := by
          intro e
          have := rs.length
          rw [e] at this
          cases this
        refine ⟨a, .list vs.dropLast, a :: fps', rfl, ?_, ?_, ?_, ⟨_, hc, fun _ e => nomatch e⟩, fun _ e => nomatch e⟩
        · unfold HReader.pop
          rw [HReader.bind_ok (cell_run hc _ s)]
          simp only [if_neg hv]; rfl
        · exact .list (getElem?_set_self' (lt_of_cell hc) _) (rs'.set (fun hm => na2 (sub.mem hm)) _)
        · intro b
          have := sub.count_le b
          simp only [List.count_cons]; omega
    | obj c ts | tuple ts =>
      simp only [Stmt.onTree, withoutLast, Stmt.run]
      cases r
      next hc rs =>
        unfold HReader.pop
        rw [HReader.bind_ok (cell_run hc _ s)]; rfl
    | _ => cases r; rfl
  | insert i =>
    cases t with
    | list ts =>
      simp only [Stmt.onTree, withInserted, Stmt.run]
      obtain ⟨a, vs, fps, rfl, rfl, hc, rs⟩ := r.list_inv
      obtain ⟨_, e2, na2⟩ := r.acyclic
      cases e2
      obtain ⟨A, G, B, h3, plug⟩ := rs.splice (Nat.le_refl i)
      refine ⟨a, .list (vs.take i ++ [v'] ++ vs.drop i), a :: (A ++ fpv ++ B), rfl, ?_, ?_, ?_, ⟨_, hc, fun _ e => nomatch e⟩, fun _ e => nomatch e⟩
      · unfold HReader.insert
        rw [HReader.bind_ok (cell_run hc _ s)]; rfl
      · refine .list (getElem?_set_self' (lt_of_cell hc) _) (plug _ [v'] [u] fpv (by simpa using RepItems.cons (r'.set (na a rfl) _) .nil) fun x hx => ?_)
        have hx' : x ∈ fps := by rw [h3]; rcases hx with h | h <;> simp [h]
        exact List.getElem?_set_ne (fun (e : a = x) => na2 (e ▸ hx'))
      · intro b; rw [h3]; exact count_swap
    | obj c ts | tuple ts =>
      simp only [Stmt.onTree, withInserted, Stmt.run]
      cases r
      next hc rs =>
        unfold HReader.insert
        rw [HReader.bind_ok (cell_run hc _ s)]; rfl
    | _ => cases r; rfl
  | delItem i =>
    cases t with
    | list ts =>
      simp only [Stmt.onTree, withoutItem, Stmt.run]
      obtain ⟨a, vs, fps, rfl, rfl, hc, rs⟩ := r.list_inv
      have run : HReader.delItem (.ref a) i H s = (if i < vs.length then HReader.update (.ref a) (.list (vs.take i ++ vs.drop (i + 1)))
          else HReader.raise .indexError) H s := by
        unfold HReader.delItem
        rw [HReader.bind_ok (cell_run hc _ s)]
      rw [run, rs.length]
      by_cases hlt : i < ts.length
      · rw [if_pos hlt, if_pos hlt]; exact LocalEdit.cut r hc rs (by omega)
      · rw [if_neg hlt, if_neg hlt]; rfl
    | obj c ts | tuple ts =>
      simp only [Stmt.onTree, withoutItem, Stmt.run]
      cases r
      next hc rs =>
        unfold HReader.delItem
        rw [HReader.bind_ok (cell_run hc _ s)]; rfl
    | _ => cases r; rfl
  | delSlice i j =>
    cases t with
    | list ts =>
      simp only [Stmt.onTree, withoutSlice, Stmt.run]
      obtain ⟨a, vs, fps, rfl, rfl, hc, rs⟩ := r.list_inv
      have run : HReader.delSlice (.ref a) i j H s = HReader.update (.ref a) (.list (vs.take i ++ vs.drop (max i j))) H s := by
        unfold HReader.delSlice
        rw [HReader.bind_ok (cell_run hc _ s)]
      rw [run]
      exact LocalEdit.cut r hc rs (by omega)
    | obj c ts | tuple ts =>
      simp only [Stmt.onTree, withoutSlice, Stmt.run]
      cases r
      next hc rs =>
        unfold HReader.delSlice
        rw [HReader.bind_ok (cell_run hc _ s)]; rfl
    | _ => cases r; rfl

/-! ## the tree after the statement -/

theorem ObjTree.get_some_of_follow {H : Heap} : ∀ {p : ObjPath} {v w t fp}, Rep H v t fp → H.follow v p = some w → ∃ u f, t.get p = some u ∧ Rep H w u f
  | [], _, _, _, _, r, h => by cases h; exact ⟨_, _, rfl, r⟩
  | st :: p, v, w, t, fp, r, h => by
    unfold Heap.follow at h
    cases e : H.step v st with
    | none => rw [e] at h; cases h
    | some x =>
      rw [e] at h
      cases ec : t.child st with
      | none =>
        exfalso
        obtain ⟨b, fps, u, fpu, e1, e2, ru, sub⟩ := r.step_sub e
        subst e1
        unfold Heap.step at e
        cases r with
        | list hc rs =>
          simp only [hc] at e
          cases st with
          | attr n => cases e
          | item i =>
            simp only [ObjTree.child] at ec
            have := rs.length
            rw [List.getElem?_eq_none_iff] at ec
            simp only at e
            rw [List.getElem?_eq_none (by omega)] at e; cases e
        | tuple hc rs =>
          simp only [hc] at e
          cases st with
          | attr n => cases e
          | item i =>
            simp only [ObjTree.child] at ec
            have := rs.length
            rw [List.getElem?_eq_none_iff] at ec
            simp only at e
            rw [List.getElem?_eq_none (by omega)] at e; cases e
        | obj hc rs =>
          simp only [hc] at e
          cases st with
          | item n => cases e
          | attr i =>
            simp only [ObjTree.child] at ec
            simp only at e
            rw [rs.none ec] at e; cases e
      | some c =>
        obtain ⟨x', hx', hole⟩ := r.child ec
        rw [e] at hx'
        cases hx'
        obtain ⟨fpc, _, _, rc, _, _⟩ := hole.hole
        obtain ⟨u, f, h1, h2⟩ := ObjTree.get_some_of_follow rc h
        exact ⟨u, f, by unfold ObjTree.get; rw [ec]; exact h1, h2⟩

theorem Heap.follow_append {H : Heap} : ∀ {p q : ObjPath} {v w : HVal}, H.follow v p = some w → H.follow v (p ++ q) = H.follow w q
  | [], _, _, _, h => by cases h; rfl
  | st :: p, q, v, w, h => by
    show (match H.step v st with | some w => H.follow w (p ++ q) | Option.none => Option.none) = _
    replace h : (match H.step v st with | some w => H.follow w p | Option.none => Option.none) = some w := h
    cases e : H.step v st with
    | none => rw [e] at h; cases h
    | some x =>
      rw [e] at h
      exact Heap.follow_append (p := p) h

/-- No place of an object is inside another place of the same object. -/
theorem places_apart {H : Heap} {v : HVal} {a : Nat} {t : ObjTree} {fp : List Nat} (r : Rep H v t fp) {p q : ObjPath}
    (hp : H.follow v p = some (.ref a)) (hq : H.follow v q = some (.ref a)) (h : p <+: q) : p = q := by
  obtain ⟨x, rfl⟩ := h
  rw [Heap.follow_append hp] at hq
  obtain ⟨u, f, _, ru⟩ := ObjTree.get_some_of_follow r hp
  rw [ru.follow_self hq, List.append_nil]

theorem putAll_get_out (u : ObjTree) : ∀ (S : List ObjPath) (t : ObjTree) (q : ObjPath), (∀ p ∈ S, ¬ p <+: q ∧ ¬ q <+: p) →
    (putAll u S t).get q = t.get q
  | [], _, _, _ => rfl
  | p :: S, t, q, h => by
    show (putAll u S (t.put p u)).get q = _
    rw [putAll_get_out u S _ q fun x hx => h x (List.mem_cons_of_mem _ hx),
      ObjTree.get_put_ne (h p List.mem_cons_self).1 (h p List.mem_cons_self).2]

theorem putAll_get_in (u : ObjTree) : ∀ (S : List ObjPath) (t : ObjTree), S.Nodup → (∀ p ∈ S, ∀ q ∈ S, p <+: q → p = q) →
    (∀ p ∈ S, ∃ c, t.get p = some c) → ∀ q ∈ S, (putAll u S t).get q = some u
  | [], _, _, _, _, _, h => nomatch h
  | p :: S, t, nd, apart, ex, q, hq => by
    show (putAll u S (t.put p u)).get q = _
    have nd' := List.nodup_cons.1 nd
    have ne : ∀ x ∈ S, ¬ p <+: x ∧ ¬ x <+: p := fun x hx => by
      refine ⟨fun h => ?_, fun h => ?_⟩
      · have := apart p List.mem_cons_self x (List.mem_cons_of_mem _ hx) h
        subst this; exact nd'.1 hx
      · have := apart x (List.mem_cons_of_mem _ hx) p List.mem_cons_self h
        subst this; exact nd'.1 hx
    by_cases e : q = p
    · subst e
      rw [putAll_get_out u S _ q fun x hx => ⟨(ne x hx).2, (ne x hx).1⟩]
      obtain ⟨c, hc⟩ := ex q List.mem_cons_self
      exact ObjTree.get_put_self hc
    · have hq' : q ∈ S := (List.mem_cons.1 hq).resolve_left e
      refine putAll_get_in u S _ nd'.2 (fun x hx y hy => apart x (List.mem_cons_of_mem _ hx) y (List.mem_cons_of_mem _ hy)) (fun x hx => ?_) q hq'
      obtain ⟨c, hc⟩ := ex x (List.mem_cons_of_mem _ hx)
      exact ⟨c, by rw [ObjTree.get_put_ne (ne x hx).1 (ne x hx).2]; exact hc⟩

end Genie
