import Verif.Proof.Heap.Paths
import Verif.Spec.Sharing
/-! # What changing one object does to everything that refers to it -/

namespace Genie
open HReader ObjTree

/-! ## no object is part of itself -/

mutual
theorem Rep.within {H : Heap} : ∀ {v t fp}, Rep H v t fp → ∀ b ∈ fp, ∃ tb fb, Rep H (.ref b) tb fb ∧ fb.length ≤ fp.length ∧ ∀ x ∈ fb, x ∈ fp
  | _, _, _, .none, _, m => nomatch m
  | _, _, _, .int _, _, m => nomatch m
  | _, _, _, .float _, _, m => nomatch m
  | _, _, _, .str _, _, m => nomatch m
  | _, _, _, .list h r, b, m => by
    rcases List.mem_cons.1 m with e | m
    · subst e; exact ⟨_, _, .list h r, Nat.le_refl _, fun _ h => h⟩
    · obtain ⟨tb, fb, rb, l, sub⟩ := r.within b m
      exact ⟨tb, fb, rb, Nat.le_trans l (by simp), fun x h => List.mem_cons_of_mem _ (sub x h)⟩
  | _, _, _, .tuple h r, b, m => by
    rcases List.mem_cons.1 m with e | m
    · subst e; exact ⟨_, _, .tuple h r, Nat.le_refl _, fun _ h => h⟩
    · obtain ⟨tb, fb, rb, l, sub⟩ := r.within b m
      exact ⟨tb, fb, rb, Nat.le_trans l (by simp), fun x h => List.mem_cons_of_mem _ (sub x h)⟩
  | _, _, _, .obj h r, b, m => by
    rcases List.mem_cons.1 m with e | m
    · subst e; exact ⟨_, _, .obj h r, Nat.le_refl _, fun _ h => h⟩
    · obtain ⟨tb, fb, rb, l, sub⟩ := r.within b m
      exact ⟨tb, fb, rb, Nat.le_trans l (by simp), fun x h => List.mem_cons_of_mem _ (sub x h)⟩
theorem RepItems.within {H : Heap} : ∀ {v t fp}, RepItems H v t fp → ∀ b ∈ fp, ∃ tb fb, Rep H (.ref b) tb fb ∧ fb.length ≤ fp.length ∧ ∀ x ∈ fb, x ∈ fp
  | _, _, _, .nil, _, m => nomatch m
  | _, _, _, .cons r rs, b, m => by
    rcases List.mem_append.1 m with m | m
    · obtain ⟨tb, fb, rb, l, sub⟩ := r.within b m
      exact ⟨tb, fb, rb, Nat.le_trans l (by simp), fun x h => List.mem_append_left _ (sub x h)⟩
    · obtain ⟨tb, fb, rb, l, sub⟩ := rs.within b m
      exact ⟨tb, fb, rb, Nat.le_trans l (by simp), fun x h => List.mem_append_right _ (sub x h)⟩
theorem RepAttrs.within {H : Heap} : ∀ {v t fp}, RepAttrs H v t fp → ∀ b ∈ fp, ∃ tb fb, Rep H (.ref b) tb fb ∧ fb.length ≤ fp.length ∧ ∀ x ∈ fb, x ∈ fp
  | _, _, _, .nil, _, m => nomatch m
  | _, _, _, .cons r rs, b, m => by
    rcases List.mem_append.1 m with m | m
    · obtain ⟨tb, fb, rb, l, sub⟩ := r.within b m
      exact ⟨tb, fb, rb, Nat.le_trans l (by simp), fun x h => List.mem_append_left _ (sub x h)⟩
    · obtain ⟨tb, fb, rb, l, sub⟩ := rs.within b m
      exact ⟨tb, fb, rb, Nat.le_trans l (by simp), fun x h => List.mem_append_right _ (sub x h)⟩
end

/-- An object does not occur in the objects it refers to. -/
theorem Rep.acyclic {H : Heap} {a t fp} (r : Rep H (.ref a) t fp) : ∃ fps, fp = a :: fps ∧ a ∉ fps := by
  have key : ∀ {fps : List Nat}, fp = a :: fps → (∀ b ∈ fps, ∃ tb fb, Rep H (.ref b) tb fb ∧ fb.length ≤ fps.length ∧ ∀ x ∈ fb, x ∈ fps) → a ∉ fps := by
    intro fps e hw hm
    obtain ⟨tb, fb, rb, l, _⟩ := hw a hm
    obtain ⟨_, e2⟩ := r.det rb
    rw [← e2, e] at l
    simp only [List.length_cons] at l
    omega
  cases r with
  | list h rs => exact ⟨_, rfl, key rfl rs.within⟩
  | tuple h rs => exact ⟨_, rfl, key rfl rs.within⟩
  | obj h rs => exact ⟨_, rfl, key rfl rs.within⟩

theorem Rep.follow_self {H : Heap} {a t fp p} (r : Rep H (.ref a) t fp) (h : H.follow (.ref a) p = some (.ref a)) : p = [] := by
  cases p with
  | nil => rfl
  | cons st q =>
    exfalso
    unfold Heap.follow at h
    cases e : H.step (.ref a) st with
    | none => rw [e] at h; cases h
    | some w =>
      rw [e] at h
      obtain ⟨b, fps, u, fpu, e1, e2, ru, sub⟩ := r.step_sub e
      cases e1
      obtain ⟨fps', e3, na⟩ := r.acyclic
      rw [e2] at e3
      cases e3
      exact na (sub.subset (ru.follow_mem h))

/-! ## the same new part at several places -/

/-- Change the element at an index. -/
def modItem (u : ObjTree) (ts : List ObjTree) (x : Nat × ObjPath) : List ObjTree :=
  match ts[x.1]? with
  | some t => ts.set x.1 (t.put x.2 u)
  | Option.none => ts

/-- Change the attribute of a name. -/
def modAttr (u : ObjTree) (ts : List (PyStr × ObjTree)) (x : PyStr × ObjPath) : List (PyStr × ObjTree) :=
  match attrOf x.1 ts with
  | some t => setAttrOf x.1 (t.put x.2 u) ts
  | Option.none => ts

theorem put_list (u : ObjTree) (ts : List ObjTree) (i : Nat) (p : ObjPath) : (ObjTree.list ts).put (.item i :: p) u = .list (modItem u ts (i, p)) := by
  unfold ObjTree.put ObjTree.child modItem
  dsimp only
  cases ts[i]? <;> rfl

theorem put_tuple (u : ObjTree) (ts : List ObjTree) (i : Nat) (p : ObjPath) : (ObjTree.tuple ts).put (.item i :: p) u = .tuple (modItem u ts (i, p)) := by
  unfold ObjTree.put ObjTree.child modItem
  dsimp only
  cases ts[i]? <;> rfl

theorem put_obj (u : ObjTree) (c : PyStr) (ts : List (PyStr × ObjTree)) (n : PyStr) (p : ObjPath) :
    (ObjTree.obj c ts).put (.attr n :: p) u = .obj c (modAttr u ts (n, p)) := by
  unfold ObjTree.put ObjTree.child modAttr
  dsimp only
  cases attrOf n ts <;> rfl

theorem putAll_list (u : ObjTree) : ∀ (S : List (Nat × ObjPath)) (ts : List ObjTree),
    putAll u (S.map fun x => .item x.1 :: x.2) (.list ts) = .list (S.foldl (modItem u) ts)
  | [], _ => rfl
  | x :: S, ts => by
    show putAll u (S.map _) ((ObjTree.list ts).put (.item x.1 :: x.2) u) = _
    rw [put_list, putAll_list u S]; rfl

theorem putAll_tuple (u : ObjTree) : ∀ (S : List (Nat × ObjPath)) (ts : List ObjTree),
    putAll u (S.map fun x => .item x.1 :: x.2) (.tuple ts) = .tuple (S.foldl (modItem u) ts)
  | [], _ => rfl
  | x :: S, ts => by
    show putAll u (S.map _) ((ObjTree.tuple ts).put (.item x.1 :: x.2) u) = _
    rw [put_tuple, putAll_tuple u S]; rfl

theorem putAll_obj (u : ObjTree) (c : PyStr) : ∀ (S : List (PyStr × ObjPath)) (ts : List (PyStr × ObjTree)),
    putAll u (S.map fun x => .attr x.1 :: x.2) (.obj c ts) = .obj c (S.foldl (modAttr u) ts)
  | [], _ => rfl
  | x :: S, ts => by
    show putAll u (S.map _) ((ObjTree.obj c ts).put (.attr x.1 :: x.2) u) = _
    rw [put_obj, putAll_obj u c S]; rfl

theorem modItem_head (u : ObjTree) (ts : List ObjTree) : ∀ (S : List ObjPath) (t : ObjTree),
    (S.map fun p => ((0 : Nat), p)).foldl (modItem u) (t :: ts) = putAll u S t :: ts
  | [], _ => rfl
  | p :: S, t => modItem_head u ts S (t.put p u)

theorem modItem_tail (u : ObjTree) (t : ObjTree) : ∀ (S : List (Nat × ObjPath)) (ts : List ObjTree),
    (S.map fun x => (x.1 + 1, x.2)).foldl (modItem u) (t :: ts) = t :: S.foldl (modItem u) ts
  | [], _ => rfl
  | x :: S, ts => by
    simp only [List.map_cons, List.foldl_cons]
    rw [show modItem u (t :: ts) (x.1 + 1, x.2) = t :: modItem u ts x by
      unfold modItem
      simp only [List.getElem?_cons_succ, List.set_cons_succ]
      cases ts[x.1]? <;> rfl]
    exact modItem_tail u t S _

theorem modAttr_head (u : ObjTree) (n : PyStr) (ts : List (PyStr × ObjTree)) : ∀ (S : List ObjPath) (t : ObjTree),
    (S.map fun p => (n, p)).foldl (modAttr u) ((n, t) :: ts) = (n, putAll u S t) :: ts
  | [], _ => rfl
  | p :: S, t => by
    simp only [List.map_cons, List.foldl_cons]
    rw [show modAttr u ((n, t) :: ts) (n, p) = (n, t.put p u) :: ts by simp [modAttr, attrOf, setAttrOf]]
    exact modAttr_head u n ts S (t.put p u)

theorem modAttr_tail (u : ObjTree) (n : PyStr) (t : ObjTree) : ∀ (S : List (PyStr × ObjPath)) (ts : List (PyStr × ObjTree)),
    (∀ x ∈ S, n ≠ x.1) → S.foldl (modAttr u) ((n, t) :: ts) = (n, t) :: S.foldl (modAttr u) ts
  | [], _, _ => rfl
  | x :: S, ts, h => by
    simp only [List.foldl_cons]
    rw [show modAttr u ((n, t) :: ts) x = (n, t) :: modAttr u ts x by
      unfold modAttr
      simp only [attrOf, setAttrOf, if_neg (h x List.mem_cons_self)]
      cases attrOf x.1 ts <;> rfl]
    exact modAttr_tail u n t S _ fun y hy => h y (List.mem_cons_of_mem _ hy)

/-! ## names -/

theorem ObjTree.Named.list_inv {ts} (h : Named (.list ts)) : NamedItems ts := by cases h; assumption
theorem ObjTree.Named.tuple_inv {ts} (h : Named (.tuple ts)) : NamedItems ts := by cases h; assumption
theorem ObjTree.Named.obj_inv {c ts} (h : Named (.obj c ts)) : NamedAttrs ts ∧ (ts.map (·.1)).Nodup := by cases h; constructor <;> assumption
theorem ObjTree.NamedItems.inv {t ts} (h : NamedItems (t :: ts)) : Named t ∧ NamedItems ts := by cases h; constructor <;> assumption
theorem ObjTree.NamedAttrs.inv {n t ts} (h : NamedAttrs ((n, t) :: ts)) : Named t ∧ NamedAttrs ts := by cases h; constructor <;> assumption

/-! ## one object changes -/

/-- What becomes of a footprint: every occurrence of the object brings its new footprint instead of its old one. -/
def Recount (a : Nat) (fa fa' fp fp' : List Nat) : Prop :=
  ∀ b, fp'.count b + fp.count a * fa.count b = fp.count b + fp.count a * fa'.count b

theorem Recount.append {a fa fa' f f' g g'} (h : Recount a fa fa' f f') (k : Recount a fa fa' g g') : Recount a fa fa' (f ++ g) (f' ++ g') := by
  intro b
  have h := h b
  have k := k b
  simp only [List.count_append, Nat.add_mul]
  omega

theorem Recount.cons {a fa fa' f f'} {c : Nat} (hc : c ≠ a) (h : Recount a fa fa' f f') : Recount a fa fa' (c :: f) (c :: f') := by
  intro b
  have h := h b
  rw [List.count_cons_of_ne (a := a) (b := c) hc]
  simp only [List.count_cons]
  omega

theorem RepAttrs.has {H : Heap} {n : PyStr} : ∀ {vs ts fp w}, RepAttrs H vs ts fp → lookup n vs = some w → n ∈ ts.map (·.1)
  | _, _, _, _, .nil, h => by cases h
  | _, _, _, _, .cons r rs, h => by
    unfold lookup at h
    split at h
    · next e => subst e; exact List.mem_cons_self
    · exact List.mem_cons_of_mem _ (rs.has h)

theorem spread_here {H H' : Heap} {a : Nat} {ta ua t : ObjTree} {fa fa' fp : List Nat} (ra : Rep H (.ref a) ta fa)
    (ra' : Rep H' (.ref a) ua fa') (r : Rep H (.ref a) t fp) :
    ∃ (S : List ObjPath) (fp' : List Nat), Rep H' (.ref a) (putAll ua S t) fp' ∧ S.Nodup ∧ (∀ p, p ∈ S ↔ H.follow (.ref a) p = some (.ref a)) ∧
      S.length = fp.count a ∧ Recount a fa fa' fp fp' := by
  obtain ⟨e1, e2⟩ := r.det ra
  subst e1 e2
  obtain ⟨fps, e, na⟩ := r.acyclic
  have c1 : fp.count a = 1 := by rw [e, List.count_cons_self, List.count_eq_zero.2 na]
  refine ⟨[[]], fa', ra', by simp, fun p => ?_, by rw [c1]; rfl, fun b => by rw [c1]; omega⟩
  constructor
  · intro h
    rw [List.mem_singleton.1 h]; rfl
  · intro h
    rw [r.follow_self h]; simp

section
variable {H H' : Heap} {a : Nat} {ta ua : ObjTree} {fa fa' : List Nat}

mutual
theorem Rep.spread (hH : ∀ b, b ≠ a → H[b]? ≠ Option.none → H'[b]? = H[b]?) (ra : Rep H (.ref a) ta fa) (ra' : Rep H' (.ref a) ua fa') :
    ∀ {v t fp}, Rep H v t fp → t.Named → ∃ (S : List ObjPath) (fp' : List Nat), Rep H' v (putAll ua S t) fp' ∧ S.Nodup ∧ (∀ p, p ∈ S ↔ H.follow v p = some (.ref a)) ∧
      S.length = fp.count a ∧ Recount a fa fa' fp fp'
  | _, _, _, .none, _ => ⟨[], [], .none, .nil, fun p => by cases p <;> simp [Heap.follow, Heap.step], rfl, fun b => by simp⟩
  | _, _, _, .int _, _ => ⟨[], [], .int _, .nil, fun p => by cases p <;> simp [Heap.follow, Heap.step], rfl, fun b => by simp⟩
  | _, _, _, .float _, _ => ⟨[], [], .float _, .nil, fun p => by cases p <;> simp [Heap.follow, Heap.step], rfl, fun b => by simp⟩
  | _, _, _, .str _, _ => ⟨[], [], .str _, .nil, fun p => by cases p <;> simp [Heap.follow, Heap.step], rfl, fun b => by simp⟩
  | _, _, _, .list (a := c) hc rs, nm => by
    by_cases e : c = a
    · subst e
      exact spread_here ra ra' (.list hc rs)
    · have nm' := nm.list_inv
      obtain ⟨S, fps', h1, h2, h3, h4, h5⟩ := rs.spread hH ra ra' nm'
      refine ⟨S.map fun x => .item x.1 :: x.2, c :: fps', ?_, ?_, ?_, ?_, h5.cons e⟩
      · rw [putAll_list]
        exact .list (by rw [hH c e (by rw [hc]; simp)]; exact hc) h1
      · exact h2.map _ fun x y hn e => hn (by cases x; cases y; simp at e; simp [e])
      · intro p
        cases p with
        | nil => simp [Heap.follow, e]
        | cons st p =>
          cases st with
          | attr n => simp [Heap.follow, Heap.step, hc]
          | item i =>
            have := h3 i p
            simp only [List.mem_map, List.cons.injEq, PathStep.item.injEq, Prod.exists]
            rw [show (∃ x y, (x, y) ∈ S ∧ x = i ∧ y = p) ↔ (i, p) ∈ S from
              ⟨fun ⟨_, _, m, e1, e2⟩ => e1 ▸ e2 ▸ m, fun m => ⟨i, p, m, rfl, rfl⟩⟩, this]
            simp only [Heap.follow, Heap.step, hc]
            cases _ : (_ : List HVal)[i]? <;> simp
      · rw [List.length_map, h4, List.count_cons_of_ne e]
  | _, _, _, .tuple (a := c) hc rs, nm => by
    by_cases e : c = a
    · subst e
      exact spread_here ra ra' (.tuple hc rs)
    · have nm' := nm.tuple_inv
      obtain ⟨S, fps', h1, h2, h3, h4, h5⟩ := rs.spread hH ra ra' nm'
      refine ⟨S.map fun x => .item x.1 :: x.2, c :: fps', ?_, ?_, ?_, ?_, h5.cons e⟩
      · rw [putAll_tuple]
        exact .tuple (by rw [hH c e (by rw [hc]; simp)]; exact hc) h1
      · exact h2.map _ fun x y hn e => hn (by cases x; cases y; simp at e; simp [e])
      · intro p
        cases p with
        | nil => simp [Heap.follow, e]
        | cons st p =>
          cases st with
          | attr n => simp [Heap.follow, Heap.step, hc]
          | item i =>
            have := h3 i p
            simp only [List.mem_map, List.cons.injEq, PathStep.item.injEq, Prod.exists]
            rw [show (∃ x y, (x, y) ∈ S ∧ x = i ∧ y = p) ↔ (i, p) ∈ S from
              ⟨fun ⟨_, _, m, e1, e2⟩ => e1 ▸ e2 ▸ m, fun m => ⟨i, p, m, rfl, rfl⟩⟩, this]
            simp only [Heap.follow, Heap.step, hc]
            cases _ : (_ : List HVal)[i]? <;> simp
      · rw [List.length_map, h4, List.count_cons_of_ne e]
  | _, _, _, .obj (a := c) hc rs, nm => by
    by_cases e : c = a
    · subst e
      exact spread_here ra ra' (.obj hc rs)
    · have nm' := nm.obj_inv
      obtain ⟨S, fps', h1, h2, h3, h4, h5⟩ := rs.spread hH ra ra' nm'.1 nm'.2
      refine ⟨S.map fun x => .attr x.1 :: x.2, c :: fps', ?_, ?_, ?_, ?_, h5.cons e⟩
      · rw [putAll_obj]
        exact .obj (by rw [hH c e (by rw [hc]; simp)]; exact hc) h1
      · exact h2.map _ fun x y hn e => hn (by cases x; cases y; simp at e; simp [e])
      · intro p
        cases p with
        | nil => simp [Heap.follow, e]
        | cons st p =>
          cases st with
          | item n => simp [Heap.follow, Heap.step, hc]
          | attr i =>
            have := h3 i p
            simp only [List.mem_map, List.cons.injEq, PathStep.attr.injEq, Prod.exists]
            rw [show (∃ x y, (x, y) ∈ S ∧ x = i ∧ y = p) ↔ (i, p) ∈ S from
              ⟨fun ⟨_, _, m, e1, e2⟩ => e1 ▸ e2 ▸ m, fun m => ⟨i, p, m, rfl, rfl⟩⟩, this]
            simp only [Heap.follow, Heap.step, hc]
            cases _ : lookup i _ <;> simp
      · rw [List.length_map, h4, List.count_cons_of_ne e]
theorem RepItems.spread (hH : ∀ b, b ≠ a → H[b]? ≠ Option.none → H'[b]? = H[b]?) (ra : Rep H (.ref a) ta fa) (ra' : Rep H' (.ref a) ua fa') :
    ∀ {vs ts fp}, RepItems H vs ts fp → NamedItems ts → ∃ (S : List (Nat × ObjPath)) (fp' : List Nat), RepItems H' vs (S.foldl (modItem ua) ts) fp' ∧ S.Nodup ∧
      (∀ i p, (i, p) ∈ S ↔ ∃ w, vs[i]? = some w ∧ H.follow w p = some (.ref a)) ∧ S.length = fp.count a ∧ Recount a fa fa' fp fp'
  | _, _, _, .nil, _ => ⟨[], [], .nil, .nil, fun i p => by simp, rfl, fun b => by simp⟩
  | _, _, _, .cons r rs, nm => by
    have nm' := nm.inv
    obtain ⟨S, fp', h1, h2, h3, h4, h5⟩ := Rep.spread hH ra ra' r nm'.1
    obtain ⟨T, gp', k1, k2, k3, k4, k5⟩ := rs.spread hH ra ra' nm'.2
    refine ⟨(S.map fun p => (0, p)) ++ (T.map fun x => (x.1 + 1, x.2)), fp' ++ gp', ?_, ?_, ?_, ?_, h5.append k5⟩
    · rw [List.foldl_append, modItem_head, modItem_tail]
      exact .cons h1 k1
    · rw [List.nodup_append]
      refine ⟨h2.map _ fun x y hn e => hn (by simp at e; exact e), k2.map _ fun x y hn e => hn (by cases x; cases y; simp at e; simp [e]), ?_⟩
      intro x hx y hy e
      obtain ⟨p, _, rfl⟩ := List.mem_map.1 hx
      obtain ⟨z, _, rfl⟩ := List.mem_map.1 hy
      simp at e
    · intro i p
      rw [List.mem_append]
      cases i with
      | zero =>
        simp only [List.mem_map, List.getElem?_cons_zero]
        constructor
        · rintro (⟨q, m, e⟩ | ⟨x, m, e⟩)
          · cases e; exact ⟨_, rfl, (h3 p).1 m⟩
          · simp at e
        · rintro ⟨w, e, h⟩
          cases e
          exact .inl ⟨p, (h3 p).2 h, rfl⟩
      | succ i =>
        simp only [List.mem_map, List.getElem?_cons_succ]
        constructor
        · rintro (⟨q, m, e⟩ | ⟨x, m, e⟩)
          · simp at e
          · simp only [Prod.mk.injEq, Nat.add_right_cancel_iff] at e
            obtain ⟨e1, e2⟩ := e
            exact (k3 i p).1 (by rw [← e1, ← e2]; exact m)
        · intro h
          exact .inr ⟨(i, p), (k3 i p).2 h, rfl⟩
    · simp only [List.length_append, List.length_map, List.count_append, h4, k4]
theorem RepAttrs.spread (hH : ∀ b, b ≠ a → H[b]? ≠ Option.none → H'[b]? = H[b]?) (ra : Rep H (.ref a) ta fa) (ra' : Rep H' (.ref a) ua fa') :
    ∀ {vs ts fp}, RepAttrs H vs ts fp → NamedAttrs ts → (ts.map (·.1)).Nodup → ∃ (S : List (PyStr × ObjPath)) (fp' : List Nat), RepAttrs H' vs (S.foldl (modAttr ua) ts) fp' ∧ S.Nodup ∧
      (∀ n p, (n, p) ∈ S ↔ ∃ w, lookup n vs = some w ∧ H.follow w p = some (.ref a)) ∧ S.length = fp.count a ∧ Recount a fa fa' fp fp'
  | _, _, _, .nil, _, _ => ⟨[], [], .nil, .nil, fun i p => by simp [lookup], rfl, fun b => by simp⟩
  | _, _, _, .cons (n := n) r rs, nm, nd => by
    have nm' := nm.inv
    have nd' := List.nodup_cons.1 nd
    obtain ⟨S, fp', h1, h2, h3, h4, h5⟩ := Rep.spread hH ra ra' r nm'.1
    obtain ⟨T, gp', k1, k2, k3, k4, k5⟩ := rs.spread hH ra ra' nm'.2 nd'.2
    have apart : ∀ x ∈ T, n ≠ x.1 := by
      rintro ⟨m, p⟩ hx e
      subst e
      obtain ⟨w, hw, _⟩ := (k3 n p).1 hx
      exact nd'.1 (rs.has hw)
    refine ⟨(S.map fun p => (n, p)) ++ T, fp' ++ gp', ?_, ?_, ?_, ?_, h5.append k5⟩
    · rw [List.foldl_append, modAttr_head, modAttr_tail _ _ _ _ _ apart]
      exact .cons h1 k1
    · rw [List.nodup_append]
      refine ⟨h2.map _ fun x y hn e => hn (by simp at e; exact e), k2, ?_⟩
      intro x hx y hy e
      obtain ⟨p, _, rfl⟩ := List.mem_map.1 hx
      subst e
      exact apart _ hy rfl
    · intro m p
      rw [List.mem_append]
      unfold lookup
      by_cases e : n = m
      · subst e
        rw [if_pos rfl]
        constructor
        · rintro (h | h)
          · obtain ⟨q, m, e⟩ := List.mem_map.1 h
            cases e
            exact ⟨_, rfl, (h3 p).1 m⟩
          · exact absurd rfl (apart _ h)
        · rintro ⟨w, e, h⟩
          cases e
          exact .inl (List.mem_map.2 ⟨p, (h3 p).2 h, rfl⟩)
      · rw [if_neg e]
        constructor
        · rintro (h | h)
          · obtain ⟨q, m, e'⟩ := List.mem_map.1 h
            cases e'
            exact absurd rfl e
          · exact (k3 m p).1 h
        · intro h
          exact .inr ((k3 m p).2 h)
    · simp only [List.length_append, List.length_map, List.count_append, h4, k4]
end
end

end Genie
