import Verif.Spec.FileEdits
import Verif.Proof.Edits.Objects
/-! # Statements on objects, and the edits of the value -/

namespace Genie
open ObjTree

theorem ObjTree.get_append : ∀ {p q : ObjPath} {t c : ObjTree}, t.get p = some c → t.get (p ++ q) = c.get q
  | [], q, t, c, h => by cases h; rfl
  | st :: p, q, t, c, h => by
    rw [List.cons_append, ObjTree.get]
    rw [ObjTree.get] at h
    cases e : t.child st with
    | none => rw [e] at h; cases h
    | some u => rw [e] at h; exact ObjTree.get_append h

theorem ObjTree.put_append : ∀ {p q : ObjPath} {t c u : ObjTree}, t.get p = some c → t.put (p ++ q) u = t.put p (c.put q u)
  | [], q, t, c, u, h => by cases h; rfl
  | st :: p, q, t, c, u, h => by
    rw [ObjTree.get] at h
    cases e : t.child st with
    | none => rw [e] at h; cases h
    | some k => rw [e] at h; simp only [List.cons_append, ObjTree.put, e, ObjTree.put_append h]

theorem Place.shown {a b : Node} (p : Place a b) (x : a.Obj) (m : b.Obj) (h : p.get x = some m) :
    (a.object x).get p.path = some (b.object m) ∧ ∀ y, a.object (p.set x y) = (a.object x).put p.path (b.object y) := by
  induction p with
  | here => cases h; exact ⟨rfl, fun _ => rfl⟩
  | step s p ih =>
    simp only [Place.get] at h
    cases e : s.get x with
    | none => rw [e] at h; cases h
    | some k =>
      rw [e] at h
      obtain ⟨i1, i2⟩ := ih k m h
      simp only [Place.path, Place.set, e]
      refine ⟨?_, fun y => ?_⟩
      · rw [ObjTree.get_append (s.shown x k k e).get, i1]
      · rw [ObjTree.put_append (s.shown x k k e).get, (s.shown x k (p.set k y) e).put, i2]

/-! ## `int`s for floats -/

theorem CarriesAttrs.attr {n : PyStr} : ∀ {ts us : List (PyStr × ObjTree)}, CarriesAttrs ts us →
    ∀ c', attrOf n us = some c' → ∃ c, attrOf n ts = some c ∧ Carries c c'
  | _, _, .extra, _, h => by cases h
  | _, _, .cons (n := m) hc hs, c', h => by
    by_cases e : m = n
    · simp only [attrOf, e, if_true] at h ⊢
      cases h; exact ⟨_, rfl, hc⟩
    · simp only [attrOf, e, if_false] at h ⊢
      exact CarriesAttrs.attr hs c' h

theorem CarriesAttrs.set {n : PyStr} {u u' : ObjTree} (hu : Carries u u') : ∀ {ts us : List (PyStr × ObjTree)}, CarriesAttrs ts us →
    CarriesAttrs (setAttrOf n u ts) (setAttrOf n u' us)
  | _, _, .extra => .extra
  | _, _, .cons (n := m) hc hs => by
    by_cases e : m = n
    · simp only [setAttrOf, e, if_true]; exact .cons hu hs
    · simp only [setAttrOf, e, if_false]; exact .cons hc (CarriesAttrs.set hu hs)

/-- An attribute that is not declared does not matter. -/
theorem CarriesAttrs.other {n : PyStr} {u : ObjTree} : ∀ {ts us : List (PyStr × ObjTree)}, CarriesAttrs ts us → attrOf n us = Option.none →
    CarriesAttrs (setAttrOf n u ts) us ∧ CarriesAttrs (ts ++ [(n, u)]) us
  | _, _, .extra, _ => ⟨.extra, .extra⟩
  | _, _, .cons (n := m) hc hs, h => by
    by_cases e : m = n
    · simp only [attrOf, e, if_true] at h; cases h
    · simp only [attrOf, e, if_false] at h
      simp only [setAttrOf, e, if_false]
      exact ⟨.cons hc (hs.other h).1, .cons hc (hs.other h).2⟩

theorem CarriesItems.item : ∀ {ts us : List ObjTree}, CarriesItems ts us → ∀ (i : Nat),
    (∀ c', us[i]? = some c' → ∃ c, ts[i]? = some c ∧ Carries c c') ∧ (us[i]? = Option.none → ts[i]? = Option.none)
  | _, _, .nil, i => ⟨fun _ h => (by simp at h), fun _ => (by simp)⟩
  | _, _, .cons hc hs, 0 => ⟨fun c' h => (by simp at h; subst h; exact ⟨_, rfl, hc⟩), fun h => (by simp at h)⟩
  | _, _, .cons hc hs, i + 1 => by simpa using CarriesItems.item hs i

theorem CarriesItems.setItem {u u' : ObjTree} (hu : Carries u u') : ∀ {ts us : List ObjTree}, CarriesItems ts us → ∀ (i : Nat),
    CarriesItems (ts.set i u) (us.set i u')
  | _, _, .nil, i => by simpa using CarriesItems.nil
  | _, _, .cons hc hs, 0 => by simpa using CarriesItems.cons hu hs
  | _, _, .cons hc hs, i + 1 => by simpa using CarriesItems.cons hc (CarriesItems.setItem hu hs i)

theorem CarriesItems.app {ts us : List ObjTree} (h : CarriesItems ts us) {t u : ObjTree} (hu : Carries t u) : CarriesItems (ts ++ [t]) (us ++ [u]) :=
  match h with
  | .nil => .cons hu .nil
  | .cons hc hs => .cons hc (CarriesItems.app hs hu)

theorem CarriesItems.dropLast : ∀ {ts us : List ObjTree}, CarriesItems ts us → CarriesItems ts.dropLast us.dropLast
  | _, _, .nil => .nil
  | _, _, .cons _ .nil => .nil
  | _, _, .cons hc (.cons hd hs) => .cons hc (CarriesItems.dropLast (.cons hd hs))

theorem CarriesItems.length_eq : ∀ {ts us : List ObjTree}, CarriesItems ts us → ts.length = us.length
  | _, _, .nil => rfl
  | _, _, .cons _ hs => congrArg (· + 1) hs.length_eq

theorem CarriesItems.take : ∀ {ts us : List ObjTree}, CarriesItems ts us → ∀ k : Nat, CarriesItems (ts.take k) (us.take k)
  | _, _, _, 0 => .nil
  | _, _, .nil, _ + 1 => .nil
  | _, _, .cons hc hs, k + 1 => .cons hc (CarriesItems.take hs k)

theorem CarriesItems.drop : ∀ {ts us : List ObjTree}, CarriesItems ts us → ∀ k : Nat, CarriesItems (ts.drop k) (us.drop k)
  | _, _, h, 0 => h
  | _, _, .nil, _ + 1 => .nil
  | _, _, .cons _ hs, k + 1 => CarriesItems.drop hs k

theorem CarriesItems.append {ts us ts' us' : List ObjTree} (h : CarriesItems ts us) (h' : CarriesItems ts' us') : CarriesItems (ts ++ ts') (us ++ us') :=
  match h with
  | .nil => h'
  | .cons hc hs => .cons hc (CarriesItems.append hs h')

theorem Carries.child {t t' : ObjTree} (h : Carries t t') (st : PathStep) (c' : ObjTree) (hc : t'.child st = some c') :
    ∃ c, t.child st = some c ∧ Carries c c' := by
  cases h with
  | list hs =>
    cases st with
    | attr n => cases hc
    | item i => exact (hs.item i).1 c' hc
  | tuple hs =>
    cases st with
    | attr n => cases hc
    | item i => exact (hs.item i).1 c' hc
  | obj hs =>
    cases st with
    | attr n => exact hs.attr c' hc
    | item i => cases hc
  | _ => cases st <;> cases hc

theorem Carries.setChild {t t' u u' : ObjTree} (h : Carries t t') (hu : Carries u u') (st : PathStep) :
    Carries (t.setChild st u) (t'.setChild st u') := by
  cases h with
  | none => cases st <;> exact .none
  | int i => cases st <;> exact .int i
  | float x => cases st <;> exact .float x
  | str s => cases st <;> exact .str s
  | promote h => cases st <;> exact .promote h
  | list hs =>
    cases st with
    | attr n => exact .list hs
    | item i => exact .list (hs.setItem hu i)
  | tuple hs =>
    cases st with
    | attr n => exact .tuple hs
    | item i => exact .tuple (hs.setItem hu i)
  | obj hs =>
    cases st with
    | attr n => exact .obj (hs.set hu)
    | item i => exact .obj hs

theorem Carries.get : ∀ {p : ObjPath} {t t' c' : ObjTree}, Carries t t' → t'.get p = some c' → ∃ c, t.get p = some c ∧ Carries c c'
  | [], t, t', c', h, hg => by cases hg; exact ⟨t, rfl, h⟩
  | st :: p, t, t', c', h, hg => by
    rw [ObjTree.get] at hg
    cases e : t'.child st with
    | none => rw [e] at hg; cases hg
    | some k' =>
      rw [e] at hg
      obtain ⟨k, hk, hc⟩ := h.child st k' e
      obtain ⟨c, h1, h2⟩ := Carries.get hc hg
      exact ⟨c, by rw [ObjTree.get, hk]; exact h1, h2⟩

theorem Carries.put : ∀ {p : ObjPath} {t t' u u' c' : ObjTree}, Carries t t' → Carries u u' → t'.get p = some c' → Carries (t.put p u) (t'.put p u')
  | [], t, t', u, u', c', h, hu, hg => hu
  | st :: p, t, t', u, u', c', h, hu, hg => by
    rw [ObjTree.get] at hg
    rw [ObjTree.put, ObjTree.put]
    cases e : t'.child st with
    | none => rw [e] at hg; cases hg
    | some k' =>
      rw [e] at hg
      obtain ⟨k, hk, hc⟩ := h.child st k' e
      rw [hk]
      exact h.setChild (Carries.put hc hu hg) st

/-- Declared attributes. -/
theorem Carries.withAttr {t t' u u' : ObjTree} {n : PyStr} (h : Carries t t') (hu : Carries u u') {c : PyStr} {us : List (PyStr × ObjTree)} {k' : ObjTree}
    (e : t' = .obj c us) (hk : attrOf n us = some k') : ∃ r, ObjTree.withAttr u n t = .ok r ∧ Carries r (.obj c (setAttrOf n u' us)) := by
  subst e
  cases h with
  | obj hs =>
    obtain ⟨k, hk, -⟩ := hs.attr k' hk
    exact ⟨_, by simp only [ObjTree.withAttr, hk]; rfl, .obj (hs.set hu)⟩

/-- Other attributes. -/
theorem Carries.newAttr {t u : ObjTree} {n c : PyStr} {us : List (PyStr × ObjTree)} (h : Carries t (.obj c us)) (hn : attrOf n us = Option.none)
    (hc : HReader.ofClass n = false) : ∃ r, ObjTree.withAttr u n t = .ok r ∧ Carries r (.obj c us) := by
  cases h with
  | @obj _ ts _ hs =>
    simp only [ObjTree.withAttr, hc, Bool.false_eq_true, if_false]
    split
    · exact ⟨_, rfl, .obj (hs.other hn).1⟩
    · exact ⟨_, rfl, .obj (hs.other hn).2⟩

theorem Carries.onTree {t t' u u' r' : ObjTree} (h : Carries t t') (hu : Carries u u') (st : Stmt) (hd : ∀ n c us, st = .setAttr n → t' = .obj c us → (attrOf n us).isSome)
    (hr : st.onTree u' t' = .ok r') : ∃ r, st.onTree u t = .ok r ∧ Carries r r' := by
  cases st with
  | setAttr n =>
    cases h with
    | @obj c ts us hs =>
      simp only [Stmt.onTree, ObjTree.withAttr, hd n c us rfl rfl, if_true] at hr
      cases Except.ok.inj hr
      obtain ⟨k', hk⟩ := Option.isSome_iff_exists.1 (hd n c us rfl rfl)
      exact Carries.withAttr (.obj hs) hu rfl hk
    | _ => cases hr
  | setItem i =>
    cases h with
    | list hs =>
      rename_i ts us
      simp only [Stmt.onTree, withItem] at hr ⊢
      rw [hs.length_eq]
      split at hr
      · rename_i hlt
        cases Except.ok.inj hr
        rw [if_pos hlt]
        exact ⟨_, rfl, .list (hs.setItem hu i)⟩
      · cases hr
    | _ => cases hr
  | append =>
    cases h with
    | list hs =>
      cases Except.ok.inj hr
      exact ⟨_, rfl, .list (hs.app hu)⟩
    | _ => cases hr
  | pop =>
    cases h with
    | list hs =>
      cases hs with
      | nil => cases hr
      | cons hc hs =>
        cases Except.ok.inj hr
        exact ⟨_, rfl, .list (CarriesItems.dropLast (.cons hc hs))⟩
    | _ => cases hr
  | insert i =>
    cases h with
    | list hs =>
      cases Except.ok.inj hr
      exact ⟨_, rfl, .list (((hs.take i).append (.cons hu .nil)).append (hs.drop i))⟩
    | _ => cases hr
  | delItem i =>
    cases h with
    | list hs =>
      simp only [Stmt.onTree, withoutItem] at hr ⊢
      rw [hs.length_eq]
      split at hr
      · rename_i hlt
        cases Except.ok.inj hr
        rw [if_pos hlt]
        exact ⟨_, rfl, .list ((hs.take i).append (hs.drop _))⟩
      · cases hr
    | _ => cases hr
  | delSlice i j =>
    cases h with
    | list hs =>
      cases Except.ok.inj hr
      exact ⟨_, rfl, .list ((hs.take i).append (hs.drop _))⟩
    | _ => cases hr

/-- One statement on an object that is, up to `int`s for floats, that of `d`. -/
theorem editTree_one {t t' u u' c' r' : ObjTree} {p : ObjPath} {st : Stmt} (h : Carries t t') (hu : Carries u u') (hg : t'.get p = some c')
    (hd : ∀ n c us, st = .setAttr n → c' = .obj c us → (attrOf n us).isSome) (hr : st.onTree u' c' = .ok r') :
    ∃ r, editTree [⟨p, st, u⟩] t = .ok r ∧ Carries r (t'.put p r') := by
  obtain ⟨c, h1, h2⟩ := h.get hg
  obtain ⟨r, h3, h4⟩ := h2.onTree hu st hd hr
  refine ⟨t.put p r, ?_, h.put h4 hg⟩
  simp only [editTree, ObjTree.eval_get.2 h1, h3]

theorem editTree_cons {e : Edit} {es : List Edit} {t t1 : ObjTree} (h : editTree [e] t = .ok t1) : editTree (e :: es) t = editTree es t1 := by
  rw [editTree] at h ⊢
  cases h1 : t.eval e.place with
  | error x => rw [h1] at h; cases h
  | ok u =>
    rw [h1] at h
    dsimp only at h ⊢
    cases h2 : e.stmt.onTree e.value u with
    | error x => rw [h2] at h; cases h
    | ok u' => rw [h2] at h; cases Except.ok.inj h; rfl

theorem setAttr_at {n : Node} {p : Place .file n} {d : DatFile} {x y : n.Obj} {nm : PyStr} {a a' u t : ObjTree} (hx : p.get d = some x)
    (ht : Carries t (d.object false)) (hf : FieldAt (n.object x) (n.object y) nm a a') (hu : Carries u a') :
    ∃ r, editTree [⟨p.path, .setAttr nm, u⟩] t = .ok r ∧ Carries r (DatFile.object false (p.set d y)) := by
  obtain ⟨h1, h2⟩ := p.shown d x hx
  obtain ⟨r, h3, h4⟩ := editTree_one (st := .setAttr nm) ht hu h1 (fun m c us e1 e2 => by cases e1; exact hf.declared e2) hf.withAttr
  exact ⟨r, h3, by rw [show DatFile.object false (p.set d y) = _ from h2 y]; exact h4⟩

theorem inside_at {n : Node} {p : Place .file n} {d : DatFile} {x y : n.Obj} {nm : PyStr} {as : List ObjTree} {a' u u' t : ObjTree} {st : Stmt}
    (hx : p.get d = some x) (ht : Carries t (d.object false)) (hf : FieldAt (n.object x) (n.object y) nm (.list as) a') (hu : Carries u u')
    (hst : st.onTree u' (.list as) = .ok a') :
    ∃ r, editTree [⟨p.path ++ [.attr nm], st, u⟩] t = .ok r ∧ Carries r (DatFile.object false (p.set d y)) := by
  obtain ⟨h1, h2⟩ := p.shown d x hx
  obtain ⟨r, h3, h4⟩ := editTree_one (p := p.path ++ [.attr nm]) ht hu ((ObjTree.get_append h1).trans hf.get) (fun _ _ _ _ e2 => nomatch e2) hst
  refine ⟨r, h3, ?_⟩
  rw [show DatFile.object false (p.set d y) = _ from h2 y, hf.put, ← ObjTree.put_append h1]
  exact h4

theorem attrOf_absent {n : PyStr} {α : Type 1} {f : α → PyStr} {g : α → ObjTree} : ∀ {l : List α}, (∀ x ∈ l, f x ≠ n) →
    attrOf n (l.map fun x => (f x, g x)) = Option.none
  | [], _ => rfl
  | x :: l, h => by
    simp only [List.map_cons, attrOf, if_neg (h x (.head _))]
    exact attrOf_absent fun y hy => h y (.tail _ hy)

theorem setAttrOf_self {n : PyStr} {u : ObjTree} : ∀ {ts : List (PyStr × ObjTree)}, attrOf n ts = some u → setAttrOf n u ts = ts
  | [], h => by cases h
  | (m, t) :: ts, h => by
    unfold attrOf at h
    unfold setAttrOf
    split at h
    · rename_i e; cases h; rw [if_pos e]
    · rename_i e; rw [if_neg e, setAttrOf_self h]

theorem ObjTree.put_self : ∀ {p : ObjPath} {t c : ObjTree}, t.get p = some c → t.put p c = t
  | [], t, c, h => by cases h; rfl
  | st :: p, t, c, h => by
    rw [ObjTree.get] at h
    rw [ObjTree.put]
    cases e : t.child st with
    | none => rfl
    | some k =>
      rw [e] at h
      have h := ObjTree.put_self h
      simp only [h]
      cases t with
      | obj cl ts => cases st with
        | attr n => simp only [child] at e; simp only [setChild, setAttrOf_self e]
        | item i => cases e
      | list ts => cases st with
        | attr n => cases e
        | item i => simp only [child] at e; simp only [setChild]; rw [← (List.getElem?_eq_some_iff.1 e).2, List.set_getElem_self]
      | tuple ts => cases st with
        | attr n => cases e
        | item i => simp only [child] at e; simp only [setChild]; rw [← (List.getElem?_eq_some_iff.1 e).2, List.set_getElem_self]
      | _ => cases st <;> cases e

theorem FileEdit.simulates (e : FileEdit) {d d' : DatFile} {t : ObjTree} (ha : e.apply d = some d') (ht : Carries t (d.object false)) :
    ∃ r, editTree [e.python] t = .ok r ∧ Carries r (d'.object false) := by
  cases e with
  | @set n p A hA u w hu =>
    simp only [FileEdit.apply, Option.map_eq_some_iff] at ha
    obtain ⟨x, hx, rfl⟩ := ha
    exact setAttr_at hx ht (Node.attrs_shown n A hA x w) hu
  | @setItem n p L hL k u e hu =>
    simp only [FileEdit.apply, Option.bind_eq_some_iff] at ha
    obtain ⟨x, hx, ha⟩ := ha
    split at ha
    · rename_i hlt
      cases ha
      refine inside_at hx ht (Node.listAttrs_shown n L hL x _) hu ?_
      simp only [Stmt.onTree, withItem, List.length_map, if_pos hlt, List.map_set]
    · cases ha
  | @append n p L hL u e hu =>
    simp only [FileEdit.apply, Option.map_eq_some_iff] at ha
    obtain ⟨x, hx, rfl⟩ := ha
    refine inside_at hx ht (Node.listAttrs_shown n L hL x _) hu ?_
    simp only [Stmt.onTree, withAppended, List.map_append, List.map_cons, List.map_nil]
  | @pop n p L hL =>
    simp only [FileEdit.apply, Option.bind_eq_some_iff] at ha
    obtain ⟨x, hx, ha⟩ := ha
    split at ha
    · rename_i hlt
      cases ha
      refine inside_at hx ht (Node.listAttrs_shown n L hL x _) .none ?_
      cases e : L.get x with
      | nil => rw [e] at hlt; cases hlt
      | cons y ys => simp only [Stmt.onTree, withoutLast, List.map_cons, List.map_dropLast]
    · cases ha
  | @insert n p L hL k u e hu =>
    simp only [FileEdit.apply, Option.map_eq_some_iff] at ha
    obtain ⟨x, hx, rfl⟩ := ha
    refine inside_at hx ht (Node.listAttrs_shown n L hL x _) hu ?_
    simp only [Stmt.onTree, withInserted, List.map_append, List.map_cons, List.map_nil, List.map_take, List.map_drop]
  | @delItem n p L hL k =>
    simp only [FileEdit.apply, Option.bind_eq_some_iff] at ha
    obtain ⟨x, hx, ha⟩ := ha
    split at ha
    · rename_i hlt
      cases ha
      refine inside_at hx ht (Node.listAttrs_shown n L hL x _) .none ?_
      simp only [Stmt.onTree, withoutItem, List.length_map, if_pos hlt, List.map_append, List.map_take, List.map_drop]
    · cases ha
  | @delSlice n p L hL i j =>
    simp only [FileEdit.apply, Option.map_eq_some_iff] at ha
    obtain ⟨x, hx, rfl⟩ := ha
    refine inside_at hx ht (Node.listAttrs_shown n L hL x _) .none ?_
    simp only [Stmt.onTree, withoutSlice, List.map_append, List.map_take, List.map_drop]
  | @create n p g hg hc u =>
    simp only [FileEdit.apply, Option.map_eq_some_iff] at ha
    obtain ⟨x, hx, rfl⟩ := ha
    obtain ⟨h1, h2⟩ := p.shown d x hx
    obtain ⟨c, h3, h4⟩ := ht.get h1
    obtain ⟨cl, hcl⟩ := n.object_attrs x
    rw [hcl] at h4
    obtain ⟨r, h5, h6⟩ := h4.newAttr (u := u) (n := g) (attrOf_absent fun A hA => hg A hA) hc
    refine ⟨t.put p.path r, by simp only [FileEdit.python, editTree, ObjTree.eval_get.2 h3, Stmt.onTree, h5], ?_⟩
    have := ht.put h6 h1
    rw [← hcl] at this
    rwa [show (DatFile.object false d).put p.path (n.object x) = DatFile.object false d from ObjTree.put_self h1] at this

theorem FileEdit.simulatesAll : ∀ (es : List FileEdit) {d d' : DatFile} {t : ObjTree}, FileEdit.applyAll es d = some d' →
    Carries t (d.object false) → ∃ r, editTree (es.map FileEdit.python) t = .ok r ∧ Carries r (d'.object false)
  | [], d, d', t, ha, ht => by cases ha; exact ⟨t, rfl, ht⟩
  | e :: es, d, d', t, ha, ht => by
    simp only [FileEdit.applyAll, Option.bind_eq_some_iff] at ha
    obtain ⟨d1, h1, h2⟩ := ha
    obtain ⟨t1, h3, h4⟩ := e.simulates h1 ht
    obtain ⟨r, h5, h6⟩ := FileEdit.simulatesAll es h2 h4
    exact ⟨r, by rw [List.map_cons, editTree_cons h3]; exact h5, h6⟩

/-! ## Places that are not there -/

theorem Carries.step_error {t t' : ObjTree} (h : Carries t t') (st : PathStep) (e : PyErr) (hne : e ≠ .attributeError) (he : t'.step st = .error e) :
    t.step st = .error e := by
  cases h with
  | @list ts us hs =>
    cases st with
    | attr n => exact he
    | item i =>
      simp only [step] at he ⊢
      cases hu : us[i]? with
      | none => rw [hu] at he; rw [(hs.item i).2 hu]; exact he
      | some c => rw [hu] at he; cases he
  | @tuple ts us hs =>
    cases st with
    | attr n => exact he
    | item i =>
      simp only [step] at he ⊢
      cases hu : us[i]? with
      | none => rw [hu] at he; rw [(hs.item i).2 hu]; exact he
      | some c => rw [hu] at he; cases he
  | obj hs =>
    cases st with
    | item i => exact he
    | attr n =>
      simp only [step] at he
      split at he
      · cases he
      · cases he; exact absurd rfl hne
  | _ => cases st <;> exact he

theorem Carries.eval_error : ∀ {p : ObjPath} {t t' : ObjTree} {e : PyErr}, Carries t t' → e ≠ .attributeError → t'.eval p = .error e → t.eval p = .error e
  | [], _, _, _, _, _, he => by cases he
  | st :: p, t, t', e, h, hne, he => by
    rw [ObjTree.eval] at he ⊢
    cases hs : t'.step st with
    | error x =>
      rw [hs] at he
      cases he
      rw [h.step_error st _ hne hs]
    | ok c' =>
      rw [hs] at he
      obtain ⟨c, hc, hcc⟩ := h.child st c' (ObjTree.step_child.mp hs)
      rw [ObjTree.step_child.mpr hc]
      exact Carries.eval_error hcc hne he

theorem Carries.none_left {t : ObjTree} (h : Carries t .none) : t = .none := by cases h; rfl

/-- The expression raises, or is `None`. -/
def NoRecord (t' : ObjTree) (p : ObjPath) : Prop :=
  ∀ t, Carries t t' → (∃ e, Absent e ∧ t.eval p = .error e) ∨ t.eval p = .ok .none

theorem ObjTree.eval_append : ∀ {p q : ObjPath} {t c : ObjTree}, t.eval p = .ok c → t.eval (p ++ q) = c.eval q
  | [], q, t, c, h => by cases h; rfl
  | st :: p, q, t, c, h => by
    rw [List.cons_append, ObjTree.eval]
    rw [ObjTree.eval] at h
    cases e : t.step st with
    | error x => rw [e] at h; cases h
    | ok u => rw [e] at h; exact ObjTree.eval_append h

theorem ObjTree.eval_append_error : ∀ {p q : ObjPath} {t : ObjTree} {x : PyErr}, t.eval p = .error x → t.eval (p ++ q) = .error x
  | [], q, t, x, h => by cases h
  | st :: p, q, t, x, h => by
    rw [List.cons_append, ObjTree.eval]
    rw [ObjTree.eval] at h
    cases e : t.step st with
    | error x => rw [e] at h; cases h; rfl
    | ok u => rw [e] at h; exact ObjTree.eval_append_error h

theorem none_eval {q : ObjPath} : (∃ e, Absent e ∧ ObjTree.none.eval q = .error e) ∨ ObjTree.none.eval q = .ok .none := by
  cases q with
  | nil => exact .inr rfl
  | cons st q => cases st with
    | attr n => exact .inl ⟨_, .inr (.inl rfl), rfl⟩
    | item i => exact .inl ⟨_, .inr (.inr rfl), rfl⟩

theorem NoRecord.append {t' : ObjTree} {p q : ObjPath} (h : NoRecord t' p) : NoRecord t' (p ++ q) := by
  intro t ht
  rcases h t ht with ⟨e, ha, h⟩ | h
  · exact .inl ⟨e, ha, ObjTree.eval_append_error h⟩
  · rw [ObjTree.eval_append h]
    exact none_eval

theorem Place.missing {a b : Node} (p : Place a b) (x : a.Obj) (h : p.get x = Option.none) (hr : p.Right x) : NoRecord (a.object x) p.path := by
  induction p with
  | here => cases h
  | step s p ih =>
    simp only [Place.get] at h
    simp only [Place.path]
    cases e : s.get x with
    | none =>
      refine NoRecord.append fun t ht => ?_
      rcases s.missing x e hr.1 with h1 | h1 | h1
      · exact .inl ⟨_, .inl rfl, ht.eval_error (fun e => nomatch e) h1⟩
      · exact .inl ⟨_, .inr (.inr rfl), ht.eval_error (fun e => nomatch e) h1⟩
      · obtain ⟨c, h2, h3⟩ := ht.get (ObjTree.eval_get.1 h1)
        rw [h3.none_left] at h2
        exact .inr (ObjTree.eval_get.2 h2)
    | some k =>
      rw [e] at h
      intro t ht
      obtain ⟨c, h2, h3⟩ := ht.get (s.shown x k k e).get
      rw [ObjTree.eval_append (ObjTree.eval_get.2 h2)]
      exact ih k h (hr.2 k e) c h3

theorem setAttr_absent {t t' : ObjTree} {p : ObjPath} {n : PyStr} {u : ObjTree} (ht : Carries t t') (h : NoRecord t' p) (es : List Edit) :
    ∃ e, Absent e ∧ editTree (⟨p, .setAttr n, u⟩ :: es) t = .error e := by
  rcases h t ht with ⟨e, ha, h⟩ | h
  · exact ⟨e, ha, by rw [editTree]; simp only [h]⟩
  · refine ⟨_, .inr (.inl rfl), ?_⟩
    rw [editTree]
    simp only [h]
    rfl

theorem inside_absent {t t' : ObjTree} {p : ObjPath} {n : PyStr} {st : Stmt} {u : ObjTree} (ht : Carries t t') (h : NoRecord t' p) (es : List Edit) :
    ∃ e, Absent e ∧ editTree (⟨p ++ [.attr n], st, u⟩ :: es) t = .error e := by
  rcases h t ht with ⟨e, ha, h⟩ | h
  · exact ⟨e, ha, by rw [editTree]; simp only [ObjTree.eval_append_error h]⟩
  · exact ⟨_, .inr (.inl rfl), by rw [editTree]; simp only [ObjTree.eval_append h]; rfl⟩

theorem FileEdit.raises (e : FileEdit) {d : DatFile} {t : ObjTree} (ha : e.apply d = Option.none) (hr : e.Right d)
    (ht : Carries t (d.object false)) (es : List Edit) : ∃ x, Absent x ∧ editTree (e.python :: es) t = .error x := by
  have shape : ∀ {n : Node} {p : Place .file n} {x : n.Obj} {L : ListAttr n.Obj}, p.get d = some x → L ∈ n.listAttrs →
      ∃ c, t.eval (p.path ++ [.attr (lit L.name)]) = .ok c ∧ Carries c (.list ((L.get x).map L.object)) := by
    intro n p x L hx hL
    obtain ⟨h1, -⟩ := p.shown d x hx
    have h2 := (Node.listAttrs_shown n L hL x (L.get x)).get
    obtain ⟨c, h3, h4⟩ := ht.get ((ObjTree.get_append h1).trans h2)
    exact ⟨c, ObjTree.eval_get.2 h3, h4⟩
  cases e with
  | @set n p A hA u w hu =>
    simp only [FileEdit.apply, Option.map_eq_none_iff] at ha
    exact setAttr_absent ht (p.missing d ha hr) es
  | @setItem n p L hL k u e hu =>
    simp only [FileEdit.apply] at ha
    cases hx : p.get d with
    | none => exact inside_absent ht (p.missing d hx hr) es
    | some x =>
      rw [hx] at ha
      simp only [Option.bind_some] at ha
      split at ha
      · cases ha
      · rename_i hlt
        obtain ⟨c, h1, h2⟩ := shape hx hL
        refine ⟨_, .inl rfl, ?_⟩
        rw [FileEdit.python, editTree]
        simp only [h1]
        cases h2 with
        | list hs =>
          simp only [Stmt.onTree, withItem, hs.length_eq, List.length_map, if_neg hlt]
  | @append n p L hL u e hu =>
    simp only [FileEdit.apply, Option.map_eq_none_iff] at ha
    exact inside_absent ht (p.missing d ha hr) es
  | @pop n p L hL =>
    simp only [FileEdit.apply] at ha
    cases hx : p.get d with
    | none => exact inside_absent ht (p.missing d hx hr) es
    | some x =>
      rw [hx] at ha
      simp only [Option.bind_some] at ha
      split at ha
      · cases ha
      · rename_i hlt
        obtain ⟨c, h1, h2⟩ := shape hx hL
        refine ⟨_, .inl rfl, ?_⟩
        rw [FileEdit.python, editTree]
        simp only [h1]
        cases hl : L.get x with
        | cons y ys => rw [hl] at hlt; exact absurd (Nat.succ_pos _) hlt
        | nil =>
          rw [hl] at h2
          simp only [List.map_nil] at h2
          cases h2 with
          | list hs => cases hs; rfl
  | @insert n p L hL k u e hu =>
    simp only [FileEdit.apply, Option.map_eq_none_iff] at ha
    exact inside_absent ht (p.missing d ha hr) es
  | @delItem n p L hL k =>
    simp only [FileEdit.apply] at ha
    cases hx : p.get d with
    | none => exact inside_absent ht (p.missing d hx hr) es
    | some x =>
      rw [hx] at ha
      simp only [Option.bind_some] at ha
      split at ha
      · cases ha
      · rename_i hlt
        obtain ⟨c, h1, h2⟩ := shape hx hL
        refine ⟨_, .inl rfl, ?_⟩
        rw [FileEdit.python, editTree]
        simp only [h1]
        cases h2 with
        | list hs =>
          simp only [Stmt.onTree, withoutItem, hs.length_eq, List.length_map, if_neg hlt]
  | @delSlice n p L hL i j =>
    simp only [FileEdit.apply, Option.map_eq_none_iff] at ha
    exact inside_absent ht (p.missing d ha hr) es
  | @create n p g hg hc u =>
    simp only [FileEdit.apply, Option.map_eq_none_iff] at ha
    exact setAttr_absent ht (p.missing d ha hr) es

theorem FileEdit.raisesAll : ∀ (es : List FileEdit) {d : DatFile} {t : ObjTree}, FileEdit.applyAll es d = Option.none →
    FileEdit.RightAll es d → Carries t (d.object false) → ∃ x, Absent x ∧ editTree (es.map FileEdit.python) t = .error x
  | [], _, _, ha, _, _ => by cases ha
  | e :: es, d, t, ha, hr, ht => by
    simp only [FileEdit.applyAll] at ha
    cases h1 : e.apply d with
    | none => exact e.raises h1 hr.1 ht _
    | some d1 =>
      rw [h1] at ha
      obtain ⟨t1, h3, h4⟩ := e.simulates h1 ht
      obtain ⟨x, h5, h6⟩ := FileEdit.raisesAll es ha (hr.2 d1 h1) h4
      exact ⟨x, h5, by rw [List.map_cons, editTree_cons h3]; exact h6⟩

end Genie
