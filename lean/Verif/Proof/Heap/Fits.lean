import Verif.Spec.Fits
import Verif.Spec.Converts
import Verif.Spec.ObjectTrees
import Verif.Spec.Programs
import Verif.Proof.Heap.Paths
/-! # Well-typed statements keep objects well-typed -/

namespace Genie

/-- A class is defined once. -/
def OneDef (D : PyStr → List (PyStr × Ann) → Prop) : Prop := ∀ c fs fs', D c fs → D c fs' → fs = fs'

variable {D : PyStr → List (PyStr × Ann) → Prop}

theorem SuitsFields.attr {n : PyStr} {a : Ann} : ∀ {fs ts}, SuitsFields D fs ts → annOf n fs = some a → ∃ t, ObjTree.attrOf n ts = some t ∧ Suits D a t
  | _, _, .nil, h => nomatch h
  | _, _, .cons (n := m) f fs, h => by
    unfold annOf at h
    unfold ObjTree.attrOf
    split at h
    · next e => cases h; rw [if_pos e]; exact ⟨_, rfl, f⟩
    · next e => rw [if_neg e]; exact fs.attr h

theorem SuitsFields.set {n : PyStr} {a : Ann} {u : ObjTree} (hu : Suits D a u) : ∀ {fs ts}, SuitsFields D fs ts → annOf n fs = some a →
    SuitsFields D fs (ObjTree.setAttrOf n u ts)
  | _, _, .nil, h => nomatch h
  | _, _, .cons (n := m) f fs, h => by
    unfold annOf at h
    unfold ObjTree.setAttrOf
    split at h
    · next e => cases h; rw [if_pos e]; exact .cons hu fs
    · next e => rw [if_neg e]; exact .cons f (fs.set hu h)

theorem SuitsAll.item {a : Ann} {t : ObjTree} : ∀ {as ts} {i : Nat}, SuitsAll D as ts → as[i]? = some a → ts[i]? = some t → Suits D a t
  | _, _, _, .nil, h, _ => nomatch h
  | _, _, 0, .cons f fs, h, h' => by cases h; cases h'; exact f
  | _, _, i + 1, .cons f fs, h, h' => fs.item (i := i) (by simpa using h) (by simpa using h')

theorem SuitsAll.length : ∀ {as ts}, SuitsAll D as ts → as.length = ts.length
  | _, _, .nil => rfl
  | _, _, .cons _ fs => by simp [fs.length]

theorem SuitsAll.set {a : Ann} {u : ObjTree} (hu : Suits D a u) : ∀ {as ts} {i : Nat}, SuitsAll D as ts → as[i]? = some a → SuitsAll D as (ts.set i u)
  | _, _, _, .nil, h => nomatch h
  | _, _, 0, .cons f fs, h => by cases h; exact .cons hu fs
  | _, _, i + 1, .cons f fs, h => .cons f (fs.set (i := i) hu (by simpa using h))

theorem Leads.nil {a b : Ann} {p : ObjPath} {u : ObjTree} (l : Leads D a p b) (hp : p = []) (h : Suits D b u) : Suits D a u := by
  induction l with
  | here => exact h
  | opt l ih => exact .some (ih hp h)
  | _ => cases hp

/-- Replacing a place by something of the type that the place has keeps the type of the whole. -/
theorem Leads.put (od : OneDef D) {a b : Ann} {p : ObjPath} (l : Leads D a p b) : ∀ {t u u' : ObjTree}, Suits D a t → t.get p = some u →
    Suits D b u' → Suits D a (t.put p u') := by
  induction l with
  | here => intro t u u' _ _ h; exact h
  | opt l ih =>
    intro t u u' ht hg hu
    cases ht with
    | some ht => exact .some (ih ht hg hu)
    | none =>
      rename_i p
      cases p with
      | nil => exact .some (l.nil rfl hu)
      | cons st p => cases st <;> simp [ObjTree.get, ObjTree.child] at hg
  | attr hd hn l ih =>
    intro t u u' ht hg hu
    cases ht with
    | cls hd' hf =>
      cases od _ _ _ hd hd'
      obtain ⟨c, hc, hft⟩ := hf.attr hn
      simp only [ObjTree.get, ObjTree.child, hc] at hg
      simp only [ObjTree.put, ObjTree.child, hc, ObjTree.setChild]
      exact .cls hd (hf.set (ih hft hg hu) hn)
  | @listItem a b i p l ih =>
    intro t u u' ht hg hu
    cases ht with
    | @list _ ts hf =>
      simp only [ObjTree.get, ObjTree.child] at hg
      cases hc : ts[i]? with
      | none => rw [hc] at hg; cases hg
      | some c =>
        rw [hc] at hg
        simp only [ObjTree.put, ObjTree.child, hc, ObjTree.setChild]
        refine .list fun x hx => ?_
        rcases List.mem_or_eq_of_mem_set hx with h | rfl
        · exact hf x h
        · exact ih (hf c (List.mem_of_getElem? hc)) hg hu
  | @tupleItem as a b i p ha l ih =>
    intro t u u' ht hg hu
    cases ht with
    | @tuple _ ts hf =>
      simp only [ObjTree.get, ObjTree.child] at hg
      cases hc : ts[i]? with
      | none => rw [hc] at hg; cases hg
      | some c =>
        rw [hc] at hg
        simp only [ObjTree.put, ObjTree.child, hc, ObjTree.setChild]
        exact .tuple (hf.set (ih (hf.item ha hc) hg hu) ha)

/-- What is at a place has the type of the place, unless it is `None`. -/
theorem Leads.get (od : OneDef D) {a b : Ann} {p : ObjPath} (l : Leads D a p b) : ∀ {t u : ObjTree}, Suits D a t → t.get p = some u →
    u ≠ .none → Suits D b u := by
  induction l with
  | here => intro t u ht hg _; cases hg; exact ht
  | @opt a b p l ih =>
    intro t u ht hg hu
    cases ht with
    | some ht => exact ih ht hg hu
    | none =>
      cases p with
      | nil => cases hg; exact (hu rfl).elim
      | cons st p => cases st <;> simp [ObjTree.get, ObjTree.child] at hg
  | attr hd hn l ih =>
    intro t u ht hg hu
    cases ht with
    | cls hd' hf =>
      cases od _ _ _ hd hd'
      obtain ⟨c, hc, hft⟩ := hf.attr hn
      simp only [ObjTree.get, ObjTree.child, hc] at hg
      exact ih hft hg hu
  | @listItem a b i p l ih =>
    intro t u ht hg hu
    cases ht with
    | @list _ ts hf =>
      simp only [ObjTree.get, ObjTree.child] at hg
      cases hc : ts[i]? with
      | none => rw [hc] at hg; cases hg
      | some c => rw [hc] at hg; exact ih (hf c (List.mem_of_getElem? hc)) hg hu
  | @tupleItem as a b i p ha l ih =>
    intro t u ht hg hu
    cases ht with
    | @tuple _ ts hf =>
      simp only [ObjTree.get, ObjTree.child] at hg
      cases hc : ts[i]? with
      | none => rw [hc] at hg; cases hg
      | some c => rw [hc] at hg; exact ih (hf.item ha hc) hg hu

/-- Evaluating a well-typed expression raises `IndexError`, or something on the way is `None`. -/
theorem Leads.eval_error (od : OneDef D) {a b : Ann} {p : ObjPath} (l : Leads D a p b) : ∀ {t : ObjTree} {e : PyErr}, Suits D a t →
    t.eval p = .error e → e = .indexError ∨ ∃ q st, q ++ [st] <+: p ∧ t.get q = some .none ∧
      e = (match st with | .attr _ => .attributeError | .item _ => .typeError) := by
  induction l with
  | here => intro t e _ h; cases h
  | @opt a b p l ih =>
    intro t e ht h
    cases ht with
    | some ht => exact ih ht h
    | none =>
      cases p with
      | nil => cases h
      | cons st p =>
        refine .inr ⟨[], st, ⟨p, rfl⟩, rfl, ?_⟩
        cases st <;> cases h <;> rfl
  | @attr c n fs a b p hd hn l ih =>
    intro t e ht h
    cases ht with
    | cls hd' hf =>
      cases od _ _ _ hd hd'
      obtain ⟨c, hc, hft⟩ := hf.attr hn
      simp only [ObjTree.eval, ObjTree.step, hc] at h
      rcases ih hft h with h1 | ⟨q, st, ⟨r, hr⟩, hq, he⟩
      · exact .inl h1
      · exact .inr ⟨.attr n :: q, st, ⟨r, by simp [← hr]⟩, by simp [ObjTree.get, ObjTree.child, hc, hq], he⟩
  | @listItem a b i p l ih =>
    intro t e ht h
    cases ht with
    | @list _ ts hf =>
      simp only [ObjTree.eval, ObjTree.step] at h
      cases hc : ts[i]? with
      | none => rw [hc] at h; cases h; exact .inl rfl
      | some c =>
        rw [hc] at h
        rcases ih (hf c (List.mem_of_getElem? hc)) h with h1 | ⟨q, st, ⟨r, hr⟩, hq, he⟩
        · exact .inl h1
        · exact .inr ⟨.item i :: q, st, ⟨r, by simp [← hr]⟩, by simp [ObjTree.get, ObjTree.child, hc, hq], he⟩
  | @tupleItem as a b i p ha l ih =>
    intro t e ht h
    cases ht with
    | @tuple _ ts hf =>
      simp only [ObjTree.eval, ObjTree.step] at h
      cases hc : ts[i]? with
      | none => rw [hc] at h; cases h; exact .inl rfl
      | some c =>
        rw [hc] at h
        rcases ih (hf.item ha hc) h with h1 | ⟨q, st, ⟨r, hr⟩, hq, he⟩
        · exact .inl h1
        · exact .inr ⟨.item i :: q, st, ⟨r, by simp [← hr]⟩, by simp [ObjTree.get, ObjTree.child, hc, hq], he⟩

/-- A well-typed statement on a well-typed object: what it leaves is well-typed. -/
theorem Edit.Typed.keeps (od : OneDef D) {root : Ann} {e : Edit} (ht : Edit.Typed D root e) {t u u' : ObjTree} (f : Suits D root t)
    (hg : t.get e.place = some u) (hs : e.stmt.onTree e.value u = .ok u') : Suits D root (t.put e.place u') := by
  cases ht with
  | @setAttr p c n fs a v l hd hn hv =>
    refine l.put od f hg ?_
    cases u with
    | obj c' ts =>
      have hu := l.get od f hg (by simp)
      cases hu with
      | cls hd' hf =>
        cases od _ _ _ hd hd'
        obtain ⟨y, hy, _⟩ := hf.attr hn
        simp only [Stmt.onTree, ObjTree.withAttr, hy, Option.isSome_some, if_true] at hs
        cases hs; exact .cls hd (hf.set hv hn)
    | _ => cases hs
  | @setItem p i a v l hv =>
    refine l.put od f hg ?_
    cases u <;> simp [Stmt.onTree, ObjTree.withItem] at hs
    next ts =>
    have hu := l.get od f hg (by simp)
    cases hu with
    | list hf =>
      split at hs
      case isFalse => cases hs
      cases hs
      refine .list fun x hx => ?_
      rcases List.mem_or_eq_of_mem_set hx with h | rfl
      · exact hf x h
      · exact hv
  | @append p a v l hv =>
    refine l.put od f hg ?_
    cases u <;> simp [Stmt.onTree, ObjTree.withAppended] at hs
    next ts =>
    have hu := l.get od f hg (by simp)
    cases hu with
    | list hf =>
      subst hs
      refine .list fun x hx => ?_
      rcases List.mem_append.mp hx with h | h
      · exact hf x h
      · simp at h; subst h; exact hv
  | @pop p a v l =>
    refine l.put od f hg ?_
    cases u with
    | list ts =>
      have hu := l.get od f hg (by simp)
      cases hu with
      | list hf =>
        cases ts with
        | nil => cases hs
        | cons x xs =>
          cases hs
          exact .list fun y hy => hf y ((List.dropLast_sublist _).mem hy)
    | _ => cases hs
  | @insert p i a v l hv =>
    refine l.put od f hg ?_
    cases u with
    | list ts =>
      have hu := l.get od f hg (by simp)
      cases hu with
      | list hf =>
        cases hs
        refine .list fun y hy => ?_
        rcases List.mem_append.1 hy with h | h
        · rcases List.mem_append.1 h with h | h
          · exact hf y (List.mem_of_mem_take h)
          · rw [List.mem_singleton.1 h]; exact hv
        · exact hf y (List.mem_of_mem_drop h)
    | _ => cases hs
  | @delItem p i a v l =>
    refine l.put od f hg ?_
    cases u with
    | list ts =>
      have hu := l.get od f hg (by simp)
      cases hu with
      | list hf =>
        simp only [Stmt.onTree, ObjTree.withoutItem] at hs
        split at hs
        · cases hs
          refine .list fun y hy => ?_
          rcases List.mem_append.1 hy with h | h
          · exact hf y (List.mem_of_mem_take h)
          · exact hf y (List.mem_of_mem_drop h)
        · cases hs
    | _ => cases hs
  | @delSlice p i j a v l =>
    refine l.put od f hg ?_
    cases u with
    | list ts =>
      have hu := l.get od f hg (by simp)
      cases hu with
      | list hf =>
        cases hs
        refine .list fun y hy => ?_
        rcases List.mem_append.1 hy with h | h
        · exact hf y (List.mem_of_mem_take h)
        · exact hf y (List.mem_of_mem_drop h)
    | _ => cases hs

/-- The exceptions of a well-typed statement. -/
theorem Edit.Typed.raises (od : OneDef D) {root : Ann} {e : Edit} (ht : Edit.Typed D root e) {t u : ObjTree} {x : PyErr} (f : Suits D root t)
    (hg : t.get e.place = some u) (hs : e.stmt.onTree e.value u = .error x) : x = .indexError ∨ u = .none := by
  by_cases hn : u = .none
  · exact .inr hn
  refine .inl ?_
  cases ht with
  | @setAttr p c n fs a v l hd hn' hv =>
    have hu := l.get od f hg hn
    cases hu with
    | cls hd' hf =>
      cases od _ _ _ hd hd'
      obtain ⟨y, hy, _⟩ := hf.attr hn'
      simp [Stmt.onTree, ObjTree.withAttr, hy] at hs
  | @setItem p i a v l hv =>
    have hu := l.get od f hg hn
    cases hu with
    | list hf =>
      simp only [Stmt.onTree, ObjTree.withItem] at hs
      split at hs
      · cases hs
      · cases hs; rfl
  | @append p a v l hv =>
    have hu := l.get od f hg hn
    cases hu with
    | list hf => simp [Stmt.onTree, ObjTree.withAppended] at hs
  | @pop p a v l =>
    have hu := l.get od f hg hn
    cases hu with
    | @list _ ts hf =>
      cases ts with
      | nil => cases hs; rfl
      | cons x xs => cases hs
  | @insert p i a v l hv =>
    have hu := l.get od f hg hn
    cases hu with
    | list hf => cases hs
  | @delItem p i a v l =>
    have hu := l.get od f hg hn
    cases hu with
    | list hf =>
      simp only [Stmt.onTree, ObjTree.withoutItem] at hs
      split at hs
      · cases hs
      · cases hs; rfl
  | @delSlice p i j a v l =>
    have hu := l.get od f hg hn
    cases hu with
    | list hf => cases hs

/-! ## every well-typed object is, up to promotion, the object of a value -/

/-- Everything that fits `a` is, up to `int`s for floats, `f x` for some `x` with `P x`. -/
def Onto (D : PyStr → List (PyStr × Ann) → Prop) (a : Ann) (f : α → ObjTree) (P : α → Prop) : Prop :=
  ∀ t, Suits D a t → ∃ x, P x ∧ Converts t (f x)

theorem Onto.int : Onto D .int ObjTree.int (fun _ => True) := fun _ h => by cases h; exact ⟨_, trivial, .int _⟩
theorem Onto.str : Onto D .str ObjTree.str (fun _ => True) := fun _ h => by cases h; exact ⟨_, trivial, .str _⟩
theorem Onto.float : Onto D .float ObjTree.float (fun _ => True) := fun _ h => by
  cases h with
  | float => exact ⟨_, trivial, .float _⟩
  | promote h => exact ⟨_, trivial, .promote h⟩

theorem Onto.opt {a : Ann} {f : α → ObjTree} {P : α → Prop} (o : Onto D a f P) : Onto D (.opt a) (optObj f) (fun x => ∀ y, x = some y → P y) :=
  fun _ h => by
    cases h with
    | none => exact ⟨Option.none, fun _ h => (nomatch h), .none⟩
    | some h =>
      obtain ⟨x, p, c⟩ := o _ h
      exact ⟨some x, fun _ h => by cases h; exact p, c⟩

theorem Onto.items {a : Ann} {f : α → ObjTree} {P : α → Prop} (o : Onto D a f P) : ∀ {ts : List ObjTree}, (∀ t ∈ ts, Suits D a t) →
    ∃ l : List α, (∀ x ∈ l, P x) ∧ ConvertsItems ts (l.map f)
  | [], _ => ⟨[], fun _ h => (nomatch h), .nil⟩
  | t :: ts, h => by
    obtain ⟨x, p, c⟩ := o t (h t List.mem_cons_self)
    obtain ⟨l, ps, cs⟩ := o.items fun y hy => h y (List.mem_cons_of_mem _ hy)
    exact ⟨x :: l, fun y hy => by
      rcases List.mem_cons.mp hy with rfl | hy
      · exact p
      · exact ps y hy, .cons c cs⟩

theorem Onto.list {a : Ann} {f : α → ObjTree} {P : α → Prop} (o : Onto D a f P) :
    Onto D (.list a) (fun l : List α => .list (l.map f)) (fun l => ∀ x ∈ l, P x) :=
  fun _ h => by
    cases h with
    | list h =>
      obtain ⟨l, ps, cs⟩ := o.items h
      exact ⟨l, ps, .list cs⟩

theorem SuitsAll.replicate {a : Ann} : ∀ {n : Nat} {ts : List ObjTree}, SuitsAll D (List.replicate n a) ts → ts.length = n ∧ ∀ t ∈ ts, Suits D a t
  | 0, _, .nil => ⟨rfl, fun _ h => (nomatch h)⟩
  | n + 1, _, .cons f fs => by
    obtain ⟨h1, h2⟩ := SuitsAll.replicate fs
    refine ⟨by simp [h1], fun t ht => ?_⟩
    rcases List.mem_cons.mp ht with rfl | ht
    · exact f
    · exact h2 t ht

theorem ConvertsItems.length : ∀ {ts us : List ObjTree}, ConvertsItems ts us → ts.length = us.length
  | _, _, .nil => rfl
  | _, _, .cons _ cs => by simp [cs.length]

theorem Onto.tuple {a : Ann} {n : Nat} {as : List Ann} (has : as = List.replicate n a) {f : α → ObjTree} {P : α → Prop} (o : Onto D a f P) :
    Onto D (.tuple as) (fun l : List α => .tuple (l.map f)) (fun l => l.length = n ∧ ∀ x ∈ l, P x) :=
  fun _ h => by
    subst has
    cases h with
    | tuple h =>
      obtain ⟨h1, h2⟩ := h.replicate
      obtain ⟨l, ps, cs⟩ := o.items h2
      exact ⟨l, ⟨by rw [← h1, cs.length, List.length_map], ps⟩, .tuple cs⟩

theorem SuitsFields.uncons {n : PyStr} {a : Ann} {fs : List (PyStr × Ann)} {ts : List (PyStr × ObjTree)} (h : SuitsFields D ((n, a) :: fs) ts) :
    ∃ t ts', ts = (n, t) :: ts' ∧ Suits D a t ∧ SuitsFields D fs ts' := by
  cases h with
  | cons f fs => exact ⟨_, _, rfl, f, fs⟩

theorem SuitsFields.unnil {ts : List (PyStr × ObjTree)} (h : SuitsFields D [] ts) : ts = [] := by cases h; rfl

mutual
/-- What converts to something of exactly the declared type fits. -/
theorem HasType.suits : ∀ {a t u}, Converts t u → HasType D a u → Suits D a t
  | _, _, _, .none, .none => .none
  | _, _, _, .int _, .int _ => .int _
  | _, _, _, .float _, .float _ => .float _
  | _, _, _, .promote h, .float _ => .promote h
  | _, _, _, .str _, .str _ => .str _
  | _, _, _, .list c, .list h => .list fun t ht => HasType.suitsMem c h t ht
  | _, _, _, .tuple c, .tuple h => .tuple (HasType.suitsAll c h)
  | _, _, _, .obj c, .cls hd h => .cls hd (HasType.suitsFields c h)
  | _, _, _, c, .some h => .some (HasType.suits c h)
theorem HasType.suitsMem : ∀ {a ts us}, ConvertsItems ts us → (∀ u ∈ us, HasType D a u) → ∀ t ∈ ts, Suits D a t
  | _, _, _, .nil, _, _, ht => nomatch ht
  | _, _, _, .cons c cs, h, t, ht =>
    match List.mem_cons.mp ht with
    | .inl e => e ▸ HasType.suits c (h _ List.mem_cons_self)
    | .inr m => HasType.suitsMem cs (fun u hu => h u (List.mem_cons_of_mem _ hu)) t m
theorem HasType.suitsAll : ∀ {as ts us}, ConvertsItems ts us → HasTypes D as us → SuitsAll D as ts
  | _, _, _, .nil, .nil => .nil
  | _, _, _, .cons c cs, .cons h hs => .cons (HasType.suits c h) (HasType.suitsAll cs hs)
theorem HasType.suitsFields : ∀ {fs ts us}, ConvertsAttrs ts us → HasFields D fs us → SuitsFields D fs ts
  | _, _, _, .nil, .nil => .nil
  | _, _, _, .cons c cs, .cons h hs => .cons (HasType.suits c h) (HasType.suitsFields cs hs)
end

end Genie
