import Verif.Spec.EditObjects
import Verif.Proof.Heap.Shows
import Verif.Proof.Heap.Paths
/-! # Fields and places as attributes and expressions -/

namespace Genie
open ObjTree

/-- The attributes of an instance. -/
def ObjTree.attrs : ObjTree → List (PyStr × ObjTree)
  | .obj _ ts => ts
  | _ => []

/-- `t` has the value `a` in the attribute `n`, and `t'` is `t` with `a'` there. -/
structure FieldAt (t t' : ObjTree) (n : PyStr) (a a' : ObjTree) : Prop where
  old : ∃ c ts, t = .obj c ts ∧ attrOf n ts = some a ∧ t' = .obj c (setAttrOf n a' ts)

theorem attrOf_named {n : PyStr} {a : ObjTree} : ∀ {ts : List (PyStr × ObjTree)} {k : Nat}, (ts.map Prod.fst).Nodup → ts[k]? = some (n, a) →
    attrOf n ts = some a ∧ ∀ a', setAttrOf n a' ts = ts.set k (n, a')
  | [], k, _, h => by cases h
  | (m, b) :: ts, 0, _, h => by
    cases h
    exact ⟨by simp [attrOf], fun a' => by simp [setAttrOf]⟩
  | (m, b) :: ts, k + 1, nd, h => by
    rw [List.map_cons, List.nodup_cons] at nd
    have h : ts[k]? = some (n, a) := h
    obtain ⟨h1, h2⟩ := attrOf_named nd.2 h
    have ne : m ≠ n := by
      rintro rfl
      exact nd.1 (List.mem_map.2 ⟨_, List.mem_of_getElem? h, rfl⟩)
    exact ⟨by simp [attrOf, ne, h1], fun a' => by simp [setAttrOf, ne, h2]⟩

theorem FieldAt.of {c : PyStr} {ts : List (PyStr × ObjTree)} {t' : ObjTree} {n : PyStr} {a a' : ObjTree} (k : Nat)
    (nd : ((ObjTree.obj c ts).attrs.map Prod.fst).Nodup) (h : ts[k]? = some (n, a)) (h' : t' = .obj c (ts.set k (n, a'))) :
    FieldAt (.obj c ts) t' n a a' := by
  obtain ⟨h1, h2⟩ := attrOf_named (ts := ts) nd h
  exact ⟨c, ts, rfl, h1, by rw [h', h2]⟩

theorem FieldAt.get {t t' : ObjTree} {n : PyStr} {a a' : ObjTree} (h : FieldAt t t' n a a') : t.get [.attr n] = some a := by
  obtain ⟨c, ts, rfl, h1, rfl⟩ := h.old
  simp [ObjTree.get, child, h1]

theorem FieldAt.put {t t' : ObjTree} {n : PyStr} {a a' : ObjTree} (h : FieldAt t t' n a a') : t' = t.put [.attr n] a' := by
  obtain ⟨c, ts, rfl, h1, rfl⟩ := h.old
  simp [ObjTree.put, child, h1, setChild]

theorem FieldAt.withAttr {t t' : ObjTree} {n : PyStr} {a a' : ObjTree} (h : FieldAt t t' n a a') : ObjTree.withAttr a' n t = .ok t' := by
  obtain ⟨c, ts, rfl, h1, rfl⟩ := h.old
  simp [ObjTree.withAttr, h1]

theorem FieldAt.declared {t t' : ObjTree} {n c : PyStr} {a a' : ObjTree} {us : List (PyStr × ObjTree)} (h : FieldAt t t' n a a') (e : t = .obj c us) :
    (attrOf n us).isSome := by
  obtain ⟨c, ts, rfl, h1, rfl⟩ := h.old
  cases e
  rw [h1]; rfl

/-- The attribute `f.name` is the field. -/
def IntShown (n : Node) (f : IntField n.Obj) : Prop :=
  ∀ x i, FieldAt (n.object x) (n.object (f.set x i)) (lit f.name) (.int (f.get x)) (.int i)

def TextShown (n : Node) (f : TextField n.Obj) : Prop :=
  ∀ x s, FieldAt (n.object x) (n.object (f.set x s)) (lit f.name) (.str (f.get x)) (.str s)

def FloatShown (n : Node) (f : FloatField n.Obj) : Prop :=
  ∀ x z, ∃ a, FieldAt (n.object x) (n.object (f.set x z)) (lit f.name) a (.float z) ∧ ∀ y, f.get x = some y → a = .float y

def AttrShown (n : Node) (A : Attr n.Obj) : Prop :=
  ∀ x w, FieldAt (n.object x) (n.object (A.set x w)) (lit A.name) (A.object (A.get x)) (A.object w)

def ListShown (n : Node) (L : ListAttr n.Obj) : Prop :=
  ∀ x l, FieldAt (n.object x) (n.object (L.set x l)) (lit L.name) (.list ((L.get x).map L.object)) (.list (l.map L.object))

/-- The record is where the expression leads, and replacing it is replacing that part of the object. -/
structure SlotShown {a b : Node} (s : Slot a b) (x : a.Obj) (m y : b.Obj) : Prop where
  get : (a.object x).get s.path = some (b.object m)
  put : a.object (s.set x y) = (a.object x).put s.path (b.object y)

theorem SlotShown.attr {a b : Node} {s : Slot a b} {x : a.Obj} {m y : b.Obj} {n : PyStr}
    (h : FieldAt (a.object x) (a.object (s.set x y)) n (b.object m) (b.object y)) (hp : s.path = [.attr n] := by rfl) : SlotShown s x m y :=
  ⟨by rw [hp]; exact h.get, by rw [hp]; exact h.put⟩

theorem SlotShown.item {a b : Node} {s : Slot a b} {x : a.Obj} {m y : b.Obj} {n : PyStr} {i : Nat} {tuple : Bool} {ts us : List ObjTree}
    (hi : ts[i]? = some (b.object m)) (hu : ts.set i (b.object y) = us)
    (h : FieldAt (a.object x) (a.object (s.set x y)) n (if tuple = true then .tuple ts else .list ts)
      (if tuple = true then .tuple us else .list us))
    (hp : s.path = [.attr n, .item i] := by rfl) : SlotShown s x m y := by
  subst hu
  rw [show ([PathStep.attr n, .item i] : ObjPath) = [.attr n] ++ [.item i] from rfl] at hp
  obtain ⟨c, ts', e, ha, e'⟩ := h.old
  cases tuple with
  | true =>
    refine ⟨?_, ?_⟩
    · rw [hp, e]; simp [ObjTree.get, child, ha, hi]
    · rw [hp, e', e]; simp [ObjTree.put, child, ha, hi, setChild]
  | false =>
    refine ⟨?_, ?_⟩
    · rw [hp, e]; simp [ObjTree.get, child, ha, hi]
    · rw [hp, e', e]; simp [ObjTree.put, child, ha, hi, setChild]

/-- There is nothing there: `IndexError`, `TypeError` (`None[0]`) or `None`. -/
def SlotMissing {a b : Node} (s : Slot a b) (x : a.Obj) : Prop :=
  (a.object x).eval s.path = .error .indexError ∨ (a.object x).eval s.path = .error .typeError ∨ (a.object x).eval s.path = .ok .none

theorem SlotMissing.attr {a b : Node} {s : Slot a b} {x : a.Obj} {n : PyStr} {c : PyStr} {ts : List (PyStr × ObjTree)} (k : Nat)
    (hx : a.object x = .obj c ts) (nd : ((a.object x).attrs.map Prod.fst).Nodup) (h : ts[k]? = some (n, .none))
    (hp : s.path = [.attr n] := by rfl) : SlotMissing s x := by
  rw [hx] at nd
  refine .inr (.inr ?_)
  simp only [hp, hx, ObjTree.eval, step, (attrOf_named (ts := ts) nd h).1]

theorem SlotMissing.item {a b : Node} {s : Slot a b} {x : a.Obj} {n : PyStr} {i : Nat} {c : PyStr} {ts : List (PyStr × ObjTree)} {us : List ObjTree}
    (k : Nat) (tuple : Bool) (hi : us[i]? = Option.none ∨ us[i]? = some .none) (hx : a.object x = .obj c ts) (nd : ((a.object x).attrs.map Prod.fst).Nodup)
    (h : ts[k]? = some (n, if tuple = true then .tuple us else .list us)) (hp : s.path = [.attr n, .item i] := by rfl) : SlotMissing s x := by
  rw [hx] at nd
  have := (attrOf_named (ts := ts) nd h).1
  rcases hi with hi | hi
  · refine .inl ?_
    cases tuple <;> simp [hp, hx, ObjTree.eval, step, this, hi]
  · refine .inr (.inr ?_)
    cases tuple <;> simp [hp, hx, ObjTree.eval, step, this, hi]

theorem SlotMissing.noList {a b : Node} {s : Slot a b} {x : a.Obj} {n : PyStr} {i : Nat} {c : PyStr} {ts : List (PyStr × ObjTree)}
    (k : Nat) (hx : a.object x = .obj c ts) (nd : ((a.object x).attrs.map Prod.fst).Nodup)
    (h : ts[k]? = some (n, .none)) (hp : s.path = [.attr n, .item i] := by rfl) : SlotMissing s x := by
  rw [hx] at nd
  have := (attrOf_named (ts := ts) nd h).1
  exact .inr (.inl (by simp [hp, hx, ObjTree.eval, step, this]))

theorem mapped_none (f : α → ObjTree) {l : List α} {i : Nat} (h : l[i]? = Option.none) : (l.map f)[i]? = Option.none := by
  rw [List.getElem?_map, h]; rfl

theorem slotAt_none {f : Option α → ObjTree} (hf : f Option.none = .none) {l : List (Option α)} {i : Nat} (h : slotAt l i = Option.none) :
    (l.map f)[i]? = Option.none ∨ (l.map f)[i]? = some .none := by
  unfold slotAt at h
  cases e : l[i]? with
  | none => exact .inl (mapped_none f e)
  | some o =>
    rw [e] at h
    cases o with
    | none => exact .inr (by rw [List.getElem?_map, e, Option.map_some, hf])
    | some k => cases h

theorem mapped {f : α → ObjTree} {l : List α} {i : Nat} {m : α} (h : l[i]? = some m) : (l.map f)[i]? = some (f m) := by simp [h]
theorem mapped_set (f : α → ObjTree) (y : α) {l : List α} {i : Nat} : (l.map f).set i (f y) = (l.set i y).map f := by simp [List.map_set]
theorem slotAt_some {l : List (Option α)} {i : Nat} {m : α} (h : slotAt l i = some m) : l[i]? = some (some m) := by
  unfold slotAt at h
  cases e : l[i]? with
  | none => rw [e] at h; cases h
  | some o => rw [e] at h; cases o with
    | none => cases h
    | some k => cases h; rfl

end Genie
