import Verif.Spec.Alike
import Verif.Model.HeapWriters
/-!
# The writers on objects that look the same
-/

namespace Genie

variable {H1 H2 : Heap} {v w : HVal}

theorem Alike.shape (h : Alike H1 v H2 w) : H1.shape v = H2.shape w := by
  have := h []
  simpa [Heap.follow] using this

theorem Alike.step (h : Alike H1 v H2 w) (st : PathStep) :
    match H1.step v st, H2.step w st with
    | some x, some y => Alike H1 x H2 y
    | none, none => True
    | _, _ => False := by
  have h0 := h [st]
  have key : ∀ p, (H1.follow v (st :: p)).map H1.shape = (H2.follow w (st :: p)).map H2.shape := fun p => h (st :: p)
  simp only [Heap.follow] at h0 key
  cases e1 : H1.step v st with
  | none =>
    cases e2 : H2.step w st with
    | none => trivial
    | some y => rw [e1, e2] at h0; cases h0
  | some x =>
    cases e2 : H2.step w st with
    | none => rw [e1, e2] at h0; cases h0
    | some y =>
      intro p
      have := key p
      rw [e1, e2] at this
      exact this

/-- Cells that are seen alike. -/
inductive CellAlike (H1 H2 : Heap) : Option Cell → Option Cell → Prop
  | none : CellAlike H1 H2 none none
  | list {vs ws : List HVal} : vs.length = ws.length → (∀ (i : Nat) (x y : HVal), vs[i]? = some x → ws[i]? = some y → Alike H1 x H2 y) →
      CellAlike H1 H2 (some (.list vs)) (some (.list ws))
  | tuple {vs ws : List HVal} : vs.length = ws.length → (∀ (i : Nat) (x y : HVal), vs[i]? = some x → ws[i]? = some y → Alike H1 x H2 y) →
      CellAlike H1 H2 (some (.tuple vs)) (some (.tuple ws))
  | record {c : PyStr} {as bs : List (PyStr × HVal)} : (∀ n, match HReader.lookup n as, HReader.lookup n bs with
      | some x, some y => Alike H1 x H2 y
      | Option.none, Option.none => True
      | _, _ => False) → CellAlike H1 H2 (some (.record c as)) (some (.record c bs))

/-- Values that are seen alike, one level down. -/
inductive ValAlike (H1 H2 : Heap) : HVal → HVal → Prop
  | none : ValAlike H1 H2 .none .none
  | int (i : Int) : ValAlike H1 H2 (.int i) (.int i)
  | float (x : PyFloat) : ValAlike H1 H2 (.float x) (.float x)
  | str (s : PyStr) : ValAlike H1 H2 (.str s) (.str s)
  | ref {a b : Nat} : CellAlike H1 H2 H1[a]? H2[b]? → ValAlike H1 H2 (.ref a) (.ref b)

theorem Alike.cases (h : Alike H1 v H2 w) : ValAlike H1 H2 v w := by
  have hs := h.shape
  have st := h.step
  cases v with
  | none => cases w <;> simp only [Heap.shape] at hs <;> first | (exact .none) | (cases hs; done) | (split at hs <;> cases hs)
  | int i => cases w <;> simp only [Heap.shape] at hs <;> first | (cases hs; exact .int i) | (cases hs; done) | (split at hs <;> cases hs)
  | float i => cases w <;> simp only [Heap.shape] at hs <;> first | (cases hs; exact .float i) | (cases hs; done) | (split at hs <;> cases hs)
  | str i => cases w <;> simp only [Heap.shape] at hs <;> first | (cases hs; exact .str i) | (cases hs; done) | (split at hs <;> cases hs)
  | ref a =>
    cases w with
    | none => simp only [Heap.shape] at hs; split at hs <;> cases hs
    | int i => simp only [Heap.shape] at hs; split at hs <;> cases hs
    | float i => simp only [Heap.shape] at hs; split at hs <;> cases hs
    | str i => simp only [Heap.shape] at hs; split at hs <;> cases hs
    | ref b =>
      refine .ref ?_
      simp only [Heap.shape] at hs
      simp only [Heap.step] at st
      cases e1 : H1[a]? with
      | none =>
        cases e2 : H2[b]? with
        | none => exact .none
        | some y => cases y <;> simp only [e1, e2] at hs <;> cases hs
      | some x =>
        cases e2 : H2[b]? with
        | none => cases x <;> simp only [e1, e2] at hs <;> cases hs
        | some y =>
          cases x <;> cases y <;> simp only [e1, e2] at hs <;> (first | (cases hs; done) | skip)
          · rename_i vs ws
            refine .list (Shape.list.inj hs) fun i x y hx hy => ?_
            have := st (.item i)
            simp only [e1, e2, hx, hy] at this
            exact this
          · rename_i vs ws
            refine .tuple (Shape.tuple.inj hs) fun i x y hx hy => ?_
            have := st (.item i)
            simp only [e1, e2, hx, hy] at this
            exact this
          · rename_i c as c' bs
            obtain ⟨rfl, _⟩ := Shape.obj.inj hs
            refine .record fun n => ?_
            have := st (.attr n)
            simpa only [e1, e2] using this

theorem Alike.const (hv : ∀ a, v ≠ .ref a) : Alike H1 v H2 v := by
  intro p
  cases p with
  | nil =>
    cases v with
    | ref a => exact absurd rfl (hv a)
    | _ => rfl
  | cons st p =>
    cases v with
    | ref a => exact absurd rfl (hv a)
    | _ => rfl

/-! ## expressions -/

/-- The same exception, or values that look the same. -/
def PyAlike (H1 : Heap) (a : Py HVal) (H2 : Heap) (b : Py HVal) : Prop :=
  (∃ e, a = .error e ∧ b = .error e) ∨ ∃ x y, a = .ok x ∧ b = .ok y ∧ Alike H1 x H2 y

/-- The same exception, or sequences of values that look the same. -/
def ListAlike (H1 : Heap) (a : Py (List HVal)) (H2 : Heap) (b : Py (List HVal)) : Prop :=
  (∃ e, a = .error e ∧ b = .error e) ∨
  ∃ xs ys, a = .ok xs ∧ b = .ok ys ∧ xs.length = ys.length ∧ ∀ (i : Nat) (x y : HVal), xs[i]? = some x → ys[i]? = some y → Alike H1 x H2 y

namespace W

theorem attr_alike (h : Alike H1 v H2 w) (n : PyStr) : PyAlike H1 (attr H1 v n) H2 (attr H2 w n) := by
  cases h.cases with
  | @ref p q hc =>
    simp only [attr, cell]
    generalize H1[p]? = c1 at hc ⊢
    generalize H2[q]? = c2 at hc ⊢
    cases hc with
    | none => exact .inl ⟨_, rfl, rfl⟩
    | list => exact .inl ⟨_, rfl, rfl⟩
    | tuple => exact .inl ⟨_, rfl, rfl⟩
    | record hr =>
      have := hr n
      dsimp only
      generalize HReader.lookup n _ = x at this ⊢
      generalize HReader.lookup n _ = y at this ⊢
      cases x <;> cases y <;> first | exact this.elim | skip
      · exact .inl ⟨_, rfl, rfl⟩
      · exact .inr ⟨_, _, rfl, rfl, this⟩
  | _ => exact .inl ⟨_, rfl, rfl⟩

variable {a b : Py HVal}

theorem item_alike (h : PyAlike H1 a H2 b) (i : Nat) : PyAlike H1 (item H1 a i) H2 (item H2 b i) := by
  rcases h with ⟨e, rfl, rfl⟩ | ⟨x, y, rfl, rfl, h⟩
  · exact .inl ⟨_, rfl, rfl⟩
  · cases h.cases with
    | str s =>
      simp only [item, bind, Except.bind]
      cases s[i]? with
      | none => exact .inl ⟨_, rfl, rfl⟩
      | some c => exact .inr ⟨_, _, rfl, rfl, .const (fun a => HVal.noConfusion)⟩
    | @ref p q hc =>
      simp only [item, bind, Except.bind, cell]
      generalize H1[p]? = c1 at hc ⊢
      generalize H2[q]? = c2 at hc ⊢
      cases hc with
      | none => exact .inl ⟨_, rfl, rfl⟩
      | record hr => exact .inl ⟨_, rfl, rfl⟩
      | @list vs ws hl hi =>
        dsimp only
        cases e : vs[i]? with
        | none => rw [List.getElem?_eq_none (by rw [← hl]; exact List.getElem?_eq_none_iff.1 e)]; exact .inl ⟨_, rfl, rfl⟩
        | some x =>
          have := (List.getElem?_eq_some_iff.1 e).1
          have e2 : ws[i]? = some (ws[i]'(by omega)) := List.getElem?_eq_getElem (by omega)
          rw [e2]
          exact .inr ⟨_, _, rfl, rfl, hi i _ _ e e2⟩
      | @tuple vs ws hl hi =>
        dsimp only
        cases e : vs[i]? with
        | none => rw [List.getElem?_eq_none (by rw [← hl]; exact List.getElem?_eq_none_iff.1 e)]; exact .inl ⟨_, rfl, rfl⟩
        | some x =>
          have := (List.getElem?_eq_some_iff.1 e).1
          have e2 : ws[i]? = some (ws[i]'(by omega)) := List.getElem?_eq_getElem (by omega)
          rw [e2]
          exact .inr ⟨_, _, rfl, rfl, hi i _ _ e e2⟩
    | _ => exact .inl ⟨_, rfl, rfl⟩

theorem attrOf_alike (h : PyAlike H1 a H2 b) (n : PyStr) : PyAlike H1 (attrOf H1 a n) H2 (attrOf H2 b n) := by
  rcases h with ⟨e, rfl, rfl⟩ | ⟨x, y, rfl, rfl, h⟩
  · exact .inl ⟨_, rfl, rfl⟩
  · exact attr_alike h n

theorem iter_alike (h : PyAlike H1 a H2 b) : ListAlike H1 (iter H1 a) H2 (iter H2 b) := by
  rcases h with ⟨e, rfl, rfl⟩ | ⟨x, y, rfl, rfl, h⟩
  · exact .inl ⟨_, rfl, rfl⟩
  · cases h.cases with
    | str s =>
      refine .inr ⟨_, _, rfl, rfl, rfl, fun i x y hx hy => ?_⟩
      rw [hx] at hy
      cases hy
      refine .const fun a e => ?_
      subst e
      rw [List.getElem?_map, Option.map_eq_some_iff] at hx
      obtain ⟨c, _, hc⟩ := hx
      cases hc
    | @ref p q hc =>
      simp only [iter, bind, Except.bind, cell]
      generalize H1[p]? = c1 at hc ⊢
      generalize H2[q]? = c2 at hc ⊢
      cases hc with
      | none => exact .inl ⟨_, rfl, rfl⟩
      | record hr => exact .inl ⟨_, rfl, rfl⟩
      | list hl hi => exact .inr ⟨_, _, rfl, rfl, hl, hi⟩
      | tuple hl hi => exact .inr ⟨_, _, rfl, rfl, hl, hi⟩
    | _ => exact .inl ⟨_, rfl, rfl⟩

theorem len_alike (h : PyAlike H1 a H2 b) : len H1 a = len H2 b := by
  rcases h with ⟨e, rfl, rfl⟩ | ⟨x, y, rfl, rfl, h⟩
  · rfl
  · cases h.cases with
    | @ref p q hc =>
      simp only [len, bind, Except.bind, cell]
      generalize H1[p]? = c1 at hc ⊢
      generalize H2[q]? = c2 at hc ⊢
      cases hc with
      | none => rfl
      | record hr => rfl
      | list hl hi => dsimp only; rw [hl]
      | tuple hl hi => dsimp only; rw [hl]
    | _ => rfl

theorem nat_alike {x y : Py Nat} (h : x = y) : PyAlike H1 (nat x) H2 (nat y) := by
  subst h
  cases x with
  | error e => exact .inl ⟨_, rfl, rfl⟩
  | ok n => exact .inr ⟨_, _, rfl, rfl, .const (fun a => HVal.noConfusion)⟩

theorem truthy_alike (h : Alike H1 v H2 w) : truthy H1 v = truthy H2 w := by
  cases h.cases with
  | @ref p q hc =>
    simp only [truthy, cell]
    generalize H1[p]? = c1 at hc ⊢
    generalize H2[q]? = c2 at hc ⊢
    cases hc with
    | none => rfl
    | record hr => rfl
    | @list vs ws hl hi => cases vs <;> cases ws <;> first | rfl | cases hl
    | @tuple vs ws hl hi => cases vs <;> cases ws <;> first | rfl | cases hl
  | _ => rfl

theorem truthyOf_alike (h : PyAlike H1 a H2 b) : truthy H1 <$> a = truthy H2 <$> b := by
  rcases h with ⟨e, rfl, rfl⟩ | ⟨x, y, rfl, rfl, h⟩
  · rfl
  · exact congrArg Except.ok (truthy_alike h)

theorem eqInt_alike (h : PyAlike H1 a H2 b) (n : Int) : eqInt a n = eqInt b n := by
  rcases h with ⟨e, rfl, rfl⟩ | ⟨x, y, rfl, rfl, h⟩
  · rfl
  · cases h.cases <;> rfl

theorem neInt_alike (h : PyAlike H1 a H2 b) (n : Int) : neInt a n = neInt b n := by
  unfold neInt; rw [eqInt_alike h]

theorem geInt_alike (h : PyAlike H1 a H2 b) (n : Int) : geInt a n = geInt b n := by
  rcases h with ⟨e, rfl, rfl⟩ | ⟨x, y, rfl, rfl, h⟩
  · rfl
  · cases h.cases <;> rfl

theorem version_alike (h : PyAlike H1 a H2 b) : version a = version b := by
  rcases h with ⟨e, rfl, rfl⟩ | ⟨x, y, rfl, rfl, h⟩
  · rfl
  · cases h.cases <;> rfl

theorem when_nil {x y : Py Bytes} (h : x = y) : W.when [] x = W.when [] y := by rw [h]

theorem when_cons {c d : Py Bool} {cs ds : List (Py Bool)} {x y : Py Bytes} (h : c = d) (hs : W.when cs x = W.when ds y) :
    W.when (c :: cs) x = W.when (d :: ds) y := by
  subst h
  unfold W.when
  cases c with
  | error e => rfl
  | ok b =>
    cases b with
    | false => rfl
    | true => exact hs

theorem ifNotNone_alike (h : PyAlike H1 a H2 b) {x y : Py Bytes} (hx : x = y) : ifNotNone a x = ifNotNone b y := by
  subst hx
  rcases h with ⟨e, rfl, rfl⟩ | ⟨x, y, rfl, rfl, h⟩
  · rfl
  · cases h.cases <;> rfl

theorem intToBytes_alike (h : Alike H1 v H2 w) (k : Nat) (s : Bool) : intToBytes H1 v k s = intToBytes H2 w k s := by
  cases h.cases with
  | @ref p q hc =>
    simp only [intToBytes, cell]
    generalize H1[p]? = c1 at hc ⊢
    generalize H2[q]? = c2 at hc ⊢
    cases hc <;> rfl
  | _ => rfl

theorem int8_alike (h : PyAlike H1 a H2 b) : int8 H1 a = int8 H2 b := by
  rcases h with ⟨e, rfl, rfl⟩ | ⟨x, y, rfl, rfl, h⟩
  · rfl
  · exact intToBytes_alike h _ _

theorem int16_alike (h : PyAlike H1 a H2 b) (s : Bool) : int16 H1 a s = int16 H2 b s := by
  rcases h with ⟨e, rfl, rfl⟩ | ⟨x, y, rfl, rfl, h⟩
  · rfl
  · exact intToBytes_alike h _ _

theorem int16If_alike (h : PyAlike H1 a H2 b) (s : Bool) : int16If H1 a s = int16If H2 b s := by
  rcases h with ⟨e, rfl, rfl⟩ | ⟨x, y, rfl, rfl, h⟩
  · rfl
  · simp only [int16If, bind, Except.bind, intToBytes_alike h]

theorem int32_alike (h : PyAlike H1 a H2 b) (s : Bool) : int32 H1 a s = int32 H2 b s := by
  rcases h with ⟨e, rfl, rfl⟩ | ⟨x, y, rfl, rfl, h⟩
  · rfl
  · exact intToBytes_alike h _ _

theorem float_alike (h : PyAlike H1 a H2 b) : float a = float b := by
  rcases h with ⟨e, rfl, rfl⟩ | ⟨x, y, rfl, rfl, h⟩
  · rfl
  · cases h.cases <;> rfl

theorem debugString_alike (h : PyAlike H1 a H2 b) : debugString a = debugString b := by
  rcases h with ⟨e, rfl, rfl⟩ | ⟨x, y, rfl, rfl, h⟩
  · rfl
  · cases h.cases <;> rfl

theorem string_alike (h : PyAlike H1 a H2 b) (n : Nat) : string n a = string n b := by
  rcases h with ⟨e, rfl, rfl⟩ | ⟨x, y, rfl, rfl, h⟩
  · rfl
  · cases h.cases <;> rfl

/-! ## sequences -/

theorem map_alike {α : Type} {f g : HVal → α} (hf : ∀ x y, Alike H1 x H2 y → f x = g y) : ∀ {xs ys : List HVal}, xs.length = ys.length →
    (∀ (i : Nat) (x y : HVal), xs[i]? = some x → ys[i]? = some y → Alike H1 x H2 y) → xs.map f = ys.map g
  | [], [], _, _ => rfl
  | x :: xs, y :: ys, hl, h => by
    rw [List.map_cons, List.map_cons, hf x y (h 0 x y rfl rfl),
      map_alike hf (Nat.succ.inj hl) fun i a b ha hb => h (i + 1) a b (by simpa using ha) (by simpa using hb)]
  | [], _ :: _, hl, _ => nomatch hl
  | _ :: _, [], hl, _ => nomatch hl

theorem filter_alike {α : Type} {f g : HVal → α} (hf : ∀ x y, Alike H1 x H2 y → f x = g y) : ∀ {xs ys : List HVal}, xs.length = ys.length →
    (∀ (i : Nat) (x y : HVal), xs[i]? = some x → ys[i]? = some y → Alike H1 x H2 y) →
    (xs.filter (fun v => decide (v ≠ .none))).map f = (ys.filter (fun v => decide (v ≠ .none))).map g
  | [], [], _, _ => rfl
  | x :: xs, y :: ys, hl, h => by
    have ih := filter_alike hf (Nat.succ.inj hl) fun i a b ha hb => h (i + 1) a b (by simpa using ha) (by simpa using hb)
    have h0 := h 0 x y rfl rfl
    have e : x = .none ↔ y = .none := by
      cases h0.cases <;> simp
    by_cases hx : x = .none
    · have hy := e.1 hx
      subst hx hy
      exact ih
    · have hy : ¬ y = .none := fun hy => hx (e.2 hy)
      rw [List.filter_cons_of_pos (by simpa using hx), List.filter_cons_of_pos (by simpa using hy), List.map_cons, List.map_cons, hf x y h0, ih]
  | [], _ :: _, hl, _ => nomatch hl
  | _ :: _, [], hl, _ => nomatch hl

theorem array_alike {f g : Py HVal → Py Bytes} (hf : ∀ x y, Alike H1 x H2 y → f (.ok x) = g (.ok y)) (h : PyAlike H1 a H2 b) :
    array H1 f a = array H2 g b := by
  unfold array
  rcases iter_alike h with ⟨e, e1, e2⟩ | ⟨xs, ys, e1, e2, hl, hi⟩
  · rw [e1, e2]; rfl
  · rw [e1, e2]
    exact congrArg joinB (map_alike hf hl hi)

theorem _root_.Genie.PyAlike.ok (h : Alike H1 v H2 w) : PyAlike H1 (.ok v) H2 (.ok w) := .inr ⟨_, _, rfl, rfl, h⟩

theorem int8Array_alike (h : PyAlike H1 a H2 b) : int8Array H1 a = int8Array H2 b := array_alike (fun _ _ h => int8_alike (.ok h)) h
theorem int16Array_alike (h : PyAlike H1 a H2 b) : int16Array H1 a = int16Array H2 b := array_alike (fun _ _ h => int16_alike (.ok h) _) h
theorem int32Array_alike (h : PyAlike H1 a H2 b) : int32Array H1 a = int32Array H2 b := array_alike (fun _ _ h => int32_alike (.ok h) _) h
theorem floatArray_alike (h : PyAlike H1 a H2 b) : floatArray H1 a = floatArray H2 b := array_alike (fun _ _ h => float_alike (.ok h)) h

theorem pointers_alike (h : PyAlike H1 a H2 b) : pointers H1 a = pointers H2 b := by
  unfold pointers
  rcases iter_alike h with ⟨e, e1, e2⟩ | ⟨xs, ys, e1, e2, hl, hi⟩
  · rw [e1, e2]; rfl
  · rw [e1, e2]
    refine congrArg joinB ?_
    rw [List.map_map, List.map_map]
    refine map_alike (fun x y h => ?_) hl hi
    cases h.cases <;> exact int32_alike (.ok (.const (by simp))) _

variable {r1 r2 : Rec}

theorem cls_alike (hr : ∀ x y ver, Alike H1 x H2 y → r1 x ver = r2 y ver) (h : PyAlike H1 a H2 b) (ver : Version) :
    cls r1 a ver = cls r2 b ver := by
  rcases h with ⟨e, rfl, rfl⟩ | ⟨x, y, rfl, rfl, h⟩
  · rfl
  · exact hr _ _ _ h

theorem classArray_alike (hr : ∀ x y ver, Alike H1 x H2 y → r1 x ver = r2 y ver) (h : PyAlike H1 a H2 b) (ver : Version) :
    classArray H1 r1 a ver = classArray H2 r2 b ver := by
  unfold classArray
  rcases iter_alike h with ⟨e, e1, e2⟩ | ⟨xs, ys, e1, e2, hl, hi⟩
  · rw [e1, e2]; rfl
  · rw [e1, e2]
    exact congrArg joinB (filter_alike (fun x y h => hr x y ver h) hl hi)

/-! ## `struct.pack` -/

/-- Argument by argument. -/
inductive ArgsAlike (H1 H2 : Heap) : List (Py (List HVal)) → List (Py (List HVal)) → Prop
  | nil : ArgsAlike H1 H2 [] []
  | cons {a b : Py (List HVal)} {as bs : List (Py (List HVal))} : ListAlike H1 a H2 b → ArgsAlike H1 H2 as bs → ArgsAlike H1 H2 (a :: as) (b :: bs)

theorem arg_alike (h : PyAlike H1 a H2 b) : ListAlike H1 (arg a) H2 (arg b) := by
  rcases h with ⟨e, rfl, rfl⟩ | ⟨x, y, rfl, rfl, h⟩
  · exact .inl ⟨_, rfl, rfl⟩
  · refine .inr ⟨_, _, rfl, rfl, rfl, fun i x' y' hx hy => ?_⟩
    cases i with
    | zero => cases hx; cases hy; exact h
    | succ i => cases hx

theorem args_alike {as bs : List (Py (List HVal))} (h : ArgsAlike H1 H2 as bs) : ListAlike H1 (args as) H2 (args bs) := by
  induction h with
  | nil => exact .inr ⟨[], [], rfl, rfl, rfl, fun i x y hx => by cases hx⟩
  | cons h _ ih =>
    unfold args
    rcases h with ⟨e, rfl, rfl⟩ | ⟨xs, ys, rfl, rfl, hl, hi⟩
    · exact .inl ⟨_, rfl, rfl⟩
    · rcases ih with ⟨e, e1, e2⟩ | ⟨us, vs, e1, e2, kl, ki⟩
      · rw [e1, e2]; exact .inl ⟨_, rfl, rfl⟩
      · rw [e1, e2]
        refine .inr ⟨xs ++ us, ys ++ vs, rfl, rfl, by simp [hl, kl], fun i x y hx hy => ?_⟩
        by_cases hi' : i < xs.length
        · rw [List.getElem?_append_left hi'] at hx
          rw [List.getElem?_append_left (by omega)] at hy
          exact hi i x y hx hy
        · rw [List.getElem?_append_right (by omega)] at hx
          rw [List.getElem?_append_right (by omega), ← hl] at hy
          exact ki _ x y hx hy

theorem packCodes_alike : ∀ (cs : List Code) {xs ys : List HVal}, xs.length = ys.length →
    (∀ (i : Nat) (x y : HVal), xs[i]? = some x → ys[i]? = some y → Alike H1 x H2 y) → packCodes cs xs = packCodes cs ys
  | [], [], [], _, _ => rfl
  | [], _ :: _, _ :: _, _, _ => rfl
  | _ :: _, [], [], _, _ => rfl
  | c :: cs, x :: xs, y :: ys, hl, h => by
    have e : packCode c x = packCode c y := by
      cases (h 0 x y rfl rfl).cases <;> rfl
    unfold packCodes
    rw [e, packCodes_alike cs (Nat.succ.inj hl) fun i a b ha hb => h (i + 1) a b (by simpa using ha) (by simpa using hb)]
  | _, [], _ :: _, hl, _ => nomatch hl
  | _, _ :: _, [], hl, _ => nomatch hl

theorem pack_alike (fmt : String) {as bs : List (Py (List HVal))} (h : ArgsAlike H1 H2 as bs) : pack fmt as = pack fmt bs := by
  unfold pack
  rcases args_alike h with ⟨e, e1, e2⟩ | ⟨xs, ys, e1, e2, hl, hi⟩
  · rw [e1, e2]
  · rw [e1, e2]
    simp only [bind, Except.bind]
    cases parseFmt fmt with
    | none => rfl
    | some cs => dsimp only; rw [hl, packCodes_alike cs hl hi]

/-! ## gluing -/

theorem joinB_alike {x y : Py Bytes} {xs ys : List (Py Bytes)} (h : x = y) (hs : joinB xs = joinB ys) : joinB (x :: xs) = joinB (y :: ys) := by
  subst h
  rw [joinB.eq_def, joinB.eq_def]
  dsimp only
  rw [hs]

theorem bind_alike {β : Type} {f g : HVal → Py β} (h : PyAlike H1 a H2 b) (hf : ∀ x y, Alike H1 x H2 y → f x = g y) : (a >>= f) = (b >>= g) := by
  rcases h with ⟨e, rfl, rfl⟩ | ⟨x, y, rfl, rfl, h⟩
  · rfl
  · exact hf _ _ h

theorem bind_same {α β : Type} {x y : Py α} {f g : α → Py β} (h : x = y) (hf : ∀ u, f u = g u) : (x >>= f) = (y >>= g) := by
  subst h
  cases x with
  | error e => rfl
  | ok u => exact hf u

theorem ite_alike {p : Prop} [Decidable p] {c d : Py HVal} (h : PyAlike H1 a H2 b) (h' : PyAlike H1 c H2 d) :
    PyAlike H1 (if p then a else c) H2 (if p then b else d) := by
  by_cases hp : p
  · rw [if_pos hp, if_pos hp]; exact h
  · rw [if_neg hp, if_neg hp]; exact h'

theorem ite_same {α : Type} {p : Prop} [Decidable p] {x y x' y' : α} (h : x = y) (h' : x' = y') :
    (if p then x else x') = (if p then y else y') := by rw [h, h']

theorem lit_alike (i : Int) : PyAlike H1 (.ok (.int i)) H2 (.ok (.int i)) := .inr ⟨_, _, rfl, rfl, .const (fun a => HVal.noConfusion)⟩

end W
end Genie
