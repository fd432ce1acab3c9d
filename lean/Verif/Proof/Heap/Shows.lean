import Verif.Proof.Heap.Rep
import Verif.Spec.Converts
import Verif.Spec.ObjectTrees
import Verif.Model.HeapWriters
/-! # What the writers see -/

namespace Genie
open W

mutual
/-- Unfolding `v` gives `t`, up to `int`s standing for floats and additional attributes; sharing does not matter. -/
inductive Shows (H : Heap) : HVal → ObjTree → Prop
  | none : Shows H .none .none
  | int (i : Int) : Shows H (.int i) (.int i)
  | float (x : PyFloat) : Shows H (.float x) (.float x)
  | str (s : PyStr) : Shows H (.str s) (.str s)
  | promote {i : Int} {d : Nat} : F.ofInt i = some d → Shows H (.int i) (.float ⟨BitVec.ofNat 64 d⟩)
  | list {a : Nat} {vs : List HVal} {ts : List ObjTree} : H[a]? = some (.list vs) → ShowsItems H vs ts → Shows H (.ref a) (.list ts)
  | tuple {a : Nat} {vs : List HVal} {ts : List ObjTree} : H[a]? = some (.tuple vs) → ShowsItems H vs ts → Shows H (.ref a) (.tuple ts)
  | obj {a : Nat} {c : PyStr} {vs : List (PyStr × HVal)} {ts : List (PyStr × ObjTree)} :
      H[a]? = some (.record c vs) → ShowsAttrs H vs ts → Shows H (.ref a) (.obj c ts)
inductive ShowsItems (H : Heap) : List HVal → List ObjTree → Prop
  | nil : ShowsItems H [] []
  | cons {v : HVal} {t : ObjTree} {vs : List HVal} {ts : List ObjTree} : Shows H v t → ShowsItems H vs ts → ShowsItems H (v :: vs) (t :: ts)
inductive ShowsAttrs (H : Heap) : List (PyStr × HVal) → List (PyStr × ObjTree) → Prop
  | nil {vs : List (PyStr × HVal)} : ShowsAttrs H vs []
  | cons {n : PyStr} {v : HVal} {t : ObjTree} {vs : List (PyStr × HVal)} {ts : List (PyStr × ObjTree)} :
      Shows H v t → ShowsAttrs H vs ts → ShowsAttrs H ((n, v) :: vs) ((n, t) :: ts)
end

mutual
theorem Rep.shows {H : Heap} : ∀ {v t fp u}, Rep H v t fp → Carries t u → Shows H v u
  | _, _, _, _, .none, .none => .none
  | _, _, _, _, .int _, .int _ => .int _
  | _, _, _, _, .int _, .promote h => .promote h
  | _, _, _, _, .float _, .float _ => .float _
  | _, _, _, _, .str _, .str _ => .str _
  | _, _, _, _, .list h r, .list c => .list h (r.shows c)
  | _, _, _, _, .tuple h r, .tuple c => .tuple h (r.shows c)
  | _, _, _, _, .obj h r, .obj c => .obj h (r.shows c)
theorem RepItems.shows {H : Heap} : ∀ {v t fp u}, RepItems H v t fp → CarriesItems t u → ShowsItems H v u
  | _, _, _, _, .nil, .nil => .nil
  | _, _, _, _, .cons r rs, .cons c cs => .cons (r.shows c) (rs.shows cs)
theorem RepAttrs.shows {H : Heap} : ∀ {v t fp u}, RepAttrs H v t fp → CarriesAttrs t u → ShowsAttrs H v u
  | _, _, _, _, _, .extra => .nil
  | _, _, _, _, .cons r rs, .cons c cs => .cons (r.shows c) (rs.shows cs)
end

mutual
theorem Converts.carries : ∀ {t u}, Converts t u → Carries t u
  | _, _, .none => .none
  | _, _, .int _ => .int _
  | _, _, .float _ => .float _
  | _, _, .str _ => .str _
  | _, _, .promote h => .promote h
  | _, _, .list c => .list c.carries
  | _, _, .tuple c => .tuple c.carries
  | _, _, .obj c => .obj c.carries
theorem ConvertsItems.carries : ∀ {t u}, ConvertsItems t u → CarriesItems t u
  | _, _, .nil => .nil
  | _, _, .cons c cs => .cons c.carries cs.carries
theorem ConvertsAttrs.carries : ∀ {t u}, ConvertsAttrs t u → CarriesAttrs t u
  | _, _, .nil => .extra
  | _, _, .cons c cs => .cons c.carries cs.carries
end

mutual
theorem Converts.refl : ∀ t : ObjTree, Converts t t
  | .none => .none
  | .int _ => .int _
  | .float _ => .float _
  | .str _ => .str _
  | .list ts => .list (ConvertsItems.refl ts)
  | .tuple ts => .tuple (ConvertsItems.refl ts)
  | .obj _ ts => .obj (ConvertsAttrs.refl ts)
theorem ConvertsItems.refl : ∀ ts : List ObjTree, ConvertsItems ts ts
  | [] => .nil
  | t :: ts => .cons (Converts.refl t) (ConvertsItems.refl ts)
theorem ConvertsAttrs.refl : ∀ ts : List (PyStr × ObjTree), ConvertsAttrs ts ts
  | [] => .nil
  | (_, t) :: ts => .cons (Converts.refl t) (ConvertsAttrs.refl ts)
end

theorem Carries.refl (t : ObjTree) : Carries t t := (Converts.refl t).carries

/-! ## expressions -/

/-- The expression evaluates to something that shows `t`. -/
def Ev (H : Heap) (a : Py HVal) (t : ObjTree) : Prop := ∃ v, a = .ok v ∧ Shows H v t

theorem Ev.ok {H : Heap} {v : HVal} {t : ObjTree} (h : Shows H v t) : Ev H (.ok v) t := ⟨v, rfl, h⟩

theorem ShowsAttrs.lookup {H : Heap} {n : PyStr} {t : ObjTree} : ∀ {vs ts}, ShowsAttrs H vs ts → ObjTree.attrOf n ts = some t →
    ∃ v, HReader.lookup n vs = some v ∧ Shows H v t
  | _, _, .nil, h => by simp [ObjTree.attrOf] at h
  | _, _, .cons (n := m) s ss, h => by
    unfold ObjTree.attrOf at h
    unfold HReader.lookup
    split at h
    · next e => cases h; rw [if_pos e]; exact ⟨_, rfl, s⟩
    · next e => rw [if_neg e]; exact ss.lookup h

theorem Shows.attr {H : Heap} {o : HVal} {c n : PyStr} {ts : List (PyStr × ObjTree)} {t : ObjTree} (h : Shows H o (.obj c ts))
    (e : ObjTree.attrOf n ts = some t) : Ev H (W.attr H o n) t := by
  cases h with
  | obj hc ha =>
    obtain ⟨v, hl, hs⟩ := ha.lookup e
    exact ⟨v, by simp [W.attr, W.cell, hc, hl], hs⟩

theorem Ev.attr {H : Heap} {a : Py HVal} {c n : PyStr} {ts : List (PyStr × ObjTree)} {t : ObjTree} (h : Ev H a (.obj c ts))
    (e : ObjTree.attrOf n ts = some t) : Ev H (W.attrOf H a n) t := by
  obtain ⟨v, rfl, hs⟩ := h
  exact hs.attr e

theorem Shows.int_inv {H : Heap} {v : HVal} {i : Int} (h : Shows H v (.int i)) : v = .int i := by cases h; rfl

theorem Shows.str_inv {H : Heap} {v : HVal} {s : PyStr} (h : Shows H v (.str s)) : v = .str s := by cases h; rfl

theorem Shows.none_inv {H : Heap} {v : HVal} (h : Shows H v .none) : v = .none := by cases h; rfl

theorem Shows.ne_none {H : Heap} {v : HVal} {t : ObjTree} (h : Shows H v t) (ht : t ≠ .none) : v ≠ .none := by
  intro e; subst e; cases h; exact ht rfl

theorem Ev.int {H : Heap} {a : Py HVal} {i : Int} (h : Ev H a (.int i)) : a = .ok (.int i) := by
  obtain ⟨v, rfl, hs⟩ := h; rw [hs.int_inv]

theorem Ev.str {H : Heap} {a : Py HVal} {s : PyStr} (h : Ev H a (.str s)) : a = .ok (.str s) := by
  obtain ⟨v, rfl, hs⟩ := h; rw [hs.str_inv]

/-! ## items -/

theorem W.int8_eq {H : Heap} {a : Py HVal} {i : Int} (h : Ev H a (.int i)) : W.int8 H a = writeInt8 i := by rw [h.int]; rfl
theorem W.int16_eq {H : Heap} {a : Py HVal} {i : Int} (h : Ev H a (.int i)) {b : Bool} : W.int16 H a b = writeInt16 i b := by rw [h.int]; rfl
theorem W.int16If_eq {H : Heap} {a : Py HVal} {i : Int} (h : Ev H a (.int i)) {b : Bool} : W.int16If H a b = writeInt16If i b := by
  rw [h.int]; rfl
theorem W.int32_eq {H : Heap} {a : Py HVal} {i : Int} (h : Ev H a (.int i)) {b : Bool} : W.int32 H a b = writeInt32 i b := by rw [h.int]; rfl
theorem W.float_eq {H : Heap} {a : Py HVal} {x : PyFloat} (h : Ev H a (.float x)) : W.float a = writeFloat x := by
  obtain ⟨v, rfl, hs⟩ := h
  cases hs with
  | float => rfl
  | promote hp => simp [W.float, W.packNative, hp, writeFloat, Float_to_bytes, bind, Except.bind]
theorem W.debugString_eq {H : Heap} {a : Py HVal} {s : PyStr} (h : Ev H a (.str s)) : W.debugString a = writeDebugString s := by
  rw [h.str]
  unfold W.debugString writeDebugString
  simp only [bind, Except.bind, W.encode]
  cases strEncode s <;> rfl
theorem W.string_eq {H : Heap} {a : Py HVal} {s : PyStr} {n : Nat} (h : Ev H a (.str s)) : W.string n a = writeString n s := by
  rw [h.str]
  unfold W.string writeString String_to_bytes
  simp only [bind, Except.bind, W.encode, pure, Except.pure]
  cases strEncode s <;> rfl

/-- The expression evaluates to a list or tuple whose elements show `ts`. -/
def EvSeq (H : Heap) (a : Py HVal) (ts : List ObjTree) : Prop :=
  ∃ vs, W.iter H a = .ok vs ∧ W.len H a = .ok vs.length ∧ ShowsItems H vs ts ∧
    (∀ i, W.item H a i = match vs[i]? with | some v => .ok v | none => .error .indexError)

theorem Ev.list {H : Heap} {a : Py HVal} {ts : List ObjTree} (h : Ev H a (.list ts)) : EvSeq H a ts := by
  obtain ⟨v, rfl, hs⟩ := h
  cases hs with
  | list hc hi => exact ⟨_, by simp [W.iter, bind, Except.bind, W.cell, hc], by simp [W.len, bind, Except.bind, W.cell, hc], hi,
      fun i => by simp [W.item, bind, Except.bind, W.cell, hc]; rfl⟩

theorem Ev.tuple {H : Heap} {a : Py HVal} {ts : List ObjTree} (h : Ev H a (.tuple ts)) : EvSeq H a ts := by
  obtain ⟨v, rfl, hs⟩ := h
  cases hs with
  | tuple hc hi => exact ⟨_, by simp [W.iter, bind, Except.bind, W.cell, hc], by simp [W.len, bind, Except.bind, W.cell, hc], hi,
      fun i => by simp [W.item, bind, Except.bind, W.cell, hc]; rfl⟩

theorem ShowsItems.length {H : Heap} : ∀ {vs ts}, ShowsItems H vs ts → vs.length = ts.length
  | _, _, .nil => rfl
  | _, _, .cons _ ss => by simp [ss.length]

theorem EvSeq.len {H : Heap} {a : Py HVal} {ts : List ObjTree} (h : EvSeq H a ts) : W.len H a = .ok ts.length := by
  obtain ⟨vs, _, h2, h3, _⟩ := h
  rw [h2, h3.length]

theorem EvSeq.nat {H : Heap} {a : Py HVal} {f : α → ObjTree} {l : List α} (h : EvSeq H a (l.map f)) :
    Ev H (W.nat (W.len H a)) (.int l.length) := by
  rw [h.len]
  exact ⟨_, rfl, by simpa using Shows.int _⟩

theorem EvSeq.array {H : Heap} {a : Py HVal} {f : α → ObjTree} {l : List α} {w : Py HVal → Py Bytes} {w' : α → Py Bytes}
    (h : EvSeq H a (l.map f)) (hw : ∀ v x, Shows H v (f x) → w (.ok v) = w' x) : W.array H w a = joinB (l.map w') := by
  obtain ⟨vs, h1, h2, h3, h4⟩ := h
  unfold W.array
  rw [h1]
  change joinB _ = _
  congr 1
  clear h1 h2 h4
  induction l generalizing vs with
  | nil => cases h3; rfl
  | cons x l ih => cases h3 with | cons s ss => simp only [List.map_cons]; rw [hw _ _ s, ih _ ss]

theorem W.int8Array_eq {H : Heap} {a : Py HVal} {l : List Int} (h : EvSeq H a (l.map .int)) : W.int8Array H a = writeInt8Array l :=
  h.array fun _ _ s => W.int8_eq (.ok s)
theorem W.int16Array_eq {H : Heap} {a : Py HVal} {l : List Int} (h : EvSeq H a (l.map .int)) : W.int16Array H a = writeInt16Array l :=
  h.array fun _ _ s => W.int16_eq (.ok s)
theorem W.int32Array_eq {H : Heap} {a : Py HVal} {l : List Int} (h : EvSeq H a (l.map .int)) : W.int32Array H a = writeInt32Array l :=
  h.array fun _ _ s => W.int32_eq (.ok s)
theorem W.floatArray_eq {H : Heap} {a : Py HVal} {l : List PyFloat} (h : EvSeq H a (l.map .float)) : W.floatArray H a = writeFloatArray l :=
  h.array fun _ _ s => W.float_eq (.ok s)

/-- `rec` writes instances of a class as the value model does. -/
def HWrites (H : Heap) (rec : Rec) (ver : Version) (f : α → ObjTree) (toB : Version → α → Py Bytes) : Prop :=
  ∀ x v, Shows H v (f x) → rec v ver = toB ver x

theorem W.cls_eq {H : Heap} {rec : Rec} {ver : Version} {a : Py HVal} {f : α → ObjTree} {toB : Version → α → Py Bytes} {x : α}
    (h : Ev H a (f x)) (hw : ∀ v, Shows H v (f x) → rec v ver = toB ver x) : W.cls rec a ver = writeClass toB x ver := by
  obtain ⟨v, rfl, hs⟩ := h
  exact hw v hs

theorem W.classArray_eq {H : Heap} {rec : Rec} {ver : Version} {a : Py HVal} {f : α → ObjTree} {toB : Version → α → Py Bytes} {l : List α}
    (h : EvSeq H a (l.map f)) (hn : ∀ x, f x ≠ .none) (hw : ∀ x ∈ l, ∀ v, Shows H v (f x) → rec v ver = toB ver x) :
    W.classArray H rec a ver = writeClassArray toB l ver := by
  obtain ⟨vs, h1, h2, h3, h4⟩ := h
  unfold W.classArray writeClassArray
  rw [h1]
  change joinB _ = _
  congr 1
  clear h1 h2 h4
  induction l generalizing vs with
  | nil => cases h3; rfl
  | cons x l ih =>
    cases h3 with
    | cons s ss =>
      rw [List.filter_cons_of_pos (by simpa using s.ne_none (hn x))]
      simp only [List.map_cons]
      rw [hw x (List.mem_cons_self) _ s, ih (fun y hy => hw y (List.mem_cons_of_mem _ hy)) _ ss]
      rfl

theorem W.classArrayOpt_eq {H : Heap} {rec : Rec} {ver : Version} {a : Py HVal} {f : α → ObjTree} {toB : Version → α → Py Bytes}
    {l : List (Option α)} (h : EvSeq H a (l.map (optObj f))) (hn : ∀ x, f x ≠ .none)
    (hw : ∀ x, some x ∈ l → ∀ v, Shows H v (f x) → rec v ver = toB ver x) : W.classArray H rec a ver = writeClassArrayOpt toB l ver := by
  obtain ⟨vs, h1, h2, h3, h4⟩ := h
  unfold W.classArray writeClassArrayOpt
  rw [h1]
  change joinB _ = _
  congr 1
  clear h1 h2 h4
  induction l generalizing vs with
  | nil => cases h3; rfl
  | cons x l ih =>
    cases h3 with
    | cons s ss =>
      have ih := ih (fun y hy => hw y (List.mem_cons_of_mem _ hy)) _ ss
      cases x with
      | none =>
        have := s.none_inv
        subst this
        rw [List.filter_cons_of_neg (by simp), ih]; rfl
      | some y =>
        rw [List.filter_cons_of_pos (by simpa using s.ne_none (hn y))]
        simp only [List.map_cons]
        rw [hw y (List.mem_cons_self) _ s, ih]
        rfl

theorem W.pointers_eq {H : Heap} {a : Py HVal} {f : α → ObjTree} {l : List (Option α)} (h : EvSeq H a (l.map (optObj f)))
    (hn : ∀ x, f x ≠ .none) : W.pointers H a = writeInt32Array (l.map fun g => match g with | none => 0 | some _ => 1) := by
  obtain ⟨vs, h1, h2, h3, h4⟩ := h
  unfold W.pointers writeInt32Array
  rw [h1]
  change joinB _ = _
  congr 1
  clear h1 h2 h4
  induction l generalizing vs with
  | nil => cases h3; rfl
  | cons x l ih =>
    cases h3 with
    | cons s ss =>
      have ih := ih _ ss
      simp only [List.map_cons]
      rw [ih]
      cases x with
      | none => have := s.none_inv; subst this; rfl
      | some y => rw [if_neg (s.ne_none (hn y))]; rfl

theorem parts_cons {a b : Py Bytes} {as bs : List (Py Bytes)} (h : a = b) (hs : as = bs) : a :: as = b :: bs := by rw [h, hs]

/-! ## `struct.pack` -/

/-- The arguments evaluate to the numbers `vs` (an `int` may stand for a float, at a code `f`). -/
inductive Packs (H : Heap) : List Code → List (Py (List HVal)) → List Val → Prop
  | nil : Packs H [] [] []
  | done {cs as vs} : Packs H cs as vs → Packs H cs (.ok [] :: as) vs
  | int {c cs a i hs as vs} : a = .ok (.int i :: hs) → Packs H cs (.ok hs :: as) vs → Packs H (c :: cs) (a :: as) (.int i :: vs)
  | float {cs a v x hs as vs} : a = .ok (v :: hs) → Shows H v (.float x) → Packs H cs (.ok hs :: as) vs →
      Packs H (.f :: cs) (a :: as) (.float x :: vs)

theorem Packs.run {H : Heap} {cs : List Code} {as : List (Py (List HVal))} {vs : List Val} (h : Packs H cs as vs) :
    ∃ hs, W.args as = .ok hs ∧ hs.length = cs.length ∧ vs.length = cs.length ∧ W.packCodes cs hs = packCodes cs vs := by
  induction h with
  | nil => exact ⟨[], rfl, rfl, rfl, rfl⟩
  | done _ ih =>
    obtain ⟨hs, h1, h2⟩ := ih
    refine ⟨hs, ?_, h2⟩
    simp [W.args, bind, Except.bind, h1, pure, Except.pure]
  | @int c cs a i hs as vs e _ ih =>
    obtain ⟨ws, h1, h2, h3, h4⟩ := ih
    subst e
    refine ⟨.int i :: ws, ?_, by simp [h2], by simp [h3], ?_⟩
    · simp only [W.args, bind, Except.bind, pure, Except.pure] at h1 ⊢
      split at h1
      · cases h1
      · cases h1; rfl
    · simp only [W.packCodes, packCodes, W.packCode, h4]
      cases packCode c (.int i) <;> cases packCodes cs vs <;> rfl
  | @float cs a v x hs as vs e s _ ih =>
    obtain ⟨ws, h1, h2, h3, h4⟩ := ih
    subst e
    refine ⟨v :: ws, ?_, by simp [h2], by simp [h3], ?_⟩
    · simp only [W.args, bind, Except.bind, pure, Except.pure] at h1 ⊢
      split at h1
      · cases h1
      · cases h1; rfl
    · have e : W.packCode .f v = packCode .f (.float x) := by
        cases s with
        | float => rfl
        | @promote i d hp =>
          have hd : d < 2 ^ 64 := by
            unfold F.ofInt at hp
            split at hp
            · cases hp
            · next hlt =>
              cases hp
              split <;> omega
          simp only [W.packCode, packCode, hp, BitVec.toNat_ofNat, Nat.mod_eq_of_lt hd]
      simp only [W.packCodes, packCodes, e, h4]
      cases packCode .f (.float x) <;> cases packCodes cs vs <;> rfl

theorem W.pack_eq {H : Heap} {fmt : String} {cs : List Code} {as : List (Py (List HVal))} {vs : List Val} (hp : parseFmt fmt = some cs)
    (h : Packs H cs as vs) : W.pack fmt as = structPack fmt vs := by
  obtain ⟨hs, h1, h2, h3, h4⟩ := h.run
  simp only [W.pack, h1, hp, structPack, bind, Except.bind]
  rw [if_pos h2.symm, if_pos h3.symm, h4]

theorem Packs.argInt {H : Heap} {c : Code} {cs : List Code} {a : Py HVal} {i : Int} {as : List (Py (List HVal))} {vs : List Val}
    (h : Ev H a (.int i)) (r : Packs H cs as vs) : Packs H (c :: cs) (W.arg a :: as) (.int i :: vs) := by
  rw [h.int]
  exact .int rfl (.done r)

theorem Packs.argFloat {H : Heap} {cs : List Code} {a : Py HVal} {x : PyFloat} {as : List (Py (List HVal))} {vs : List Val}
    (h : Ev H a (.float x)) (r : Packs H cs as vs) : Packs H (.f :: cs) (W.arg a :: as) (.float x :: vs) := by
  obtain ⟨v, rfl, s⟩ := h
  exact .float rfl s (.done r)

/-- `*o` with `int`s. -/
theorem Packs.starInt {H : Heap} {cs1 cs : List Code} {a : Py HVal} {l : List Int} {as : List (Py (List HVal))} {vs : List Val}
    (h : EvSeq H a (l.map .int)) (hl : cs1.length = l.length) (r : Packs H cs as vs) :
    Packs H (cs1 ++ cs) (W.iter H a :: as) (l.map Val.int ++ vs) := by
  obtain ⟨ws, h1, h2, h3, h4⟩ := h
  rw [h1]
  clear h1 h2 h4
  induction l generalizing ws cs1 with
  | nil =>
    cases h3
    cases cs1 with
    | nil => exact .done r
    | cons _ _ => simp at hl
  | cons x l ih =>
    cases cs1 with
    | nil => simp at hl
    | cons c cs1 =>
      cases h3 with
      | cons s ss =>
        have := s.int_inv
        subst this
        exact .int rfl (ih (by simpa using hl) _ ss)

/-- `*o` with floats, at codes `f`. -/
theorem Packs.starFloat {H : Heap} {n : Nat} {cs : List Code} {a : Py HVal} {l : List PyFloat} {as : List (Py (List HVal))} {vs : List Val}
    (h : EvSeq H a (l.map .float)) (hl : n = l.length) (r : Packs H cs as vs) :
    Packs H (List.replicate n .f ++ cs) (W.iter H a :: as) (l.map Val.float ++ vs) := by
  obtain ⟨ws, h1, h2, h3, h4⟩ := h
  rw [h1]
  clear h1 h2 h4
  subst hl
  induction l generalizing ws with
  | nil => cases h3; exact .done r
  | cons x l ih =>
    cases h3 with
    | cons s ss => exact .float rfl s (ih _ ss)

/-! ## attributes by position -/

/-- Any function of names will do that tells the fields of a class apart. -/
def PyStr.hash (s : PyStr) : Nat := s.foldl (fun h c => h * 131 + c) 7

def ObjTree.attrsOf : ObjTree → List (PyStr × ObjTree)
  | .obj _ ts => ts
  | _ => []

theorem attrOf_index {n : PyStr} {t : ObjTree} : ∀ {ts : List (PyStr × ObjTree)} {i : Nat}, (ts.map fun p => PyStr.hash p.1).Nodup →
    ts[i]? = some (n, t) → ObjTree.attrOf n ts = some t
  | [], _, _, h => by simp at h
  | (m, u) :: ts, 0, nd, h => by
    simp at h
    obtain ⟨rfl, rfl⟩ := h
    simp [ObjTree.attrOf]
  | (m, u) :: ts, i + 1, nd, h => by
    simp at h
    rw [List.map_cons, List.nodup_cons] at nd
    unfold ObjTree.attrOf
    rw [if_neg, attrOf_index nd.2 h]
    rintro rfl
    exact nd.1 (List.mem_map.mpr ⟨(m, t), List.mem_of_getElem? h, rfl⟩)

theorem Shows.at {H : Heap} {o : HVal} {u t : ObjTree} {n : PyStr} (h : Shows H o u) (nd : (u.attrsOf.map fun p => PyStr.hash p.1).Nodup)
    (i : Nat) (e : u.attrsOf[i]? = some (n, t)) : Ev H (W.attr H o n) t := by
  cases h with
  | obj hc ha => exact Shows.attr (.obj hc ha) (attrOf_index nd e)
  | _ => simp [ObjTree.attrsOf] at e

theorem Ev.at {H : Heap} {a : Py HVal} {u t : ObjTree} {n : PyStr} (h : Ev H a u) (nd : (u.attrsOf.map fun p => PyStr.hash p.1).Nodup)
    (i : Nat) (e : u.attrsOf[i]? = some (n, t)) : Ev H (W.attrOf H a n) t := by
  obtain ⟨v, rfl, hs⟩ := h
  exact hs.at nd i e

/-- `o[0]` of a list that has elements. -/
theorem EvSeq.first {H : Heap} {a : Py HVal} {t : ObjTree} {ts : List ObjTree} (h : EvSeq H a (t :: ts)) : Ev H (W.item H a 0) t := by
  obtain ⟨vs, _, _, h3, h4⟩ := h
  cases h3 with
  | cons s ss => exact ⟨_, by rw [h4]; rfl, s⟩

theorem EvSeq.first_none {H : Heap} {a : Py HVal} (h : EvSeq H a []) : W.item H a 0 = .error .indexError := by
  obtain ⟨vs, _, _, h3, h4⟩ := h
  cases h3
  rw [h4]; rfl

/-! ## conditions -/

theorem W.eqInt_eq {H : Heap} {a : Py HVal} {i n : Int} (h : Ev H a (.int i)) : W.eqInt a n = .ok (decide (i = n)) := by rw [h.int]; rfl
theorem W.neInt_eq {H : Heap} {a : Py HVal} {i n : Int} (h : Ev H a (.int i)) : W.neInt a n = .ok (decide (i ≠ n)) := by
  rw [h.int]
  simp [W.neInt, W.eqInt, bind, Except.bind, pure, Except.pure]
theorem W.geInt_eq {H : Heap} {a : Py HVal} {i n : Int} (h : Ev H a (.int i)) : W.geInt a n = .ok (decide (i ≥ n)) := by rw [h.int]; rfl

/-- The writer of a part that may be `None`. -/
def optPart (w : α → Py Bytes) : Option α → Py Bytes
  | none => .ok []
  | some y => w y

theorem W.ifNotNone_eq {H : Heap} {a : Py HVal} {f : α → ObjTree} {x : Option α} {w : Py Bytes} {w' : α → Py Bytes}
    (h : Ev H a (optObj f x)) (hn : ∀ y, f y ≠ .none) (hw : ∀ y, x = some y → Ev H a (f y) → w = w' y) :
    W.ifNotNone a w = optPart w' x := by
  cases x with
  | none =>
    obtain ⟨v, rfl, hs⟩ := h
    rw [hs.none_inv]; rfl
  | some y =>
    rw [hw y rfl h]
    obtain ⟨v, rfl, hs⟩ := h
    have := hs.ne_none (hn y)
    cases v <;> first | rfl | exact (this rfl).elim

theorem W.when1 {p : Prop} [Decidable p] {c : Py Bool} {w : Py Bytes} {w' : α → Py Bytes} {x : Option α} (hc : c = .ok (decide p))
    (hw : w = optPart w' x) : W.when [c] w = writeIf p w' x := by
  subst hc hw
  unfold writeIf
  by_cases h : p <;> simp [W.when, h, optPart]
  cases x <;> rfl

theorem W.when2 {p q : Prop} [Decidable p] [Decidable q] {c d : Py Bool} {w : Py Bytes} {w' : α → Py Bytes} {x : Option α}
    (hc : c = .ok (decide p)) (hd : d = .ok (decide q)) (hw : w = optPart w' x) : W.when [c, d] w = writeIf (p ∧ q) w' x := by
  subst hc hd hw
  unfold writeIf
  by_cases h : p <;> by_cases h' : q <;> simp [W.when, h, h', optPart]
  cases x <;> rfl

theorem W.when3 {p q r : Prop} [Decidable p] [Decidable q] [Decidable r] {c d e : Py Bool} {w : Py Bytes} {w' : α → Py Bytes} {x : Option α}
    (hc : c = .ok (decide p)) (hd : d = .ok (decide q)) (he : e = .ok (decide r)) (hw : w = optPart w' x) :
    W.when [c, d, e] w = writeIf (p ∧ q ∧ r) w' x := by
  subst hc hd he hw
  unfold writeIf
  by_cases h : p <;> by_cases h' : q <;> by_cases h'' : r <;> simp [W.when, h, h', h'', optPart]
  cases x <;> rfl

theorem bind_eq {a b : Py α} {f g : α → Py β} (h : a = b) (hf : ∀ x, f x = g x) : (a >>= f) = (b >>= g) := by
  rw [h, funext hf]

/-! ## dispatch -/

theorem Shows.dispatch {H : Heap} {v : HVal} {c : PyStr} {ts : List (PyStr × ObjTree)} {n : Nat} {ver : Version}
    {m : Heap → Rec → HVal → Version → Py Bytes} (h : Shows H v (.obj c ts)) (hm : W.method c W.methods = some m) :
    W.toBytes H (n + 1) v ver = m H (W.toBytes H n) v ver := by
  cases h with
  | obj hc _ => simp [W.toBytes, W.cell, hc, hm]

end Genie
