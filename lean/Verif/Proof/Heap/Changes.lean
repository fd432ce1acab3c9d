import Verif.Spec.Changes
import Verif.Proof.Heap.ScriptSim
import Verif.Proof.Edits.Programs
/-! # Programs that change one place -/

namespace Genie
open HReader ObjTree

theorem ObjTree.put_put : ∀ {p : ObjPath} {t c u v : ObjTree}, t.get p = some c → (t.put p u).put p v = t.put p v := by
  intro p t c u v h
  have e1 := get_put_self (u := u) h
  induction p generalizing t c with
  | nil => rfl
  | cons st p ih =>
    unfold ObjTree.get at h
    cases hc : t.child st with
    | none => rw [hc] at h; cases h
    | some d =>
      rw [hc] at h
      have a1 : t.put (st :: p) u = t.setChild st (d.put p u) := by simp only [ObjTree.put, hc]
      have a2 : t.put (st :: p) v = t.setChild st (d.put p v) := by simp only [ObjTree.put, hc]
      rw [a1, a2]
      have a3 : (t.setChild st (d.put p u)).child st = some (d.put p u) := child_set_self hc
      simp only [ObjTree.put, a3]
      rw [ih h (get_put_self h)]
      cases t with
      | list ts =>
        cases st with
        | item i => simp only [setChild, List.set_set]
        | attr n => cases hc
      | tuple ts =>
        cases st with
        | item i => simp only [setChild, List.set_set]
        | attr n => cases hc
      | obj cls ts =>
        cases st with
        | item i => cases hc
        | attr n =>
          simp only [setChild]
          congr 1
          have hc' : attrOf n ts = some d := hc
          clear a3 a2 a1 e1 hc
          induction ts with
          | nil => cases hc'
          | cons x ts ih' =>
            obtain ⟨m, w⟩ := x
            by_cases e : m = n
            · simp [setAttrOf, e]
            · have : attrOf n ts = some d := by simpa [attrOf, e] using hc'
              simp [setAttrOf, e, ih' this]
      | _ => cases hc

/-- Nothing has changed but that there may be more names, and more trees. -/
theorem Forest.Changed.same {F F' : Forest} {r : Nat} {p : ObjPath} {u t : ObjTree} (ht : F.trees[r]? = some t) (hg : t.get p = some u)
    (h1 : F.trees <+: F'.trees) (h2 : F.spots <+: F'.spots) : F.Changed F' r p u := by
  obtain ⟨ts, e1⟩ := h1
  obtain ⟨ss, e2⟩ := h2
  have low : ∀ k, k < F.trees.length → F'.trees[k]? = F.trees[k]? := fun k hk => by rw [← e1, List.getElem?_append_left hk]
  refine ⟨fun t' ht' => ?_, fun k _ hk => low k hk, fun k q hq _ => ?_, by rw [← e1, List.length_append]; omega, by
    rw [← e2, List.length_append]; omega⟩
  · rw [ht] at ht'
    cases ht'
    rw [put_self hg, low r (List.getElem?_eq_some_iff.1 ht).1, ht]
  · rw [← e2, List.getElem?_append_left (List.getElem?_eq_some_iff.1 hq).1]
    exact hq

theorem Forest.Changed.trans {F F1 F2 : Forest} {r : Nat} {p : ObjPath} {u u1 u2 t : ObjTree} (ht : F.trees[r]? = some t) (hg : t.get p = some u)
    (h1 : F.Changed F1 r p u1) (h2 : F1.Changed F2 r p u2) : F.Changed F2 r p u2 := by
  refine ⟨fun t' ht' => ?_, fun k hk hl => ?_, fun k q hq hp => h2.spots k q (h1.spots k q hq hp) hp, Nat.le_trans h1.trees_length h2.trees_length,
    Nat.le_trans h1.spots_length h2.spots_length⟩
  · rw [ht] at ht'
    cases ht'
    rw [h2.tree _ (h1.tree _ ht), put_put hg]
  · rw [h2.others k hk (Nat.lt_of_lt_of_le hl h1.trees_length), h1.others k hk hl]

/-- A change inside a place is a change of that place. -/
theorem Forest.Changed.inside {F F' : Forest} {r : Nat} {p q : ObjPath} {t c u : ObjTree} (ht : F.trees[r]? = some t) (hg : t.get p = some c)
    (h : F.Changed F' r (p ++ q) u) : F.Changed F' r p (c.put q u) := by
  refine ⟨fun t' ht' => ?_, h.others, fun k s hs hp => h.spots k s hs fun e1 e2 => ?_, h.trees_length, h.spots_length⟩
  · rw [ht] at ht'
    cases ht'
    rw [h.tree _ ht, put_append hg]
  · have e3 := hp e1 ((List.prefix_append p q).trans e2)
    rw [e3] at e2 ⊢
    have := e2.length_le
    rw [List.length_append] at this
    have : q = [] := List.eq_nil_of_length_eq_zero (by omega)
    rw [this, List.append_nil]

/-- The type of an object, as a value. -/
def ObjTree.kindOf : ObjTree → Option Kind
  | .list _ => some .list
  | .tuple _ => some .tuple
  | .obj cls _ => some (.instance cls)
  | _ => Option.none

theorem Forest.hand_object {F : Forest} {q : Spot} {k : Kind} (h : (F.at' q).kindOf = some k) :
    F.hand q = (.object F.spots.length k, { F with spots := F.spots ++ [q] }) := by
  unfold Forest.hand
  cases e : F.at' q <;> rw [e] at h <;> cases h <;> rfl

theorem Forest.at'_get {F : Forest} {r : Nat} {p : ObjPath} {t u : ObjTree} (ht : F.trees[r]? = some t) (hg : t.get p = some u) : F.at' (r, p) = u := by
  unfold Forest.at'
  rw [ht]
  dsimp only
  rw [hg]
  rfl

theorem Forest.value_get {F : Forest} {o r : Nat} {p : ObjPath} {t u : ObjTree} (hs : F.spots[o]? = some (r, p)) (ht : F.trees[r]? = some t)
    (hg : t.get p = some u) : F.value o = u := by
  unfold Forest.value
  rw [hs]
  exact Forest.at'_get ht hg

theorem ObjTree.get_append_some {p q : ObjPath} {t c : ObjTree} (h : t.get p = some c) : t.get (p ++ q) = c.get q := by
  induction p generalizing t with
  | nil => cases h; rfl
  | cons st p ih =>
    unfold ObjTree.get at h
    cases hc : t.child st with
    | none => rw [hc] at h; cases h
    | some d =>
      rw [hc] at h
      rw [List.cons_append, ObjTree.get]
      simp only [hc]
      exact ih h

/-- `x = o.name`, where the attribute is an object. -/
theorem Op.getAttr_object {F : Forest} {depth o r : Nat} {p : ObjPath} {t : ObjTree} {cls : PyStr} {ts : List (PyStr × ObjTree)} {name : PyStr} {c : ObjTree}
    {k : Kind} (hs : F.spots[o]? = some (r, p)) (ht : F.trees[r]? = some t) (hg : t.get p = some (.obj cls ts)) (ha : attrOf name ts = some c)
    (hk : c.kindOf = some k) :
    (Op.getAttr o name).onForest depth F = some (.ok (.object F.spots.length k), { F with spots := F.spots ++ [(r, p ++ [.attr name])] }) := by
  have hh : F.hand (r, p ++ [.attr name]) = (.object F.spots.length k, { F with spots := F.spots ++ [(r, p ++ [.attr name])] }) := by
    refine Forest.hand_object ?_
    rw [Forest.at'_get ht (u := c) (by rw [get_append_some hg]; simp [ObjTree.get, child, ha])]
    exact hk
  unfold Op.onForest
  dsimp only
  rw [hs, Forest.value_get hs ht hg]
  simp only [ObjTree.step, ha, hh]

/-- `x = o.name`, where the attribute is a number. -/
theorem Op.getAttr_int {F : Forest} {depth o r : Nat} {p : ObjPath} {t : ObjTree} {cls : PyStr} {ts : List (PyStr × ObjTree)} {name : PyStr} {i : Int}
    (hs : F.spots[o]? = some (r, p)) (ht : F.trees[r]? = some t) (hg : t.get p = some (.obj cls ts)) (ha : attrOf name ts = some (.int i)) :
    (Op.getAttr o name).onForest depth F = some (.ok (.int i), F) := by
  have hh : F.hand (r, p ++ [.attr name]) = (.int i, F) := by
    unfold Forest.hand
    rw [Forest.at'_get ht (u := .int i) (by rw [get_append_some hg]; simp [ObjTree.get, child, ha])]
  unfold Op.onForest
  dsimp only
  rw [hs, Forest.value_get hs ht hg]
  simp only [ObjTree.step, ha, hh]

/-- `x = o[i]`. -/
theorem Op.getItem_list {F : Forest} {depth o r : Nat} {p : ObjPath} {t : ObjTree} {ts : List ObjTree} {i : Nat} (hs : F.spots[o]? = some (r, p))
    (ht : F.trees[r]? = some t) (hg : t.get p = some (.list ts)) (hi : i < ts.length) :
    (Op.getItem o (i : Nat)).onForest depth F = some (.ok (F.hand (r, p ++ [.item i])).1, (F.hand (r, p ++ [.item i])).2) := by
  unfold Op.onForest
  dsimp only
  rw [hs, Forest.value_get hs ht hg]
  have : position ts.length (i : Int) = some i := by
    show (if i < ts.length then some i else Option.none) = some i
    rw [if_pos hi]
  simp only [this]

/-- `len(o)`. -/
theorem Op.len_list {F : Forest} {depth o r : Nat} {p : ObjPath} {t : ObjTree} {ts : List ObjTree} (hs : F.spots[o]? = some (r, p))
    (ht : F.trees[r]? = some t) (hg : t.get p = some (.list ts)) : (Op.len o).onForest depth F = some (.ok (.int ts.length), F) := by
  unfold Op.onForest
  dsimp only
  rw [Forest.value_get hs ht hg]

/-- `o.name = i`. -/
theorem Op.setAttr_int {F : Forest} {depth o r : Nat} {p : ObjPath} {t : ObjTree} {cls : PyStr} {ts : List (PyStr × ObjTree)} {name : PyStr} {old : ObjTree}
    {i : Int} (hs : F.spots[o]? = some (r, p)) (ht : F.trees[r]? = some t) (hg : t.get p = some (.obj cls ts)) (ha : attrOf name ts = some old) :
    ∃ F', (Op.setAttr o name (.int i)).onForest depth F = some (.ok .none, F') ∧ F.Changed F' r p (.obj cls (setAttrOf name (.int i) ts)) := by
  refine ⟨F.assign (r, p) cls ts name (.int i, Option.none), ?_, ?_⟩
  · unfold Op.onForest
    dsimp only
    rw [hs, Forest.value_get hs ht hg]
    simp [ha, Forest.args, Forest.arg]
  · unfold Forest.assign
    rw [ha]
    have hr := (List.getElem?_eq_some_iff.1 ht).1
    refine ⟨fun t' ht' => ?_, fun k hk hl => ?_, fun k q hq hp => ?_, ?_, ?_⟩
    · rw [ht] at ht'
      cases ht'
      simp only [Forest.change, Forest.without, List.filterMap_cons, List.filterMap_nil, List.foldl_nil]
      rw [List.getElem?_append_left (by rw [List.length_modify]; exact hr), List.getElem?_modify, ht]
      simp
    · simp only [Forest.change, Forest.without, List.filterMap_cons, List.filterMap_nil, List.foldl_nil]
      rw [List.getElem?_append_left (by rw [List.length_modify]; exact hl), List.getElem?_modify]
      have : ¬ r = k := fun e => hk e.symm
      simp [this]
    · simp only [Forest.change, List.getElem?_map, hq, Option.map_some]
      by_cases e : q.1 = r
      · rw [if_pos e]
        have : Forest.inside p q.2 = Option.none := by
          unfold Forest.inside
          split
          · rename_i hpre
            rw [hp e hpre, List.drop_length]
          · rfl
        rw [this]
      · rw [if_neg e]
        simp [List.findIdx?_cons]
    · simp only [Forest.change, Forest.without, List.filterMap_cons, List.filterMap_nil, List.foldl_nil, List.length_append, List.length_modify]
      omega
    · simp only [Forest.change, List.length_map]
      omega

/-! ## rules -/

variable {z : Zlib} {env : Nat → Environment} {depth : Nat}

/-- One operation with its answer. -/
theorem Prog.onForest_call (o : Op) (i : Nat) (disk : FileSystem) (F F' : Forest) (v : Seen) (h : o.onForest depth F = some (.ok v, F')) :
    (Prog.call (.op o)).onForest z env depth i ⟨disk, F⟩ = some (.returned v, i + 1, ⟨disk, F'⟩) := by
  unfold Prog.call
  rw [Prog.onForest_act]
  have : (Action.op o).onForest z (env i) depth ⟨disk, F⟩ = some (.returned v, ⟨disk, F'⟩) := by
    unfold Action.onForest
    simp only [h]
  rw [this]
  rfl

theorem Prog.onForest_then {p : Prog α} {f : α → Prog β} {i j : Nat} {S S' : Situation Forest} {a : α}
    (h : p.onForest z env depth i S = some (.returned a, j, S')) : (p >>= f).onForest z env depth i S = (f a).onForest z env depth j S' := by
  show (p.bind f).onForest z env depth i S = _
  rw [Prog.onForest_bind, h]

/-- One program after the other. -/
theorem Prog.Makes.seq {p q : Prog PUnit} {o : Nat} {u u1 u2 : ObjTree} (hp : p.Makes z env depth o u u1) (hq : q.Makes z env depth o u1 u2) :
    (do p; q : Prog PUnit).Makes z env depth o u u2 := by
  intro F disk i r pp t hs ht hg
  obtain ⟨F1, j, e1, c1⟩ := hp F disk i r pp t hs ht hg
  obtain ⟨F2, k, e2, c2⟩ := hq F1 disk j r pp _ (c1.spots _ _ hs fun _ _ => rfl) (c1.tree _ ht) (get_put_self hg)
  exact ⟨F2, k, by rw [Prog.onForest_then e1]; exact e2, c1.trans ht hg c2⟩

/-- `o.name = f(o.name)`. -/
theorem Prog.Makes.update {o : Nat} {cls : PyStr} {ts : List (PyStr × ObjTree)} {name : PyStr} {v : Int} (f : Int → Int)
    (ha : attrOf name ts = some (.int v)) :
    (Prog.update o name f).Makes z env depth o (.obj cls ts) (.obj cls (setAttrOf name (.int (f v)) ts)) := by
  intro F disk i r p t hs ht hg
  obtain ⟨F', e, c⟩ := Op.setAttr_int (depth := depth) (i := f v) hs ht hg ha
  refine ⟨F', i + 1 + 1, ?_, c⟩
  have h1 : (Prog.int (.getAttr o name)).onForest z env depth i ⟨disk, F⟩ = some (.returned v, i + 1, ⟨disk, F⟩) := by
    unfold Prog.int
    rw [Prog.onForest_then (Prog.onForest_call _ i disk F F _ (Op.getAttr_int hs ht hg ha))]
    rfl
  unfold Prog.update
  rw [Prog.onForest_then h1]
  unfold Prog.statement
  rw [Prog.onForest_then (Prog.onForest_call _ (i + 1) disk F F' _ e)]
  rfl

/-- `x = o.name`, and then a program that changes `x`. -/
theorem Prog.Makes.attr {o : Nat} {cls : PyStr} {ts : List (PyStr × ObjTree)} {name : PyStr} {c c' : ObjTree} {body : Nat → Prog PUnit}
    (ha : attrOf name ts = some c) (hk : c.kindOf.isSome) (hb : ∀ x, (body x).Makes z env depth x c c') :
    (do let x ← Prog.object (.getAttr o name); body x : Prog PUnit).Makes z env depth o (.obj cls ts) (.obj cls (setAttrOf name c' ts)) := by
  intro F disk i r p t hs ht hg
  obtain ⟨k, hk⟩ := Option.isSome_iff_exists.1 hk
  have e1 := Op.getAttr_object (depth := depth) hs ht hg ha hk
  have h1 : (Prog.object (.getAttr o name)).onForest z env depth i ⟨disk, F⟩ =
      some (.returned F.spots.length, i + 1, ⟨disk, { F with spots := F.spots ++ [(r, p ++ [.attr name])] }⟩) := by
    unfold Prog.object
    rw [Prog.onForest_then (Prog.onForest_call _ i disk F _ _ e1)]
    rfl
  have hg' : t.get (p ++ [.attr name]) = some c := by rw [get_append_some hg]; simp [ObjTree.get, child, ha]
  obtain ⟨F2, j, e2, c2⟩ := hb F.spots.length { F with spots := F.spots ++ [(r, p ++ [.attr name])] } disk (i + 1) r (p ++ [.attr name]) t
    List.getElem?_concat_length ht hg'
  refine ⟨F2, j, by rw [Prog.onForest_then h1]; exact e2, ?_⟩
  have c1 : F.Changed { F with spots := F.spots ++ [(r, p ++ [.attr name])] } r p (.obj cls ts) :=
    .same ht hg List.prefix_rfl (List.prefix_append _ _)
  have c3 := Forest.Changed.inside (q := [.attr name]) (u := c') (F := { F with spots := F.spots ++ [(r, p ++ [.attr name])] }) ht hg c2
  have e3 : (ObjTree.obj cls ts).put [.attr name] c' = .obj cls (setAttrOf name c' ts) := by
    simp [ObjTree.put, child, ha, setChild]
  rw [e3] at c3
  exact c1.trans ht hg c3

/-- Elements `i`, …, of a list. -/
theorem Prog.Makes.forFrom {l : Nat} {g : ObjTree → ObjTree} {body : Nat → Prog PUnit} : ∀ (ys xs : List ObjTree),
    (∀ c ∈ ys, (c.kindOf = Option.none → g c = c) ∧ (c.kindOf.isSome → ∀ x, (body x).Makes z env depth x c (g c))) →
    (Prog.forFrom (Prog.visit l body) xs.length ys.length).Makes z env depth l (.list (xs ++ ys)) (.list (xs ++ ys.map g)) := by
  intro ys
  induction ys with
  | nil =>
    intro xs _ F disk i r p t hs ht hg
    exact ⟨F, i, rfl, by rw [List.map_nil]; exact .same ht hg List.prefix_rfl List.prefix_rfl⟩
  | cons c ys ih =>
    intro xs hb
    have first : (Prog.visit l body xs.length).Makes z env depth l (.list (xs ++ c :: ys)) (.list (xs ++ g c :: ys)) := by
      intro F disk i r p t hs ht hg
      have e1 := Op.getItem_list (depth := depth) (i := xs.length) hs ht hg (by simp)
      have hc : t.get (p ++ [.item xs.length]) = some c := by
        rw [get_append_some hg]; simp [ObjTree.get, child]
      have hat : F.at' (r, p ++ [.item xs.length]) = c := Forest.at'_get ht hc
      obtain ⟨hb1, hb2⟩ := hb c List.mem_cons_self
      have e3 : (ObjTree.list (xs ++ c :: ys)).put [.item xs.length] (g c) = .list (xs ++ g c :: ys) := by
        simp [ObjTree.put, child, setChild]
      cases hk : c.kindOf with
      | none =>
        have hgc := hb1 hk
        have hh : ∃ v, F.hand (r, p ++ [.item xs.length]) = (v, F) ∧ ∀ h k, v ≠ .object h k := by
          unfold Forest.hand
          rw [hat]
          cases c <;> first | exact ⟨_, rfl, fun _ _ e => nomatch e⟩ | cases hk
        obtain ⟨v, hh, hv⟩ := hh
        rw [hh] at e1
        refine ⟨F, i + 1, ?_, ?_⟩
        · unfold Prog.visit
          rw [Prog.onForest_then (Prog.onForest_call _ i disk F F v e1)]
          cases v <;> first | rfl | exact absurd rfl (hv _ _)
        · rw [hgc]
          exact .same ht hg List.prefix_rfl List.prefix_rfl
      | some k =>
        have hh := Forest.hand_object (F := F) (q := (r, p ++ [.item xs.length])) (by rw [hat]; exact hk)
        rw [hh] at e1
        obtain ⟨F2, j, e2, c2⟩ := hb2 (by rw [hk]; rfl) F.spots.length { F with spots := F.spots ++ [(r, p ++ [.item xs.length])] } disk (i + 1) r
          (p ++ [.item xs.length]) t List.getElem?_concat_length ht hc
        refine ⟨F2, j, ?_, ?_⟩
        · unfold Prog.visit
          rw [Prog.onForest_then (Prog.onForest_call _ i disk F _ _ e1)]
          exact e2
        · have c1 : F.Changed { F with spots := F.spots ++ [(r, p ++ [.item xs.length])] } r p (.list (xs ++ c :: ys)) :=
            .same ht hg List.prefix_rfl (List.prefix_append _ _)
          have c3 := Forest.Changed.inside (q := [.item xs.length]) (u := g c) (F := { F with spots := F.spots ++ [(r, p ++ [.item xs.length])] }) ht hg c2
          rw [e3] at c3
          exact c1.trans ht hg c3
    have rest := ih (xs ++ [g c]) fun d hd => hb d (List.mem_cons_of_mem _ hd)
    rw [List.length_append, List.append_assoc, List.append_assoc] at rest
    exact first.seq rest

/-- `for x in l: if x is not None: body(x)`. -/
theorem Prog.Makes.forEach {l : Nat} {g : ObjTree → ObjTree} {body : Nat → Prog PUnit} {ts : List ObjTree}
    (hb : ∀ c ∈ ts, (c.kindOf = Option.none → g c = c) ∧ (c.kindOf.isSome → ∀ x, (body x).Makes z env depth x c (g c))) :
    (Prog.forEach l body).Makes z env depth l (.list ts) (.list (ts.map g)) := by
  intro F disk i r p t hs ht hg
  have h1 : (Prog.int (.len l)).onForest z env depth i ⟨disk, F⟩ = some (.returned ts.length, i + 1, ⟨disk, F⟩) := by
    unfold Prog.int
    rw [Prog.onForest_then (Prog.onForest_call _ i disk F F _ (Op.len_list hs ht hg))]
    rfl
  obtain ⟨F', j, e, c⟩ := Prog.Makes.forFrom (g := g) (body := body) (l := l) ts [] hb F disk (i + 1) r p t hs ht hg
  refine ⟨F', j, ?_, c⟩
  unfold Prog.forEach
  rw [Prog.onForest_then h1]
  exact e

end Genie
