import Verif.Proof.Heap.Paths
import Verif.Proof.Heap.File
import Verif.Model.Readme
/-! # The programs of the README, on objects -/

namespace Genie
open HReader ObjTree

theorem HReader.bind_assoc (r : HReader α) (f : α → HReader β) (g : β → HReader γ) : (r >>= f) >>= g = r >>= fun a => f a >>= g := by
  funext H s
  rw [HReader.bind_eq, HReader.bind_eq, HReader.bind_eq]
  cases r H s <;> rfl

theorem HReader.pure_bind (a : α) (f : α → HReader β) : (pure a : HReader α) >>= f = f a := rfl

/-- A statement that stores a scalar or nothing. -/
theorem Stmt.run_scalar {H : Heap} {v t fp v' u} (r : Rep H v t fp) (nd : fp.Nodup) (r' : Rep H v' u []) (p : ObjPath) (st : Stmt)
    (s : ByteHandler) :
    match t.eval p >>= st.onTree u with
    | .ok t' => ∃ H', (HReader.eval v p >>= fun o => st.run o v') H s = .ok ((), H', s) ∧ EditedTree H H' v fp (t.put p t')
    | .error e => (HReader.eval v p >>= fun o => st.run o v') H s = .error e := by
  have := Stmt.run_at (N := []) r nd (by rw [List.append_nil]; exact r') List.nodup_nil (fun _ h => nomatch h) p st s
  rwa [List.append_nil] at this

def loomPath : ObjPath := [.attr (lit "techs"), .item 22, .attr (lit "resource_costs"), .item 0]

theorem changeLoom_stmt (v : HVal) :
    HReader.changeLoom v = HReader.eval v loomPath >>= fun o => (Stmt.setAttr (lit "amount")).run o (.int 69) := by
  unfold HReader.changeLoom loomPath
  simp only [HReader.eval, HReader.bind_assoc, HReader.pure_bind, Stmt.run]

theorem ObjTree.eval_ok {t u : ObjTree} {st p} (h : t.step st = .ok u) : t.eval (st :: p) = u.eval p := by
  rw [ObjTree.eval, h]

theorem ObjTree.eval_err {t : ObjTree} {st p e} (h : t.step st = .error e) : t.eval (st :: p) = .error e := by
  rw [ObjTree.eval, h]

theorem step_list_some {f : α → ObjTree} {l : List α} {i a} (h : l[i]? = some a) : (ObjTree.list (l.map f)).step (.item i) = .ok (f a) := by
  simp only [ObjTree.step, List.getElem?_map, h, Option.map_some]

theorem step_list_none {f : α → ObjTree} {l : List α} {i} (h : l[i]? = Option.none) : (ObjTree.list (l.map f)).step (.item i) = .error .indexError := by
  simp only [ObjTree.step, List.getElem?_map, h, Option.map_none]

theorem step_tuple_some {f : α → ObjTree} {l : List α} {i a} (h : l[i]? = some a) : (ObjTree.tuple (l.map f)).step (.item i) = .ok (f a) := by
  simp only [ObjTree.step, List.getElem?_map, h, Option.map_some]

theorem step_tuple_none {f : α → ObjTree} {l : List α} {i} (h : l[i]? = Option.none) : (ObjTree.tuple (l.map f)).step (.item i) = .error .indexError := by
  simp only [ObjTree.step, List.getElem?_map, h, Option.map_none]

theorem set_list {f : α → ObjTree} (l : List α) (i : Nat) (a : α) : (ObjTree.list (l.map f)).setChild (.item i) (f a) = .list ((l.set i a).map f) := by
  rw [List.map_set]; rfl

theorem set_tuple {f : α → ObjTree} (l : List α) (i : Nat) (a : α) : (ObjTree.tuple (l.map f)).setChild (.item i) (f a) = .tuple ((l.set i a).map f) := by
  rw [List.map_set]; rfl

theorem ObjTree.put_ok {t c u x y : ObjTree} {st p} (h : t.step st = .ok c) (h' : c.put p u = x) (h'' : t.setChild st x = y) : t.put (st :: p) u = y := by
  rw [ObjTree.put, ObjTree.step_child.mp h]; dsimp only; rw [h', h'']

theorem changeLoom_run {H : Heap} {v : HVal} {old : Bool} {d : DatFile} {fp} (r : Rep H v (d.object old) fp) (nd : fp.Nodup) (s : ByteHandler) :
    match Genie.changeLoom d with
    | .ok d' => ∃ H', HReader.changeLoom v H s = .ok ((), H', s) ∧ EditedTree H H' v fp (d'.object old)
    | .error e => HReader.changeLoom v H s = .error e := by
  rw [changeLoom_stmt]
  have main := Stmt.run_scalar r nd (Rep.int 69) loomPath (.setAttr (lit "amount")) s
  have e0 : (d.object old).step (.attr (lit "techs")) = .ok (.list (d.techs.map Tech.object)) := rfl
  unfold Genie.changeLoom Genie.getItem
  cases h1 : d.techs[22]? with
  | none =>
    have e : (d.object old).eval loomPath = .error .indexError := (eval_ok e0).trans (eval_err (step_list_none h1))
    rw [e] at main
    exact main
  | some tech =>
    have e1 := step_list_some (f := Tech.object) h1
    have e2 : (Tech.object tech).step (.attr (lit "resource_costs")) = .ok (.tuple (tech.resource_costs.map ResearchResourceCost.object)) := rfl
    cases h2 : tech.resource_costs[0]? with
    | none =>
      have e : (d.object old).eval loomPath = .error .indexError :=
        (eval_ok e0).trans ((eval_ok e1).trans ((eval_ok e2).trans (eval_err (step_tuple_none h2))))
      rw [e] at main
      simp only [bind, Except.bind, h2]
      exact main
    | some cost =>
      have e3 := step_tuple_some (f := ResearchResourceCost.object) h2
      have e : (d.object old).eval loomPath = .ok (ResearchResourceCost.object cost) :=
        (eval_ok e0).trans ((eval_ok e1).trans ((eval_ok e2).trans (eval_ok e3)))
      rw [e] at main
      simp only [bind, Except.bind, h2]
      obtain ⟨H', m1, m2⟩ := main
      refine ⟨H', m1, ?_⟩
      have p : (d.object old).put loomPath (ResearchResourceCost.object { cost with amount := 69 }) =
          ({ d with techs := d.techs.set 22 { tech with resource_costs := tech.resource_costs.set 0 { cost with amount := 69 } } } : DatFile).object old :=
        put_ok e0 (put_ok e1 (put_ok e2 (put_ok e3 rfl (set_tuple _ _ _)) rfl) (set_list (f := Tech.object) _ _ { tech with resource_costs := tech.resource_costs.set 0 { cost with amount := 69 } })) rfl
      rw [← p]
      exact m2

def kingPath : ObjPath := [.attr (lit "units"), .item 434, .attr (lit "bird"), .attr (lit "tasks")]

theorem popKingTask_stmt (v : HVal) : HReader.popKingTask v = HReader.eval v kingPath >>= fun o => Stmt.pop.run o .none := by
  unfold HReader.popKingTask kingPath
  simp only [HReader.eval, HReader.bind_assoc, HReader.pure_bind, Stmt.run]

set_option maxRecDepth 20000 in
theorem popKingTask_run {H : Heap} {v : HVal} {old : Bool} {c : Civ} {fp} (r : Rep H v (c.object old) fp) (nd : fp.Nodup) (s : ByteHandler) :
    match Genie.popKingTask c with
    | .ok c' => ∃ H', HReader.popKingTask v H s = .ok ((), H', s) ∧ EditedTree H H' v fp (c'.object old)
    | .error e => HReader.popKingTask v H s = .error e := by
  rw [popKingTask_stmt]
  have main := Stmt.run_scalar r nd (Rep.none) kingPath .pop s
  have e0 : (c.object old).step (.attr (lit "units")) = .ok (.list (c.units.map (optObj (Unit.object old)))) := rfl
  unfold Genie.popKingTask Genie.getItem
  cases h1 : c.units[434]? with
  | none =>
    have e : (c.object old).eval kingPath = .error .indexError := (eval_ok e0).trans (eval_err (step_list_none h1))
    rw [e] at main
    exact main
  | some ou =>
    have e1 := step_list_some (f := optObj (Unit.object old)) h1
    cases ou with
    | none =>
      have e : (c.object old).eval kingPath = .error .attributeError := (eval_ok e0).trans ((eval_ok e1).trans (eval_err rfl))
      rw [e] at main
      exact main
    | some unit =>
      have e2 : (Unit.object old unit).step (.attr (lit "bird")) = .ok (optObj Bird.object unit.bird) := rfl
      cases h2 : unit.bird with
      | none =>
        have e : (c.object old).eval kingPath = .error .attributeError :=
          (eval_ok e0).trans ((eval_ok e1).trans ((eval_ok e2).trans (eval_err (by rw [h2]; rfl))))
        rw [e] at main
        simp only [notNone, bind, Except.bind, h2]
        exact main
      | some bird =>
        rw [h2] at e2
        have e3 : (optObj Bird.object (some bird)).step (.attr (lit "tasks")) = .ok (.list (bird.tasks.map Task.object)) := rfl
        have e : (c.object old).eval kingPath = .ok (.list (bird.tasks.map Task.object)) :=
          (eval_ok e0).trans ((eval_ok e1).trans ((eval_ok e2).trans (eval_ok e3)))
        rw [e] at main
        cases h3 : bird.tasks with
        | nil =>
          rw [h3] at main
          simp only [notNone, bind, Except.bind, h2, h3, popped]
          exact main
        | cons x xs =>
          rw [h3] at main e3
          have o : Stmt.pop.onTree .none (.list ((x :: xs).map Task.object)) = .ok (.list (((x :: xs).dropLast).map Task.object)) := by
            rw [List.map_dropLast]; rfl
          have o' : (Except.ok (.list ((x :: xs).map Task.object)) : Py ObjTree) >>= Stmt.pop.onTree .none =
            .ok (.list (((x :: xs).dropLast).map Task.object)) := o
          rw [o'] at main
          obtain ⟨H', m1, m2⟩ := main
          simp only [notNone, bind, Except.bind, h2, h3, popped]
          refine ⟨H', m1, ?_⟩
          have p2 : (optObj (Unit.object old) (some unit)).put [.attr (lit "bird"), .attr (lit "tasks")] (.list (((x :: xs).dropLast).map Task.object)) =
              optObj (Unit.object old) (some { unit with bird := some { bird with tasks := (x :: xs).dropLast } }) :=
            put_ok e2 (put_ok e3 rfl rfl) rfl
          have p1 := set_list (f := optObj (Unit.object old)) c.units 434 (some { unit with bird := some { bird with tasks := (x :: xs).dropLast } })
          have p := put_ok (p := kingPath.tail) e0 (put_ok e1 p2 p1) rfl
          change EditedTree _ _ _ _ ((c.object old).put (.attr (lit "units") :: kingPath.tail) _) at m2
          rw [p] at m2
          exact m2

theorem popKingTasks_run {old : Bool} : ∀ {todo : List Civ} {before : List Civ} {H : Heap} {civs : HVal} {fp},
    Rep H civs (.list ((before ++ todo).map (Civ.object old))) fp → fp.Nodup → ∀ s,
    match todo.mapM Genie.popKingTask with
    | .ok todo' => ∃ H', HReader.popKingTasks civs before.length todo.length H s = .ok ((), H', s) ∧
        EditedTree H H' civs fp (.list ((before ++ todo').map (Civ.object old)))
    | .error e => HReader.popKingTasks civs before.length todo.length H s = .error e
  | [], before, H, civs, fp, r, nd, s => by
    exact ⟨H, rfl, EditedTree.refl r nd⟩
  | c :: todo, before, H, civs, fp, r, nd, s => by
    have hi : (before ++ c :: todo)[before.length]? = some c := by
      rw [List.getElem?_append_right (Nat.le_refl _)]; simp
    have e1 := step_list_some (f := Civ.object old) hi
    obtain ⟨civ, h1, hole⟩ := r.child (ObjTree.step_child.mp e1)
    obtain ⟨fpc, A, B, rc, ef, _⟩ := hole.hole
    have ndc : fpc.Nodup := by
      rw [ef] at nd
      exact (List.nodup_append.mp (List.nodup_append.mp nd).1).2.1
    rw [List.mapM_cons]
    have un : HReader.popKingTasks civs before.length (c :: todo).length = (do
      let civ ← HReader.getItem civs before.length
      HReader.popKingTask civ
      HReader.popKingTasks civs (before.length + 1) todo.length) := rfl
    rw [un, HReader.bind_ok (getItem_run h1 s)]
    have one := popKingTask_run rc ndc s
    cases hc : Genie.popKingTask c with
    | error e =>
      rw [hc] at one
      exact HReader.bind_error one
    | ok c' =>
      rw [hc] at one
      obtain ⟨H1, h2, ed⟩ := one
      rw [HReader.bind_ok h2]
      have ed1 : EditedTree H H1 civs fp (.list (((before ++ [c']) ++ todo).map (Civ.object old))) := by
        have := EditedTree.plug nd hole ⟨_, r⟩ fun fpu ru _ => by
          obtain ⟨_, e⟩ := ru.det rc
          subst e
          exact ed
        rw [set_list] at this
        have es : (before ++ c :: todo).set before.length c' = (before ++ [c']) ++ todo := by
          rw [List.set_append_right _ _ (Nat.le_refl _)]; simp
        rwa [es] at this
      obtain ⟨fp1, r1, nd1, sub1⟩ := ed1.rep
      have rest := popKingTasks_run r1 nd1 s
      rw [show (before ++ [c']).length = before.length + 1 by simp] at rest
      cases ht : todo.mapM Genie.popKingTask with
      | error e =>
        rw [ht] at rest
        exact rest
      | ok todo' =>
        rw [ht] at rest
        obtain ⟨H2, h3, ed2⟩ := rest
        refine ⟨H2, h3, ed1.trans fun fp' r' _ => ?_⟩
        obtain ⟨_, e⟩ := r'.det r1
        subst e
        have : before ++ [c'] ++ todo' = before ++ c' :: todo' := by simp
        rw [this] at ed2
        exact ed2

theorem changeKings_run {H : Heap} {v : HVal} {old : Bool} {d : DatFile} {fp} (r : Rep H v (d.object old) fp) (nd : fp.Nodup) (s : ByteHandler) :
    match Genie.changeKings d with
    | .ok d' => ∃ H', HReader.changeKings v H s = .ok ((), H', s) ∧ EditedTree H H' v fp (d'.object old)
    | .error e => HReader.changeKings v H s = .error e := by
  have e0 : (d.object old).step (.attr (lit "civs")) = .ok (.list (d.civs.map (Civ.object old))) := rfl
  obtain ⟨civs, h1, hole⟩ := r.child (ObjTree.step_child.mp e0)
  obtain ⟨fpc, A, B, rc, ef, _⟩ := hole.hole
  have ndc : fpc.Nodup := by
    rw [ef] at nd
    exact (List.nodup_append.mp (List.nodup_append.mp nd).1).2.1
  unfold HReader.changeKings Genie.changeKings
  rw [HReader.bind_ok (getAttr_run h1 s), HReader.bind_ok (len_run rc s), List.length_map]
  have loop := popKingTasks_run (before := []) (todo := d.civs) rc ndc s
  cases hc : d.civs.mapM Genie.popKingTask with
  | error e => rw [hc] at loop; exact loop
  | ok civs' =>
    rw [hc] at loop
    obtain ⟨H', h2, ed⟩ := loop
    refine ⟨H', h2, ?_⟩
    have := EditedTree.plug nd hole ⟨_, r⟩ fun fpu ru _ => by
      obtain ⟨_, e⟩ := ru.det rc
      subst e
      exact ed
    exact this

end Genie
