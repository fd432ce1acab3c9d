import Verif.Proof.Heap.Onto
import Verif.Props.C46_Types
import Verif.Props.C47_SavingObjects
import Verif.Props.C36_C37_Errors
/-!
# C48: programs that a type checker accepts

`Suits`, `Leads` and `Edit.Typed` (`Verif/Spec/Fits.lean`) are the rules of a type checker, over the annotations in the source
(`Declares false`, `Verif/Spec/Annotations.lean`).  A program of in-place statements that passes it, run on a file that was loaded, leaves a
file that fits its annotations; and such a file is written as a value of the value model is, so that the exceptions of C37 are the only ones.
-/

namespace Genie

/-- The objects that fit the annotations of `DatFile` and of all classes below are exactly the values of the value model with tuples of the
declared lengths, up to `int`s in place of floats. -/
theorem C48_fits_iff (t : ObjTree) :
    Suits (Declares false) (.cls (lit "DatFile")) t ↔ ∃ d : DatFile, d.Lengths ∧ Converts t (d.object false) :=
  ⟨DatFile.onto t, fun ⟨_, h, c⟩ => HasType.suits c (DatFile.typedNow h)⟩

/-- A loaded file fits its annotations, whatever its version is. -/
theorem C48_loaded_fits (H H' : Heap) (s s' : ByteHandler) (o : HVal) (h : DatFile.build H s = .ok (o, H', s')) :
    ∃ t, IsTree H' o t ∧ Suits (Declares false) (.cls (lit "DatFile")) t := by
  obtain ⟨d, N, fp, hd, rfl, r, nd, fr⟩ := load_value h
  exact ⟨_, ⟨fp, r, nd⟩, (C48_fits_iff _).2 ⟨d, DatFile.lengths (C13_parsed_wellformed _ _ _ hd), DatFile.converts _ d⟩⟩

/-- Well-typed programs keep the types. -/
theorem C48_typed_keeps (es : List Edit) (hes : ∀ e ∈ es, Edit.Typed (Declares false) (.cls (lit "DatFile")) e) (t t' : ObjTree)
    (ht : Suits (Declares false) (.cls (lit "DatFile")) t) (h : editTree es t = .ok t') : Suits (Declares false) (.cls (lit "DatFile")) t' := by
  induction es generalizing t with
  | nil => cases h; exact ht
  | cons e es ih =>
    unfold editTree at h
    cases e1 : t.eval e.place with
    | error x => rw [e1] at h; cases h
    | ok u =>
      rw [e1] at h
      dsimp only at h
      cases e2 : e.stmt.onTree e.value u with
      | error x => rw [e2] at h; cases h
      | ok u' =>
        rw [e2] at h
        exact ih (fun e he => hes e (List.mem_cons_of_mem _ he)) _
          ((hes e List.mem_cons_self).keeps Declares.oneDef ht (ObjTree.eval_get.1 e1) e2) h

/-- The exceptions of well-typed programs: an index out of range, or `None` where the program uses an attribute, an element or a method —
at some statement `e`, with the value `t1` that the statements before it have left, on the way to its place or at the place. -/
theorem C48_typed_raises (es : List Edit) (hes : ∀ e ∈ es, Edit.Typed (Declares false) (.cls (lit "DatFile")) e) (t : ObjTree) (x : PyErr)
    (ht : Suits (Declares false) (.cls (lit "DatFile")) t) (h : editTree es t = .error x) :
    x = .indexError ∨ ((x = .attributeError ∨ x = .typeError) ∧ ∃ es1 e es2 t1 q, es = es1 ++ e :: es2 ∧ editTree es1 t = .ok t1 ∧
      q <+: e.place ∧ t1.get q = some .none) := by
  induction es generalizing t with
  | nil => cases h
  | cons e es ih =>
    unfold editTree at h
    have te := hes e List.mem_cons_self
    cases e1 : t.eval e.place with
    | error y =>
      rw [e1] at h
      cases h
      have key : ∀ {a : Ann}, Leads (Declares false) (.cls (lit "DatFile")) e.place a → x = .indexError ∨
          ((x = .attributeError ∨ x = .typeError) ∧ ∃ q, q <+: e.place ∧ t.get q = some .none) := by
        intro a l
        rcases l.eval_error Declares.oneDef ht e1 with h | ⟨q, st, hq, hn, hx⟩
        · exact .inl h
        · refine .inr ⟨?_, q, (List.prefix_append q [st]).trans hq, hn⟩
          cases st
          · exact .inl hx
          · exact .inr hx
      have k : x = .indexError ∨ ((x = .attributeError ∨ x = .typeError) ∧ ∃ q, q <+: e.place ∧ t.get q = some .none) := by
        cases te with
        | setAttr l => exact key l
        | setItem l => exact key l
        | append l => exact key l
        | pop l => exact key l
        | insert l => exact key l
        | delItem l => exact key l
        | delSlice l => exact key l
      rcases k with k | ⟨k, q, h1, h2⟩
      · exact .inl k
      · exact .inr ⟨k, [], e, es, t, q, rfl, rfl, h1, h2⟩
    | ok u =>
      rw [e1] at h
      dsimp only at h
      cases e2 : e.stmt.onTree e.value u with
      | error y =>
        rw [e2] at h
        cases h
        rcases te.raises Declares.oneDef ht (ObjTree.eval_get.1 e1) e2 with h | rfl
        · exact .inl h
        · refine .inr ⟨?_, [], e, es, t, e.place, rfl, rfl, List.prefix_refl _, ObjTree.eval_get.1 e1⟩
          cases hs : e.stmt <;> rw [hs] at e2 <;> cases e2
          all_goals first | exact .inl rfl | exact .inr rfl
      | ok u' =>
        rw [e2] at h
        have f := te.keeps Declares.oneDef ht (ObjTree.eval_get.1 e1) e2
        rcases ih (fun e he => hes e (List.mem_cons_of_mem _ he)) _ f h with h | ⟨k, es1, e', es2, t1, q, rfl, h1, h2, h3⟩
        · exact .inl h
        · refine .inr ⟨k, e :: es1, e', es2, t1, q, rfl, ?_, h2, h3⟩
          unfold editTree
          rw [e1]
          dsimp only
          rw [e2]
          exact h1

/-- Load, run a well-typed program of in-place statements, save.  Either the program raises — an index out of range, or a use of `None` —
or the object is written exactly as a value `d'` of the value model is, and it is the value of `d'` up to `int`s in place of floats. -/
theorem C48_load_edit_save (H H' : Heap) (s s' s1 : ByteHandler) (o : HVal) (h : DatFile.build H s = .ok (o, H', s')) (es : List Edit)
    (hes : ∀ e ∈ es, Edit.Typed (Declares false) (.cls (lit "DatFile")) e) :
    (∃ x, runEdits o es H' s1 = .error x ∧ (x = .indexError ∨ x = .attributeError ∨ x = .typeError)) ∨
    (∃ H'' t d', runEdits o es H' s1 = .ok ((), H'', s1) ∧ IsTree H'' o t ∧ Converts t (DatFile.object false d') ∧
      ∀ depth ver, 5 ≤ depth → W.toBytes H'' depth o ver = d'.toBytes) := by
  obtain ⟨d, N, fp, hd, rfl, r, nd, fr⟩ := load_value h
  have f := (C48_fits_iff _).2 ⟨d, DatFile.lengths (C13_parsed_wellformed _ _ _ hd), DatFile.converts (decide (s'.version.num < 84)) d⟩
  have main := C45_statements _ o _ fp r nd es s1
  cases e : editTree es (d.object (decide (s'.version.num < 84))) with
  | error x =>
    rw [e] at main
    rcases C48_typed_raises es hes _ x f e with k | ⟨k, _⟩
    · exact .inl ⟨x, main, .inl k⟩
    · exact .inl ⟨x, main, .inr k⟩
  | ok t =>
    rw [e] at main
    obtain ⟨H'', fp', hr, r', nd', _⟩ := main
    obtain ⟨d', hl, hc⟩ := (C48_fits_iff _).1 (C48_typed_keeps es hes _ t f e)
    exact .inr ⟨H'', t, d', hr, ⟨fp', r', nd'⟩, hc, fun depth ver hn => C47_save _ o _ fp' r' d' hc.carries hl.sized depth hn ver⟩

/-- So saving the result of a well-typed program never raises `TypeError`, `AttributeError` or `RecursionError`: the exceptions are those of
C37 — a number, string or float that does not fit its place in the file, lists whose lengths must agree and do not, a creatable without a
train location before 8.8, an unknown version. -/
theorem C48_save_raises (H H' H'' : Heap) (s s' s1 s2 : ByteHandler) (o : HVal) (h : DatFile.build H s = .ok (o, H', s')) (es : List Edit)
    (hes : ∀ e ∈ es, Edit.Typed (Declares false) (.cls (lit "DatFile")) e) (hr : runEdits o es H' s1 = .ok ((), H'', s2)) (depth : Nat)
    (hn : 5 ≤ depth) (ver : Version) (x : PyErr) (hx : W.toBytes H'' depth o ver = .error x) :
    ValueErr x ∨ x = .assertionError ∨ x = .indexError ∨ x = .valueError := by
  rcases C48_load_edit_save H H' s s' s1 o h es hes with ⟨y, hy, _⟩ | ⟨H2, t, d', h2, _, _, hw⟩
  · rw [hr] at hy; cases hy
  · rw [hr] at h2
    have e1 : H'' = H2 := (Prod.mk.inj (Prod.mk.inj (Except.ok.inj h2)).2).1
    subst e1
    rw [hw depth ver hn] at hx
    rcases C37_datfile_errors d' x hx with k | ⟨k, _⟩ | ⟨k, _⟩ | ⟨k, _⟩
    · exact .inl k
    · exact .inr (.inl k)
    · exact .inr (.inr (.inl k))
    · exact .inr (.inr (.inr k))

/-- And if it is saved and the value is well-formed, what is loaded from the bytes is that value. -/
theorem C48_reload (H H' : Heap) (s s' s1 : ByteHandler) (o : HVal) (h : DatFile.build H s = .ok (o, H', s')) (es : List Edit)
    (hes : ∀ e ∈ es, Edit.Typed (Declares false) (.cls (lit "DatFile")) e) (H'' : Heap) (s2 : ByteHandler)
    (hr : runEdits o es H' s1 = .ok ((), H'', s2)) (depth : Nat) (hn : 5 ≤ depth) (ver : Version) (bs : Bytes)
    (hb : W.toBytes H'' depth o ver = .ok bs) :
    ∃ t d', IsTree H'' o t ∧ Converts t (DatFile.object false d') ∧
      ((∃ h', DatFile.fromBytes (ByteHandler.new bs) = .ok (d', h')) ↔ DatFile.WF d') := by
  rcases C48_load_edit_save H H' s s' s1 o h es hes with ⟨y, hy, _⟩ | ⟨H2, t, d', h2, ht, hc, hw⟩
  · rw [hr] at hy; cases hy
  · rw [hr] at h2
    have e1 : H'' = H2 := (Prod.mk.inj (Prod.mk.inj (Except.ok.inj h2)).2).1
    subst e1
    rw [hw depth ver hn] at hb
    exact ⟨t, d', ht, hc, C13_round_trips_iff d' bs hb⟩

/-- The same with files: `data = DatFile.parse(src)`, a well-typed program, `data.save(dst)`.  If the file cannot be loaded or the program
raises, no file is touched; otherwise the disk ends up as if the value `d'` that the program makes of the loaded value had been saved, at
any crash or fault. -/
theorem C48_file (z : Zlib) (env : Environment) (fs : FileSystem) (H : Heap) (depth : Nat) (hn : 5 ≤ depth) (src dst : Path)
    (es : List Edit) (hes : ∀ e ∈ es, Edit.Typed (Declares false) (.cls (lit "DatFile")) e) :
    match DatFile.parse z fs src with
    | .raised e => editObject (fun o => runEdits o es) z env fs H depth src dst = (fs, .raised e)
    | .crashed => False
    | .returned d =>
      (∃ x, editTree es (d.object d.old) = .error x ∧ (x = .indexError ∨ x = .attributeError ∨ x = .typeError) ∧
        editObject (fun o => runEdits o es) z env fs H depth src dst = (fs, .raised x)) ∨
      (∃ t d', editTree es (d.object d.old) = .ok t ∧ Converts t (DatFile.object false d') ∧
        editObject (fun o => runEdits o es) z env fs H depth src dst = DatFile.save z env fs d' dst) := by
  have hp := C47_parse z fs src H
  unfold editObject
  cases e : DatFile.parse z fs src with
  | raised x => rw [e] at hp; dsimp only at hp ⊢; rw [hp]
  | crashed => rw [e] at hp; exact hp.elim
  | returned d =>
    rw [e] at hp
    obtain ⟨o, N, fp, h1, r, nd, fr, v, hw⟩ := hp
    rw [h1]
    dsimp only
    have f := (C48_fits_iff _).2 ⟨d, DatFile.lengths hw, DatFile.converts d.old d⟩
    have main := C45_statements _ o _ fp r nd es (ByteHandler.new [])
    cases e2 : editTree es (d.object d.old) with
    | error x =>
      rw [e2] at main
      dsimp only at main
      refine .inl ⟨x, rfl, ?_, by rw [main]⟩
      rcases C48_typed_raises es hes _ x f e2 with k | ⟨k, _⟩
      · exact .inl k
      · exact .inr k
    | ok t =>
      rw [e2] at main
      obtain ⟨H'', fp', hr, r', nd', _⟩ := main
      obtain ⟨d', hl, hc⟩ := (C48_fits_iff _).1 (C48_typed_keeps es hes _ t f e2)
      refine .inr ⟨t, d', rfl, hc, ?_⟩
      rw [hr]
      exact C47_save_file z env fs H'' o t fp' r' d' hc.carries hl.sized depth hn dst

/-! ## non-vacuity -/

/-- The place `data.civs[1].units[4].bird` has the declared type `Bird`, past a `None` check. -/
theorem leads_bird (i j : Nat) : Leads (Declares false) (.cls (lit "DatFile"))
    [.attr (lit "civs"), .item i, .attr (lit "units"), .item j, .attr (lit "bird")] (.cls (lit "Bird")) :=
  .attr .DatFile (a := .list (.cls (lit "Civ"))) rfl <| .listItem <|
    .attr .Civ (a := .list (.opt (.cls (lit "Unit")))) rfl <| .listItem <| .opt <|
      .attr .Unit (a := .opt (.cls (lit "Bird"))) rfl <| .opt .here

/-- The statements of the README are accepted: `data.techs[22].resource_costs[0].amount = 69` and
`data.civs[i].units[434].bird.tasks.pop()`; and so is `data.civs[i].units[434].bird.work_rate = 2`, an `int` for a `float`. -/
example (i : Nat) : ∀ e ∈ ([⟨[.attr (lit "techs"), .item 22, .attr (lit "resource_costs"), .item 0], .setAttr (lit "amount"), .int 69⟩,
      ⟨[.attr (lit "civs"), .item i, .attr (lit "units"), .item 434, .attr (lit "bird"), .attr (lit "tasks")], .pop, .none⟩,
      ⟨[.attr (lit "civs"), .item i, .attr (lit "units"), .item 434, .attr (lit "bird")], .setAttr (lit "work_rate"), .int 2⟩] : List Edit),
    Edit.Typed (Declares false) (.cls (lit "DatFile")) e := by
  intro e he
  simp only [List.mem_cons, List.not_mem_nil, or_false] at he
  rcases he with rfl | rfl | rfl
  · exact .setAttr (c := lit "ResearchResourceCost")
      (.attr .DatFile (a := .list (.cls (lit "Tech"))) rfl <| .listItem <|
        .attr .Tech (a := .tuple [.cls (lit "ResearchResourceCost"), .cls (lit "ResearchResourceCost"), .cls (lit "ResearchResourceCost")])
          rfl <| .tupleItem rfl .here) .ResearchResourceCost (a := .int) rfl (.int _)
  · exact .pop (a := .cls (lit "Task"))
      (.attr .DatFile (a := .list (.cls (lit "Civ"))) rfl <| .listItem <|
    .attr .Civ (a := .list (.opt (.cls (lit "Unit")))) rfl <| .listItem <| .opt <|
      .attr .Unit (a := .opt (.cls (lit "Bird"))) rfl <| .opt <|
        .attr .Bird (a := .list (.cls (lit "Task"))) rfl .here)
  · exact .setAttr (leads_bird i 434) .Bird (a := .float) rfl (.promote (d := 0x4000000000000000) (by decide +kernel))

/-- A statement that the checker does not accept — a `str` in an `int` field — and what it leads to: saving such an object raises. -/
example : ¬ Suits (Declares false) .int (.str (lit "69")) ∧
    errorOf (W.int16 [] (.ok (.str (lit "69")))) = some .attributeError := ⟨fun h => (nomatch h), by decide +kernel⟩

end Genie
