import Verif.Proof.Heap.Readme
import Verif.Proof.Heap.Asdict
import Verif.Props.C11_C15_RoundTrip
import Verif.Props.C43_Readme
import Verif.Model.Scripts
/-!
# C45: objects and in-place edits

The rest of the model works with values.  A Python program works with objects: `from_bytes` creates them, and a user changes them in place.
Here the readers run on a heap (`Verif/Model/HeapReaders.lean`), a user's expressions and statements run on it too
(`Verif/Model/HeapPrograms.lean`), and `Rep H v t fp` (`Verif/Spec/Objects.lean`) says what a reference stands for: the tree `t`, made of
the objects `fp`.
-/

namespace Genie
open HReader

/-- The argument `old` of the trees: was the object read from a file before 8.4? -/
theorem old_eq (v : Version) : (!v.ge .VER_84) = decide (v.num < 84) := by cases v <;> decide

/-! ## what loading builds -/

/-- `DatFile.from_bytes` on the heap raises what `DatFile.fromBytes` raises, and when that returns `d`, it returns a new object with the
value of `d`, made of new objects each of which occurs at one place only.  The objects that existed before are not touched. -/
theorem C45_load_builds (H : Heap) (s : ByteHandler) :
    (∀ e, DatFile.fromBytes s = .error e → DatFile.build H s = .error e) ∧
    (∀ d s', DatFile.fromBytes s = .ok (d, s') →
      ∃ v N fp, DatFile.build H s = .ok (v, H ++ N, s') ∧
        Rep (H ++ N) v (d.object (decide (s'.version.num < 84))) fp ∧ fp.Nodup ∧ ∀ a ∈ fp, H.length ≤ a) := by
  constructor
  · intro e h
    rcases DatFile.built H s with ⟨e', h1, h2⟩ | ⟨ver, h1⟩
    · rw [h2] at h; cases h; exact h1
    · rw [h] at h1
      unfold Post at h1
      split at h1
      · next h2 h3 => cases h3; subst h1; exact h2
      · next h2 => cases h2
      · exact h1.elim
  · intro d s' h
    rcases DatFile.built H s with ⟨e', h1, h2⟩ | ⟨ver, h1⟩
    · rw [h2] at h; cases h
    · rw [h] at h1
      unfold Post at h1
      split at h1
      · next h2 => cases h2
      · next v H' s1 d' s2 hb he =>
        have he := Except.ok.inj he
        have e1 : d = d' := (Prod.mk.inj he).1
        have e2 : s' = s2 := (Prod.mk.inj he).2
        subst e1 e2
        obtain ⟨rfl, rfl, N, fp, rfl, r, nd, fr⟩ := h1
        rw [old_eq] at r
        exact ⟨v, N, fp, hb, r, nd, fr⟩
      · exact h1.elim

/-- The other way round: whatever the heap reader returns, the value reader returns too. -/
theorem load_value {H H' : Heap} {s s' : ByteHandler} {v : HVal} (h : DatFile.build H s = .ok (v, H', s')) :
    ∃ d N fp, DatFile.fromBytes s = .ok (d, s') ∧ H' = H ++ N ∧ Rep H' v (d.object (decide (s'.version.num < 84))) fp ∧ fp.Nodup ∧
      ∀ a ∈ fp, H.length ≤ a := by
  cases e : DatFile.fromBytes s with
  | error x => rw [(C45_load_builds H s).1 x e] at h; cases h
  | ok p =>
    obtain ⟨d, s1⟩ := p
    obtain ⟨v1, N, fp, hb, r, nd, fr⟩ := (C45_load_builds H s).2 d s1 e
    rw [h] at hb
    have hb := Except.ok.inj hb
    have h1 := (Prod.mk.inj hb).1
    have h2 := (Prod.mk.inj (Prod.mk.inj hb).2).1
    have h3 := (Prod.mk.inj (Prod.mk.inj hb).2).2
    subst h1 h2 h3
    exact ⟨d, N, fp, rfl, rfl, r, nd, fr⟩

/-- No two places of a loaded file hold the same object: if following two expressions leads to the same list, tuple or instance, the
expressions are the same. -/
theorem C45_no_sharing (H H' : Heap) (s s' : ByteHandler) (v : HVal) (h : DatFile.build H s = .ok (v, H', s')) (p q : ObjPath) (a : Nat)
    (hp : H'.follow v p = some (.ref a)) (hq : H'.follow v q = some (.ref a)) : p = q := by
  obtain ⟨d, N, fp, _, _, r, nd, _⟩ := load_value h
  exact r.follow_inj nd hp hq

/-- Loading changes no existing object, and nothing reachable from the new file existed before: two files loaded one after the other, or
the same file loaded twice, share nothing. -/
theorem C45_load_fresh (H H' : Heap) (s s' : ByteHandler) (v : HVal) (h : DatFile.build H s = .ok (v, H', s')) :
    (∀ a, a < H.length → H'[a]? = H[a]?) ∧ (∀ p a, H'.follow v p = some (.ref a) → H.length ≤ a) := by
  obtain ⟨d, N, fp, _, rfl, r, nd, fr⟩ := load_value h
  exact ⟨fun a ha => List.getElem?_append_left ha, fun p a hp => fr a (r.follow_mem hp)⟩

/-- An expression such as `data.techs[22].resource_costs[0]` on a loaded file: it raises `AttributeError`, `IndexError` or `TypeError`
exactly when the value of the file says so, and otherwise it evaluates to an object whose value is that part of the file's value. -/
theorem C45_expressions (H H' : Heap) (s s' : ByteHandler) (v : HVal) (d : DatFile) (h : DatFile.build H s = .ok (v, H', s'))
    (hd : DatFile.fromBytes s = .ok (d, s')) (p : ObjPath) (s1 : ByteHandler) :
    match (d.object (decide (s'.version.num < 84))).eval p with
    | .ok u => ∃ w fp, HReader.eval v p H' s1 = .ok (w, H', s1) ∧ Rep H' w u fp
    | .error e => HReader.eval v p H' s1 = .error e := by
  obtain ⟨d', N, fp, hd', _, r, nd, _⟩ := load_value h
  rw [hd] at hd'
  have e1 : d = d' := (Prod.mk.inj (Except.ok.inj hd')).1
  subst e1
  cases e : (d.object (decide (s'.version.num < 84))).eval p with
  | error x => exact r.eval_error e s1
  | ok u =>
    obtain ⟨w, hw, hole⟩ := r.get (ObjTree.eval_get.mp e)
    obtain ⟨fpu, _, _, ru, _, _⟩ := hole.hole
    exact ⟨w, fpu, Rep.eval_ok hw s1, ru⟩

/-! ## what a program of statements does -/

/-- A program of statements on any tree of objects: it raises what its meaning on values raises, and otherwise the tree has the new value,
is a tree again, and every object outside it is untouched. -/
theorem C45_statements (H : Heap) (v : HVal) (t : ObjTree) (fp : List Nat) (r : Rep H v t fp) (nd : fp.Nodup) (es : List Edit)
    (s : ByteHandler) :
    match editTree es t with
    | .ok t' => ∃ H' fp', runEdits v es H s = .ok ((), H', s) ∧ Rep H' v t' fp' ∧ fp'.Nodup ∧
        (∀ a, a < H.length → a ∉ fp → H'[a]? = H[a]?) ∧ (∀ a ∈ fp', a ∈ fp ∨ H.length ≤ a) ∧ H.length ≤ H'.length
    | .error e => runEdits v es H s = .error e := by
  induction es generalizing H t fp with
  | nil => exact ⟨H, fp, rfl, r, nd, fun _ _ _ => rfl, fun _ h => .inl h, Nat.le_refl _⟩
  | cons e es ih =>
    unfold editTree runEdits
    obtain ⟨v', N, fpv, hn, rv, ndv, frv⟩ := new_run e.value H s
    have one := Stmt.run_at r nd rv ndv frv e.place e.stmt s
    rw [HReader.bind_ok hn]
    cases e1 : t.eval e.place with
    | error x =>
      dsimp only
      exact HReader.bind_error ((r.extend N).eval_error e1 s)
    | ok u =>
      dsimp only
      rw [e1] at one
      rw [← HReader.bind_assoc]
      change match e.stmt.onTree e.value u with | .ok t' => _ | .error e => _ at one
      cases e2 : e.stmt.onTree e.value u with
      | error x =>
        rw [e2] at one
        exact HReader.bind_error one
      | ok u' =>
        rw [e2] at one
        obtain ⟨H1, h1, ed⟩ := one
        obtain ⟨fp1, r1, nd1, sub1⟩ := ed.rep
        rw [HReader.bind_ok h1]
        have rest := ih H1 _ fp1 r1 nd1
        dsimp only
        cases e3 : editTree es (t.put e.place u') with
        | error x => rw [e3] at rest; exact rest
        | ok t' =>
          rw [e3] at rest
          obtain ⟨H2, fp2, h2, r2, nd2, same2, sub2, len2⟩ := rest
          refine ⟨H2, fp2, h2, r2, nd2, fun a ha hf => ?_, fun a ha => ?_, Nat.le_trans ed.edited.length len2⟩
          · have hf1 : a ∉ fp1 := fun hm => (sub1 a hm).elim hf fun h => by omega
            rw [same2 a (Nat.lt_of_lt_of_le ha ed.edited.length) hf1, ed.edited.same a ha hf]
          · rcases sub2 a ha with h | h
            · exact sub1 a h
            · exact .inr (Nat.le_trans ed.edited.length h)

/-- `put` is what it should be: the place holds the new value, and every place that is neither inside nor around it holds what it held. -/
theorem C45_put (t u c : ObjTree) (p : ObjPath) (h : t.get p = some c) :
    (t.put p u).get p = some u ∧ (∀ q, ¬ p <+: q → ¬ q <+: p → (t.put p u).get q = t.get q) :=
  ⟨ObjTree.get_put_self h, fun _ h1 h2 => ObjTree.get_put_ne h1 h2⟩

/-- Two files in one process: load the first, load the second (the same bytes or others), run any program on either of them.  If it does
not raise, the other file still has the value it was loaded with. -/
theorem C45_two_files (H H1 H2 : Heap) (s1 s1' s2 s2' s : ByteHandler) (v1 v2 : HVal)
    (h1 : DatFile.build H s1 = .ok (v1, H1, s1')) (h2 : DatFile.build H1 s2 = .ok (v2, H2, s2')) (es : List Edit) :
    ∃ d1 d2, DatFile.fromBytes s1 = .ok (d1, s1') ∧ DatFile.fromBytes s2 = .ok (d2, s2') ∧
      (∀ H', runEdits v1 es H2 s = .ok ((), H', s) → IsTree H' v2 (d2.object (decide (s2'.version.num < 84))) ∧
        ∃ t, editTree es (d1.object (decide (s1'.version.num < 84))) = .ok t ∧ IsTree H' v1 t) ∧
      (∀ H', runEdits v2 es H2 s = .ok ((), H', s) → IsTree H' v1 (d1.object (decide (s1'.version.num < 84))) ∧
        ∃ t, editTree es (d2.object (decide (s2'.version.num < 84))) = .ok t ∧ IsTree H' v2 t) := by
  obtain ⟨d1, N1, fp1, hd1, rfl, r1, nd1, fr1⟩ := load_value h1
  obtain ⟨d2, N2, fp2, hd2, rfl, r2, nd2, fr2⟩ := load_value h2
  have r1' := r1.extend N2
  have lt1 := r1.bound
  have lt2 := r2.bound
  refine ⟨d1, d2, hd1, hd2, fun H' hr => ?_, fun H' hr => ?_⟩
  · have main := C45_statements _ v1 _ fp1 r1' nd1 es s
    cases e : editTree es (d1.object (decide (s1'.version.num < 84))) with
    | error x => rw [e] at main; rw [main] at hr; cases hr
    | ok t =>
      rw [e] at main
      obtain ⟨H'', fp', hr', r', nd', same, _, _⟩ := main
      rw [hr] at hr'
      have e' : H' = H'' := (Prod.mk.inj (Prod.mk.inj (Except.ok.inj hr')).2).1
      subst e'
      refine ⟨⟨fp2, r2.frame fun a ha => same a (lt2 a ha) fun hm => ?_, nd2⟩, t, rfl, fp', r', nd'⟩
      have := lt1 a hm; have := fr2 a ha; omega
  · have main := C45_statements _ v2 _ fp2 r2 nd2 es s
    cases e : editTree es (d2.object (decide (s2'.version.num < 84))) with
    | error x => rw [e] at main; rw [main] at hr; cases hr
    | ok t =>
      rw [e] at main
      obtain ⟨H'', fp', hr', r', nd', same, _, _⟩ := main
      rw [hr] at hr'
      have e' : H' = H'' := (Prod.mk.inj (Prod.mk.inj (Except.ok.inj hr')).2).1
      subst e'
      refine ⟨⟨fp1, r1'.frame fun a ha => same a (r1'.bound a ha) fun hm => ?_, nd1⟩, t, rfl, fp', r', nd'⟩
      have := lt1 a ha; have := fr2 a hm; omega

/-! ## the programs of the README -/

/-- `data.techs[22].resource_costs[0].amount = 69` on a loaded file: what `changeLoom` does on values, in place. -/
theorem C45_readme_loom (H H' : Heap) (s s' s1 : ByteHandler) (v : HVal) (d : DatFile) (h : DatFile.build H s = .ok (v, H', s'))
    (hd : DatFile.fromBytes s = .ok (d, s')) :
    match Genie.changeLoom d with
    | .ok d' => ∃ H'', HReader.changeLoom v H' s1 = .ok ((), H'', s1) ∧ IsTree H'' v (d'.object (decide (s'.version.num < 84))) ∧
        ∀ a, a < H.length → H''[a]? = H[a]?
    | .error e => HReader.changeLoom v H' s1 = .error e := by
  obtain ⟨d', N, fp, hd', rfl, r, nd, fr⟩ := load_value h
  rw [hd] at hd'
  have e1 : d = d' := (Prod.mk.inj (Except.ok.inj hd')).1
  subst e1
  have main := changeLoom_run r nd s1
  cases e : Genie.changeLoom d with
  | error x => rw [e] at main; exact main
  | ok d' =>
    rw [e] at main
    obtain ⟨H'', h1, ed⟩ := main
    obtain ⟨fp', r', nd', _⟩ := ed.rep
    refine ⟨H'', h1, ⟨fp', r', nd'⟩, fun a ha => ?_⟩
    rw [ed.edited.same a (by simp; omega) fun hm => by have := fr a hm; omega, List.getElem?_append_left ha]

/-- `for civ in data.civs: civ.units[434].bird.tasks.pop()` on a loaded file: what `changeKings` does on values, in place. -/
theorem C45_readme_kings (H H' : Heap) (s s' s1 : ByteHandler) (v : HVal) (d : DatFile) (h : DatFile.build H s = .ok (v, H', s'))
    (hd : DatFile.fromBytes s = .ok (d, s')) :
    match Genie.changeKings d with
    | .ok d' => ∃ H'', HReader.changeKings v H' s1 = .ok ((), H'', s1) ∧ IsTree H'' v (d'.object (decide (s'.version.num < 84))) ∧
        ∀ a, a < H.length → H''[a]? = H[a]?
    | .error e => HReader.changeKings v H' s1 = .error e := by
  obtain ⟨d', N, fp, hd', rfl, r, nd, fr⟩ := load_value h
  rw [hd] at hd'
  have e1 : d = d' := (Prod.mk.inj (Except.ok.inj hd')).1
  subst e1
  have main := changeKings_run r nd s1
  cases e : Genie.changeKings d with
  | error x => rw [e] at main; exact main
  | ok d' =>
    rw [e] at main
    obtain ⟨H'', h1, ed⟩ := main
    obtain ⟨fp', r', nd', _⟩ := ed.rep
    refine ⟨H'', h1, ⟨fp', r', nd'⟩, fun a ha => ?_⟩
    rw [ed.edited.same a (by simp; omega) fun hm => by have := fr a hm; omega, List.getElem?_append_left ha]

/-! ## `dataclasses.asdict` -/

theorem DatFile.old_parsed {s s' : ByteHandler} {d : DatFile} (h : DatFile.fromBytes s = .ok (d, s')) :
    d.old = decide (s'.version.num < 84) := by
  unfold DatFile.old
  rw [(versionNames_spec (C13_parsed_wellformed _ _ _ h).version).1]
  dsimp only
  cases s'.version <;> decide

/-- `dataclasses.asdict` of a loaded object is the tree of C34: one dictionary per instance, every field in its order. -/
theorem C45_asdict (H H' : Heap) (s s' : ByteHandler) (v : HVal) (d : DatFile) (h : DatFile.build H s = .ok (v, H', s'))
    (hd : DatFile.fromBytes s = .ok (d, s')) : ∃ t, IsTree H' v t ∧ t.asdict = d.tree := by
  obtain ⟨d', N, fp, hd', rfl, r, nd, fr⟩ := load_value h
  rw [hd] at hd'
  have e1 : d = d' := (Prod.mk.inj (Except.ok.inj hd')).1
  subst e1
  exact ⟨_, ⟨fp, r, nd⟩, by unfold DatFile.tree; rw [DatFile.object_asdict, DatFile.old_parsed hd]⟩

/-! ## non-vacuity -/

/-- For every version there is a file with 23 techs, two civs and units; loaded into a heap that already holds an object, it is an object
at an address behind it, and both programs of the README run on it. -/
example (v : Version) (hv : v ≠ .UNDEFINED) : ∃ bs s' o H',
    DatFile.build [.list []] (ByteHandler.new bs) = .ok (o, H', s') ∧
    DatFile.fromBytes (ByteHandler.new bs) = .ok (Sample.modFile v (some (Sample.archer v)), s') := by
  have hw : DatFile.WF (Sample.modFile v (some (Sample.archer v))) :=
    ⟨v, Sample.modFile_wf v hv (some (Sample.archer v)) fun u hu => by cases hu; exact Sample.archer_wf v hv⟩
  obtain ⟨bs, hb, _⟩ := C12_datfile_round_trip_file _ hw
  obtain ⟨s', hr⟩ := (C13_round_trips_iff _ bs hb).2 hw
  obtain ⟨o, N, _, h, _⟩ := (C45_load_builds [.list []] (ByteHandler.new bs)).2 _ s' hr
  exact ⟨bs, s', o, _, h, hr⟩

/-- A program of three statements on a small tree — `o.tasks.pop()`, `o.n = 5`, `o.tasks.append([6])` — and one that raises. -/
example :
    (resultOf (runEdits (.ref 0) [⟨[.attr (lit "tasks")], .pop, .none⟩, ⟨[], .setAttr (lit "n"), .int 5⟩,
        ⟨[.attr (lit "tasks")], .append, .list [.int 6]⟩]
        [.record (lit "X") [(lit "n", .int 1), (lit "tasks", .ref 1)], .list [.int 7, .int 8]] (ByteHandler.new []))).map (·.2.1) =
      some [.record (lit "X") [(lit "n", .int 5), (lit "tasks", .ref 1)], .list [.int 7, .ref 2], .list [.int 6]] := by decide +kernel

example :
    errorOf (runEdits (.ref 0) [⟨[.attr (lit "n"), .attr (lit "m")], .pop, .none⟩]
        [.record (lit "X") [(lit "n", .int 1), (lit "tasks", .ref 1)], .list [.int 7, .int 8]] (ByteHandler.new [])) = some .attributeError := by
  decide +kernel

/-- `o.tasks.insert(1, 9)`, `del o.tasks[0]`, `o.tasks.insert(7, 4)`, `del o.tasks[1:2]`, and an attribute that is not there, which is
created. -/
example :
    (resultOf (runEdits (.ref 0) [⟨[.attr (lit "tasks")], .insert 1, .int 9⟩, ⟨[.attr (lit "tasks")], .delItem 0, .none⟩,
        ⟨[.attr (lit "tasks")], .insert 7, .int 4⟩, ⟨[.attr (lit "tasks")], .delSlice 1 2, .none⟩, ⟨[], .setAttr (lit "m"), .str []⟩]
        [.record (lit "X") [(lit "n", .int 1), (lit "tasks", .ref 1)], .list [.int 7, .int 8]] (ByteHandler.new []))).map (·.2.1) =
      some [.record (lit "X") [(lit "n", .int 1), (lit "tasks", .ref 1), (lit "m", .str [])], .list [.int 9, .int 4]] := by decide +kernel

/-- `del o.tasks[2]` with two tasks. -/
example :
    errorOf (runEdits (.ref 0) [⟨[.attr (lit "tasks")], .delItem 2, .none⟩]
        [.record (lit "X") [(lit "n", .int 1), (lit "tasks", .ref 1)], .list [.int 7, .int 8]] (ByteHandler.new [])) = some .indexError := by
  decide +kernel

/-- Sharing would matter: with one list in two places, a statement at one place changes the other. -/
example :
    (resultOf (runEdits (.ref 0) [⟨[.attr (lit "a")], .append, .int 1⟩]
        [.record (lit "X") [(lit "a", .ref 1), (lit "b", .ref 1)], .list []] (ByteHandler.new []))).map
      (fun r => (Heap.follow r.2.1 (.ref 0) [.attr (lit "b"), .item 0])) = some (some (.int 1)) := by decide +kernel

end Genie
