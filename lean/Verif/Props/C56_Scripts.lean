import Verif.Proof.Heap.Changes
import Verif.Proof.Heap.Defined
import Verif.Spec.Schedules
import Verif.Props.C24_C26_Files
/-!
# C56: scripts

Any program of a user that works with the objects of this package: with variables, conditions, loops, exceptions that are caught, several
files, saving in between.  What such a script means is a matter of values (`Verif/Spec/Forest.lean`); objects in memory, their addresses and
what else is there do not come into it.
-/

namespace Genie
open HReader ObjTree

/-- One operation: in memory it answers or raises what it does on values, and the objects are then the trees they are on values; objects that
are not part of the script's trees are left alone. -/
theorem C56_operation (W : Memory) (F : Forest) (roots : List HVal) (fp : List Nat) (h : Holds W F roots fp) (depth : Nat) (s : ByteHandler) (op : Op)
    (r : Py Seen) (F' : Forest) (hm : op.onForest depth F = some (r, F')) :
    ∃ roots' fp', (W.op depth s op).1 = r ∧ Holds (W.op depth s op).2 F' roots' fp' ∧ Kept W.heap (W.op depth s op).2.heap fp fp' ∧
      W.names <+: (W.op depth s op).2.names :=
  Op.sim h depth s op r F' hm

/-- Every operation has a meaning on values, unless it puts an object at a second place (or asks whether two tuples are one object, or names an
attribute twice in a call). -/
theorem C56_has_meaning (op : Op) (F : Forest) (depth : Nat) (h : op.onForest depth F = Option.none) :
    op.Shares F ∨ (∃ o o' ts us, op = .same o o' ∧ F.value o = .tuple ts ∧ F.value o' = .tuple us) ∨
      (∃ cls vs, op = .new cls vs ∧ ¬ (vs.map (·.1)).Nodup) := by
  have stmt : ∀ (o : Nat) (vs : List Arg) (wrong : PyErr) (cut : Nat → Py (Nat × Nat)), F.listStatement o vs wrong cut = Option.none →
      ∃ r q, F.spots[o]? = some (r, q) ∧ F.args (some r) vs = Option.none := by
    intro o vs wrong cut h
    unfold Forest.listStatement at h
    split at h
    · rename_i p ts h1 h2
      split at h
      · cases h
      · refine ⟨p.1, p.2, h1, ?_⟩
        cases e : F.args (some p.1) vs with
        | none => rfl
        | some us => rw [e] at h; cases h
    · cases h
  have one : ∀ {op : Op} {o : Nat}, op.into = some o → ∀ {wrong cut}, F.listStatement o op.puts wrong cut = Option.none → op.Shares F := by
    intro op o hi wrong cut h
    obtain ⟨r, q, h1, h2⟩ := stmt o _ wrong cut h
    exact Op.shares_of_args (home := some r) (fun r' e => by cases e; exact ⟨o, q, hi, h1⟩) h2
  have noarg : ∀ {o wrong cut}, F.listStatement o [] wrong cut ≠ Option.none := by
    intro o wrong cut h
    obtain ⟨r, q, _, h2⟩ := stmt o [] wrong cut h
    rw [args_nil] at h2
    cases h2
  cases op with
  | getAttr o name => unfold Op.onForest at h; dsimp only at h; split at h <;> cases h
  | getItem o i =>
    unfold Op.onForest at h; dsimp only at h
    split at h
    · split at h <;> cases h
    · split at h <;> cases h
    · cases h
  | len o => unfold Op.onForest at h; dsimp only at h; split at h <;> cases h
  | same o o' =>
    unfold Op.onForest at h; dsimp only at h
    split at h
    · cases h
    · split at h
      · rename_i ts us h1 h2; exact .inr (.inl ⟨o, o', ts, us, rfl, h1, h2⟩)
      · cases h
  | setAttr o name v =>
    unfold Op.onForest at h; dsimp only at h
    split at h
    · rename_i p cls ts h1 h2
      split at h
      · cases h
      · cases e : F.args (some p.1) [v] with
        | none =>
          exact .inl (Op.shares_of_args (op := .setAttr o name v) (home := some p.1) (fun r' e => by cases e; exact ⟨o, p.2, rfl, h1⟩) e)
        | some us =>
          obtain ⟨u, rfl⟩ := args_one e
          rw [e] at h
          cases h
    · cases h
  | setItem o i v => exact .inl (one (op := .setItem o i v) (o := o) rfl h)
  | append o v => exact .inl (one (op := .append o v) (o := o) rfl (wrong := .attributeError) (cut := fun n => .ok (n, n)) h)
  | insert o i v => exact .inl (one (op := .insert o i v) (o := o) rfl (wrong := .attributeError) (cut := fun n => .ok (bound n i, bound n i)) h)
  | pop o i =>
    unfold Op.onForest at h; dsimp only at h
    split at h
    · cases h
    · exact absurd h noarg
  | delItem o i => exact absurd h noarg
  | delSlice o i j => exact absurd h (noarg (wrong := .typeError) (cut := fun n => .ok (bound n i, max (bound n i) (bound n j))))
  | newList vs =>
    refine .inl (Op.shares_of_args (op := .newList vs) (home := Option.none) (fun _ e => nomatch e) ?_)
    unfold Op.onForest at h; dsimp only at h
    exact Option.map_eq_none_iff.1 h
  | newTuple vs =>
    refine .inl (Op.shares_of_args (op := .newTuple vs) (home := Option.none) (fun _ e => nomatch e) ?_)
    unfold Op.onForest at h; dsimp only at h
    exact Option.map_eq_none_iff.1 h
  | new cls vs =>
    unfold Op.onForest at h; dsimp only at h
    split at h
    · exact .inl (Op.shares_of_args (op := .new cls vs) (home := Option.none) (fun _ e => nomatch e) (Option.map_eq_none_iff.1 h))
    · rename_i hn; exact .inr (.inr ⟨cls, vs, rfl, hn⟩)
  | deepcopy o => unfold Op.onForest at h; dsimp only at h; split at h <;> cases h
  | slice o i j =>
    unfold Op.onForest at h; dsimp only at h
    split at h
    · rename_i ts e
      obtain ⟨t, ht, hi⟩ := Forest.again_none (Option.map_eq_none_iff.1 h)
      exact .inl (.inr (.inr ⟨t, by unfold Op.spreads; dsimp only; rw [e]; exact ht, hi⟩))
    · rename_i ts e
      obtain ⟨t, ht, hi⟩ := Forest.again_none (Option.map_eq_none_iff.1 h)
      exact .inl (.inr (.inr ⟨t, by unfold Op.spreads; dsimp only; rw [e]; exact ht, hi⟩))
    · cases h
  | extend o o' =>
    unfold Op.onForest at h; dsimp only at h
    split at h
    · split at h
      · rename_i ts e
        obtain ⟨t, ht, hi⟩ := Forest.again_none (Option.map_eq_none_iff.1 h)
        exact .inl (.inr (.inr ⟨t, by unfold Op.spreads; dsimp only; rw [e]; exact ht, hi⟩))
      · rename_i ts e
        obtain ⟨t, ht, hi⟩ := Forest.again_none (Option.map_eq_none_iff.1 h)
        exact .inl (.inr (.inr ⟨t, by unfold Op.spreads; dsimp only; rw [e]; exact ht, hi⟩))
      · cases h
    · cases h
  | copy o =>
    unfold Op.onForest at h; dsimp only at h
    split at h
    · rename_i ts _ e
      obtain ⟨t, ht, hi⟩ := Forest.again_none (Option.map_eq_none_iff.1 h)
      exact .inl (.inr (.inr ⟨t, by unfold Op.spreads; dsimp only; rw [e]; exact ht, hi⟩))
    · rename_i cls ts _ e
      obtain ⟨t, ht, hi⟩ := Forest.again_none (Option.map_eq_none_iff.1 h)
      exact .inl (.inr (.inr ⟨t, by unfold Op.spreads; dsimp only; rw [e]; exact ht, hi⟩))
    · cases h
    · cases h

/-- A script, at any moment of its run, whether it ends or not, with any faults of the disk and a crash: it is where the script on values is. -/
theorem C56_script (P : Script σ α) (z : Zlib) (env : Nat → Environment) (depth : Nat) (H0 : Heap) (names0 : List HVal) (fp0 : List Nat)
    (s : Status σ Memory) (f : Status σ Forest) (h : Agrees H0 names0 fp0 s f) (n : Nat) (out : Status σ Forest)
    (hm : P.runF z env depth n f = some out) : Agrees H0 names0 fp0 (P.run z env depth n s) out :=
  Script.sim P z env depth H0 names0 fp0 s f h n out hm

/-- A script that starts with no objects, whatever else is in memory: its state and the files are, at any moment, what they are on values; and it
has changed none of the objects that were there. -/
theorem C56_from_scratch (P : Script σ α) (z : Zlib) (env : Nat → Environment) (depth : Nat) (H : Heap) (disk : FileSystem) (st : σ) (n : Nat) :
    (∀ st' S', P.runF z env depth n (.running st ⟨disk, ⟨[], []⟩⟩) = some (.running st' S') →
      ∃ W, P.run z env depth n (.running st ⟨disk, ⟨H, []⟩⟩) = .running st' ⟨S'.disk, W⟩ ∧ H <+: W.heap) ∧
    (∀ disk', P.runF z env depth n (.running st ⟨disk, ⟨[], []⟩⟩) = some (.crashed disk') →
      P.run z env depth n (.running st ⟨disk, ⟨H, []⟩⟩) = .crashed disk') := by
  have start : Agrees H [] [] (.running st ⟨disk, ⟨H, []⟩⟩ : Status σ Memory) (.running st ⟨disk, ⟨[], []⟩⟩) :=
    ⟨rfl, rfl, ⟨[], [], ⟨.nil, fun _ _ => Nat.zero_le _, rfl, fun _ _ _ e => nomatch e⟩, .refl _ _⟩, List.prefix_rfl⟩
  constructor
  · intro st' S' hm
    have := Script.sim P z env depth H [] [] _ _ start n _ hm
    generalize P.run z env depth n (.running st ⟨disk, ⟨H, []⟩⟩) = x at this
    cases x with
    | crashed => exact this.elim
    | running st2 S2 =>
      obtain ⟨rfl, hd, ⟨roots, fp, hh, hk⟩, _⟩ := this
      obtain ⟨d2, W⟩ := S2
      dsimp only at hd hk
      subst hd
      refine ⟨W, rfl, ?_⟩
      have hk1 := hk.length
      refine List.prefix_iff_eq_take.2 (List.ext_getElem? fun i => ?_)
      by_cases hi : i < H.length
      · rw [List.getElem?_take_of_lt hi, hk.same i hi (fun e => nomatch e)]
      · rw [List.getElem?_eq_none (by omega), List.getElem?_eq_none (by rw [List.length_take]; omega)]
  · intro disk' hm
    have := Script.sim P z env depth H [] [] _ _ start n _ hm
    generalize P.run z env depth n (.running st ⟨disk, ⟨H, []⟩⟩) = x at this
    cases x with
    | crashed => exact congrArg _ this
    | running st2 S2 => exact this.elim

/-- A program, from its beginning to its end. -/
theorem C56_program (p : Prog α) (z : Zlib) (env : Nat → Environment) (depth i : Nat) (disk : FileSystem) (W : Memory) (F : Forest)
    (roots : List HVal) (fp : List Nat) (h : Holds W F roots fp) (r : Outcome α) (j : Nat) (S' : Situation Forest)
    (hm : p.onForest z env depth i ⟨disk, F⟩ = some (r, j, S')) :
    ∃ W' roots' fp', p.exec z env depth i ⟨disk, W⟩ = (r, j, ⟨S'.disk, W'⟩) ∧ Holds W' S'.memory roots' fp' ∧
      Kept W.heap W'.heap fp fp' ∧ W.names <+: W'.names :=
  p.sim z env depth i disk W F roots fp h r j S' hm

/-- A program is a script: after some number of actions it has come to its end. -/
theorem C56_program_ends (p : Prog α) (z : Zlib) (env : Nat → Environment) (depth : Nat) (S : Situation Memory) :
    ∃ n, match p.exec z env depth 0 S with
      | (.returned a, _, S') => Script.run Prog.script z env depth n (.running p S) = .running (.done a) S'
      | (.raised e, _, S') => Script.run Prog.script z env depth n (.running p S) = .running (.raised e) S'
      | (.crashed, _, S') => Script.run Prog.script z env depth n (.running p S) = .crashed S'.disk := by
  have := p.run_exec z env depth 0 S (.running p S) rfl
  generalize p.exec z env depth 0 S = x at this
  obtain ⟨x, j, S'⟩ := x
  refine ⟨j, ?_⟩
  cases x <;> exact this.2

/-- One thing after another: the second program starts with what the first one returns and leaves, at the moment it ends; if the first raises or
the machine crashes, the second does not start. -/
theorem C56_then (p : Prog α) (f : α → Prog β) (z : Zlib) (env : Nat → Environment) (depth i : Nat) (S : Situation Memory) :
    (p >>= f).exec z env depth i S = match p.exec z env depth i S with
      | (.returned a, j, S') => (f a).exec z env depth j S'
      | (.raised e, j, S') => (.raised e, j, S')
      | (.crashed, j, S') => (.crashed, j, S') := by
  show (p.bind f).exec z env depth i S = _
  induction p generalizing i S with
  | done a => rfl
  | raised e => rfl
  | act a next handler ih1 ih2 =>
    simp only [Prog.bind, Prog.exec]
    rcases S.act z (env i) depth a with ⟨r, S'⟩
    cases r with
    | returned v => exact ih1 v (i + 1) S'
    | raised e => exact ih2 e (i + 1) S'
    | crashed => rfl

/-- `try: p except … as e: handler(e)`: the handler starts if `p` raises, with the objects and files as `p` left them; nothing is undone. -/
theorem C56_try (p : Prog α) (h : PyErr → Prog α) (z : Zlib) (env : Nat → Environment) (depth i : Nat) (S : Situation Memory) :
    (p.tryExcept h).exec z env depth i S = match p.exec z env depth i S with
      | (.returned a, j, S') => (.returned a, j, S')
      | (.raised e, j, S') => (h e).exec z env depth j S'
      | (.crashed, j, S') => (.crashed, j, S') := by
  induction p generalizing i S with
  | done a => rfl
  | raised e => rfl
  | act a next handler ih1 ih2 =>
    simp only [Prog.tryExcept, Prog.exec]
    rcases S.act z (env i) depth a with ⟨r, S'⟩
    cases r with
    | returned v => exact ih1 v (i + 1) S'
    | raised e => exact ih2 e (i + 1) S'
    | crashed => rfl

/-- What is saved: if the value is that of a file `d` — up to `int`s in place of floats and additional attributes — it is the bytes of `d`. -/
theorem C56_written (t : ObjTree) (d : DatFile) (hc : Carries t (d.object false)) (hs : d.Sized) (depth : Nat) (hn : 5 ≤ depth) :
    t.written depth = d.toBytes := by
  obtain ⟨v, N, fp, hr, r, _⟩ := new_run t [] (ByteHandler.new [])
  rw [← r.written depth]
  exact C47_save _ v t fp r d hc hs depth hn _

/-! ## loops -/

/-- `data = DatFile.parse(src)`, a program that changes `data`, `data.save(dst)`. -/
def Prog.loadChangeSave (body : Nat → Prog PUnit) (src dst : Path) : Prog PUnit := do
  let data ← Prog.parse src
  body data
  Prog.save data dst

/-- If the program makes of a file's value that of `edit d`, for every file, the whole does to the disk what it does on values (C43). -/
theorem C56_load_change_save (body : Nat → Prog PUnit) (edit : DatFile → DatFile) (z : Zlib) (e : Environment) (depth : Nat) (hn : 5 ≤ depth)
    (hb : ∀ x d old, d.Sized → (edit d).Sized ∧ (body x).Makes z (fun _ => e) depth x (d.object old) ((edit d).object old))
    (disk : FileSystem) (H : Heap) (src dst : Path) :
    ∃ j W, (Prog.loadChangeSave body src dst).exec z (fun _ => e) depth 0 ⟨disk, ⟨H, []⟩⟩ =
      ((editFile (fun d => .ok (edit d)) z e disk src dst).2, j, ⟨(editFile (fun d => .ok (edit d)) z e disk src dst).1, W⟩) ∧ H <+: W.heap := by
  have whole : ∃ j F, (Prog.loadChangeSave body src dst).onForest z (fun _ => e) depth 0 ⟨disk, ⟨[], []⟩⟩ =
      some ((editFile (fun d => .ok (edit d)) z e disk src dst).2, j, ⟨(editFile (fun d => .ok (edit d)) z e disk src dst).1, F⟩) := by
    have hp := C47_parse z disk src []
    unfold Prog.loadChangeSave editFile
    show ∃ j F, ((Prog.parse src).bind _).onForest z (fun _ => e) depth 0 ⟨disk, ⟨[], []⟩⟩ = _
    rw [Prog.onForest_bind]
    have h1 : ∀ r S', (Action.parse src).onForest z e depth ⟨disk, ⟨[], []⟩⟩ = some (r, S') →
        (Prog.call (.parse src)).onForest z (fun _ => e) depth 0 ⟨disk, ⟨[], []⟩⟩ = some (r, 1, S') := by
      intro r S' h
      unfold Prog.call
      rw [Prog.onForest_act, h]
      cases r <;> rfl
    cases hd : DatFile.parse z disk src with
    | crashed => rw [hd] at hp; exact hp.elim
    | raised x =>
      have h2 := h1 (.raised x) ⟨disk, ⟨[], []⟩⟩ (by unfold Action.onForest; simp only [hd])
      have h3 : (Prog.parse src).onForest z (fun _ => e) depth 0 ⟨disk, ⟨[], []⟩⟩ = some (.raised x, 1, ⟨disk, ⟨[], []⟩⟩) := by
        unfold Prog.parse
        show ((Prog.call (.parse src)).bind _).onForest z (fun _ => e) depth 0 ⟨disk, ⟨[], []⟩⟩ = _
        rw [Prog.onForest_bind, h2]
      rw [h3]
      exact ⟨_, _, rfl⟩
    | returned d =>
      rw [hd] at hp
      obtain ⟨_, _, _, _, _, _, _, _, hw⟩ := hp
      have h2 := h1 (.returned (.object 0 (.instance (lit "DatFile")))) ⟨disk, ⟨[d.object d.old], [(0, [])]⟩⟩ (by
        unfold Action.onForest
        simp only [hd]
        rw [Forest.hand_object (k := .instance (lit "DatFile")) rfl]
        rfl)
      have h3 : (Prog.parse src).onForest z (fun _ => e) depth 0 ⟨disk, ⟨[], []⟩⟩ = some (.returned 0, 1, ⟨disk, ⟨[d.object d.old], [(0, [])]⟩⟩) := by
        unfold Prog.parse
        rw [Prog.onForest_then h2]
        rfl
      rw [h3]
      dsimp only
      obtain ⟨hs, hm⟩ := hb 0 d d.old hw.sized
      obtain ⟨F, j, e1, c⟩ := hm ⟨[d.object d.old], [(0, [])]⟩ disk 1 0 [] _ rfl rfl rfl
      rw [Prog.onForest_then e1]
      have hv : F.value 0 = (edit d).object d.old := Forest.value_get (c.spots 0 (0, []) rfl fun _ _ => rfl) (c.tree _ rfl) rfl
      have hw' : ((edit d).object d.old).written depth = (edit d).toBytes := C56_written _ _ (DatFile.converts _ _).carries hs depth hn
      have h4 : (Action.save 0 dst).onForest z e depth ⟨disk, F⟩ =
          some (match DatFile.save z e disk (edit d) dst with
            | (disk', .returned _) => (.returned .none, ⟨disk', F⟩)
            | (disk', .raised x) => (.raised x, ⟨disk', F⟩)
            | (disk', .crashed) => (.crashed, ⟨disk', F⟩)) := by
        unfold Action.onForest
        dsimp only
        rw [hv]
        unfold DatFile.object at hw' ⊢
        dsimp only
        rw [if_pos rfl, hw']
        unfold DatFile.save
        cases (edit d).toBytes with
        | error x => rfl
        | ok bs =>
          dsimp only
          cases writeBytes e disk dst (z.compress bs) with
          | mk disk' y => cases y <;> rfl
      unfold Prog.save Prog.call
      show ∃ j' F', ((Prog.act (.save 0 dst) .done .raised).bind _).onForest z (fun _ => e) depth j ⟨disk, F⟩ = _
      rw [Prog.onForest_bind, Prog.onForest_act, h4]
      cases DatFile.save z e disk (edit d) dst with
      | mk disk' y => cases y <;> exact ⟨_, _, rfl⟩
  obtain ⟨j, F, hF⟩ := whole
  obtain ⟨W, roots, fp, h1, h2, h3, h4⟩ := C56_program _ z (fun _ => e) depth 0 disk ⟨H, []⟩ ⟨[], []⟩ [] []
    ⟨.nil, fun _ _ => Nat.zero_le _, rfl, fun _ _ _ e => nomatch e⟩ _ _ _ hF
  refine ⟨j, W, h1, List.prefix_iff_eq_take.2 (List.ext_getElem? fun i => ?_)⟩
  have hk1 := h3.length
  dsimp only at hk1
  by_cases hi : i < H.length
  · rw [List.getElem?_take_of_lt hi, h3.same i hi (fun e => nomatch e)]
  · rw [List.getElem?_eq_none (by omega), List.getElem?_eq_none (by rw [List.length_take]; omega)]

/-- `for civ in data.civs: for unit in civ.units: if unit is not None: unit.hit_points = f(unit.hit_points)`. -/
def Prog.hitPoints (f : Int → Int) (data : Nat) : Prog PUnit := do
  let civs ← Prog.object (.getAttr data (lit "civs"))
  Prog.forEach civs fun civ => do
    let units ← Prog.object (.getAttr civ (lit "units"))
    Prog.forEach units fun unit => Prog.update unit (lit "hit_points") f

/-- What that makes of a file: the hit points of every unit of every civilization are changed, and nothing else. -/
def DatFile.hitPoints (f : Int → Int) (d : DatFile) : DatFile :=
  { d with civs := d.civs.map fun c => { c with units := c.units.map (Option.map fun u => { u with hit_points := f u.hit_points }) } }

/-- A script with two nested loops, on every file and for every `f`, at any crash or fault of the disk. -/
theorem C56_hit_points (f : Int → Int) (z : Zlib) (e : Environment) (depth : Nat) (hn : 5 ≤ depth) (disk : FileSystem) (H : Heap) (src dst : Path) :
    ∃ j W, (Prog.loadChangeSave (Prog.hitPoints f) src dst).exec z (fun _ => e) depth 0 ⟨disk, ⟨H, []⟩⟩ =
      ((editFile (fun d => .ok (d.hitPoints f)) z e disk src dst).2, j, ⟨(editFile (fun d => .ok (d.hitPoints f)) z e disk src dst).1, W⟩) ∧
        H <+: W.heap := by
  refine C56_load_change_save (Prog.hitPoints f) (DatFile.hitPoints f) z e depth hn (fun x d old hs => ⟨?_, ?_⟩) disk H src dst
  · intro c hc u hu
    obtain ⟨c0, hc0, rfl⟩ := List.mem_map.1 hc
    obtain ⟨u0, hu0, e0⟩ := List.mem_map.1 hu
    cases u0 with
    | none => cases e0
    | some u0 =>
      cases e0
      exact hs c0 hc0 u0 hu0
  · -- the trees
    let gu : ObjTree → ObjTree := fun t => match t with
      | .obj cls ts => match attrOf (lit "hit_points") ts with
        | some (.int v) => .obj cls (setAttrOf (lit "hit_points") (.int (f v)) ts)
        | _ => .obj cls ts
      | t => t
    let gc : ObjTree → ObjTree := fun t => match t with
      | .obj cls ts => match attrOf (lit "units") ts with
        | some (.list us) => .obj cls (setAttrOf (lit "units") (.list (us.map gu)) ts)
        | _ => .obj cls ts
      | t => t
    have hu : ∀ u : Unit, gu (u.object old) = Unit.object old { u with hit_points := f u.hit_points } := fun u => rfl
    have hus : ∀ us : List (Option Unit), (us.map (optObj (Unit.object old))).map gu =
        (us.map (Option.map fun u => { u with hit_points := f u.hit_points })).map (optObj (Unit.object old)) := by
      intro us
      rw [List.map_map, List.map_map]
      refine List.map_congr_left fun u _ => ?_
      cases u with
      | none => rfl
      | some u => exact hu u
    have hc : ∀ c : Civ, gc (c.object old) =
        Civ.object old { c with units := c.units.map (Option.map fun u => { u with hit_points := f u.hit_points }) } := by
      intro c
      show ObjTree.obj _ (setAttrOf (lit "units") (.list ((c.units.map (optObj (Unit.object old))).map gu)) _) = _
      rw [hus]
      rfl
    have inner : ∀ (c : Civ) (x : Nat), (do
        let units ← Prog.object (.getAttr x (lit "units"))
        Prog.forEach units fun unit => Prog.update unit (lit "hit_points") f : Prog PUnit).Makes z (fun _ => e) depth x (c.object old) (gc (c.object old)) := by
      intro c x
      refine Prog.Makes.attr (c := .list (c.units.map (optObj (Unit.object old)))) rfl rfl fun l => Prog.Makes.forEach fun u hu => ?_
      obtain ⟨u0, _, rfl⟩ := List.mem_map.1 hu
      cases u0 with
      | none => exact ⟨fun _ => rfl, fun h => nomatch h⟩
      | some u0 => exact ⟨(fun h => nomatch h), fun _ x => Prog.Makes.update (v := u0.hit_points) f (cls := lit "Unit") (ts := match u0.object old with | .obj _ ts => ts | _ => []) rfl⟩
    have outer : (Prog.hitPoints f x).Makes z (fun _ => e) depth x (d.object old)
        (.obj (lit "DatFile") (setAttrOf (lit "civs") (.list ((d.civs.map (Civ.object old)).map gc)) (match d.object old with | .obj _ ts => ts | _ => []))) := by
      refine Prog.Makes.attr (c := .list (d.civs.map (Civ.object old))) rfl rfl fun l => Prog.Makes.forEach fun c hc => ?_
      obtain ⟨c0, _, rfl⟩ := List.mem_map.1 hc
      exact ⟨(fun h => nomatch h), fun _ x => inner c0 x⟩
    have hcs : (d.civs.map (Civ.object old)).map gc = (d.hitPoints f).civs.map (Civ.object old) := by
      show _ = List.map _ (List.map _ d.civs)
      rw [List.map_map, List.map_map]
      exact List.map_congr_left fun c _ => hc c
    rw [hcs] at outer
    exact outer

/-! ## examples -/

/-- `l = [1, 2]`, then `while True: l.pop()` until that raises, which is caught. -/
def Sample.popAll : Script Nat PUnit
  | 0 => .call (.op (.newList [.int 1, .int 2])) fun _ => 1
  | 1 => .call (.op (.pop 0 (-1))) fun
    | .ok _ => 1
    | .error _ => 2
  | _ => .stop (.ok ⟨⟩)

/-- It has a meaning, and ends with an empty list. -/
example (z : Zlib) (env : Nat → Environment) (disk : FileSystem) :
    Sample.popAll.runF z env 5 7 (.running 0 ⟨disk, ⟨[], []⟩⟩) = some (.running 2 ⟨disk, ⟨[.list [], .int 2, .int 1], [(0, [])]⟩⟩) := rfl

/-- So in memory, too, wherever it is run. -/
example (z : Zlib) (env : Nat → Environment) (disk : FileSystem) (H : Heap) :
    ∃ W, Sample.popAll.run z env 5 7 (.running 0 ⟨disk, ⟨H, []⟩⟩) = .running 2 ⟨disk, W⟩ ∧ H <+: W.heap :=
  (C56_from_scratch Sample.popAll z env 5 H disk 0 7).1 _ _ rfl

/-- `l = [A(x=1)]; a = l[0]; b = copy.deepcopy(a); b.x = 2; l.append(b); a.x = 3; del l[0]; l.insert(0, a)`: `a` and `b` are different
objects, and `a` keeps its value while it is not in the list. -/
def Sample.copies : Prog Nat := do
  let a ← Prog.object (.new (lit "A") [(lit "x", .int 1)])
  let l ← Prog.object (.newList [.object a])
  let a ← Prog.object (.getItem l 0)
  let b ← Prog.object (.deepcopy a)
  Prog.statement (.setAttr b (lit "x") (.int 2))
  Prog.statement (.append l (.object b))
  Prog.statement (.setAttr a (lit "x") (.int 3))
  Prog.statement (.delItem l 0)
  Prog.statement (.insert l 0 (.object a))
  return l

/-- What the list is in the end: `[A(x=3), A(x=2)]`. -/
example : (match Sample.copies.onForest Zlib.toy (fun _ => .plain) 9 0 ⟨fun _ => Option.none, ⟨[], []⟩⟩ with
      | some (.returned l, _, S) =>
        match S.memory.value l with
        | .list [.obj _ [(n, .int 3)], .obj _ [(m, .int 2)]] => decide (n = lit "x" ∧ m = lit "x")
        | _ => false
      | _ => false) = true := by decide +kernel

/-- `l = [1, 2, 3, 4]; m = l[1:-1]; l.pop(); m.extend(l); c = copy.copy(m); c[0] = 9`: slices and shallow copies are lists of their own. -/
def Sample.slices : Prog (Nat × Nat × Nat) := do
  let l ← Prog.object (.newList [.int 1, .int 2, .int 3, .int 4])
  let m ← Prog.object (.slice l 1 (-1))
  let _ ← Prog.int (.pop l (-1))
  Prog.statement (.extend m l)
  let c ← Prog.object (.copy m)
  Prog.statement (.setItem c 0 (.int 9))
  return (l, m, c)

/-- In the end `l == [1, 2, 3]`, `m == [2, 3, 1, 2, 3]` and `c == [9, 3, 1, 2, 3]`. -/
example : (match Sample.slices.onForest Zlib.toy (fun _ => .plain) 9 0 ⟨fun _ => Option.none, ⟨[], []⟩⟩ with
      | some (.returned (l, m, c), _, S) =>
        match S.memory.value l, S.memory.value m, S.memory.value c with
        | .list [.int 1, .int 2, .int 3], .list [.int 2, .int 3, .int 1, .int 2, .int 3], .list [.int 9, .int 3, .int 1, .int 2, .int 3] => true
        | _, _, _ => false
      | _ => false) = true := by decide +kernel

/-- `l = [A(x=1)]; l[0:1]`: two lists would have the same object. -/
example : (match (Op.slice 0 0 1).onForest 9 ⟨[.list [.obj (lit "A") [(lit "x", .int 1)]]], [(0, [])]⟩ with
      | Option.none => true
      | some _ => false) = true := by decide +kernel

/-- `a = A(x=1); l = [a]; l.append(a)`: the object would be in the list twice, which is not a matter of values (C50). -/
example : (Op.append 1 (.object 0)).onForest 9 ⟨[.none, .list [.obj (lit "A") [(lit "x", .int 1)]]], [(1, [.item 0]), (1, [])]⟩ = Option.none := rfl

/-- The hypotheses of `C56_written` are met by every file that can be parsed. -/
example (d : DatFile) (hw : DatFile.WF d) (old : Bool) : (d.object old).written 5 = d.toBytes :=
  C56_written _ d (DatFile.converts _ d).carries (hw.elim fun _ h => h.sized) 5 (Nat.le_refl _)

end Genie
