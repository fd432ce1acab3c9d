import Verif.Model.Readme
import Verif.Props.C24_C26_Files
import Verif.Props.C32_ListEdits
import Verif.Props.C23_Sizes
/-!
# C43: the two programs of the README

The programs are in `Verif/Model/Readme.lean`: `changeLoom` and `changeKings` are the edits, statement by statement, with the exceptions
of Python; `editFile` is `parse`, edit, `save`.  The edits as functions on objects, without exceptions, are `DatFile.setTechCost` (C27)
and `DatFile.popTasks` (C32).
-/

namespace Genie

/-- What a load returns is a well-formed object of the version named in the file. -/
theorem parse_wf {z : Zlib} {fs : FileSystem} {p : Path} {d : DatFile} (h : DatFile.parse z fs p = .returned d) :
    ∃ v, DatFile.WFAt v d := by
  unfold DatFile.parse DatFile.ofData at h
  repeat' split at h
  all_goals try cases h
  rename_i hr
  repeat' split at hr
  all_goals try cases hr
  rename_i hr
  exact ⟨_, C13_parsed_wellformed _ _ _ hr⟩

/-! ## any program of this form -/

/-- If the source cannot be loaded, or the edit raises, the program raises the same exception and no file changes. -/
theorem C43_raises_untouched (edit : DatFile → Py DatFile) (z : Zlib) (env : Environment) (fs : FileSystem) (src dst : Path)
    (e : PyErr) (h : DatFile.parse z fs src = .raised e ∨
      ∃ d, DatFile.parse z fs src = .returned d ∧ (edit d = .error e ∨ ∃ d', edit d = .ok d' ∧ DatFile.toBytes d' = .error e)) :
    editFile edit z env fs src dst = (fs, .raised e) := by
  rcases h with h | ⟨d, h, h' | ⟨d', h', h''⟩⟩
  · simp only [editFile, h]
  · simp only [editFile, h, h']
  · simp only [editFile, h, h', C25_failed_encode_untouched z env fs d' e h'' dst]

theorem editFile_saves {edit : DatFile → Py DatFile} {z : Zlib} {env : Environment} {fs : FileSystem} {src dst : Path}
    {d d' : DatFile} (h : DatFile.parse z fs src = .returned d) (h' : edit d = .ok d') :
    editFile edit z env fs src dst = DatFile.save z env fs d' dst := by
  simp only [editFile, h, h']

/-! ## Loom -/

/-- `changeLoom` raises `IndexError` if the file has less than 23 techs, and otherwise sets the amount (the list of costs of a loaded
tech always has three elements). -/
theorem C43_loom_edit (v : Version) (d : DatFile) (hd : DatFile.WFAt v d) :
    (d.techs.length ≤ 22 → changeLoom d = .error .indexError) ∧
    (22 < d.techs.length → changeLoom d = .ok (d.setTechCost 22 0 69)) := by
  constructor
  · intro h
    have : d.techs[22]? = none := List.getElem?_eq_none h
    simp only [changeLoom, getItem, this]
    rfl
  · intro h
    have h1 : d.techs[22]? = some d.techs[22] := List.getElem?_eq_getElem h
    have hc : 0 < (d.techs[22]).resource_costs.length := by
      rw [(hd.techs.2 _ (List.getElem_mem h)).resource_costs.1]; decide
    have h2 : (d.techs[22]).resource_costs[0]? = some (d.techs[22]).resource_costs[0] := List.getElem?_eq_getElem hc
    simp only [changeLoom, getItem, h1, h2, DatFile.setTechCost, modify_eq_set h1, modify_eq_set h2, bind, Except.bind, pure, Except.pure]

/-- README, "Change cost of Loom to 69 Gold", when nothing goes wrong: either the file has less than 23 techs, then the program ends
with `IndexError` and nothing has changed; or the new file loads as the old data with the new amount, its uncompressed content differs
from that of a plain save of the loaded data in the two bytes of the amount only, and no other file has changed. -/
theorem C43_loom_program (z : Zlib) (hz : z.Lawful) (env : Environment) (hf : env.fault = none) (fs : FileSystem) (src dst : Path)
    (d : DatFile) (hp : DatFile.parse z fs src = .returned d) :
    (d.techs.length ≤ 22 → editFile changeLoom z env fs src dst = (fs, .raised .indexError)) ∧
    (22 < d.techs.length → ∃ fs' offset bs bs',
      editFile changeLoom z env fs src dst = (fs', .returned ()) ∧
      (∀ q, q ≠ dst → fs' q = fs q) ∧
      DatFile.parse z fs' dst = .returned (d.setTechCost 22 0 69) ∧
      DatFile.toBytes d = .ok bs ∧ fs' dst = some (z.compress bs') ∧ SameExceptAt offset 2 bs bs' ∧
      (bs'.drop offset).take 2 = [69, 0]) := by
  obtain ⟨v, hd⟩ := parse_wf hp
  refine ⟨fun h => C43_raises_untouched _ z env fs src dst _ (.inr ⟨d, hp, .inl ((C43_loom_edit v d hd).1 h)⟩), fun h => ?_⟩
  have he := (C43_loom_edit v d hd).2 h
  obtain ⟨o, bs, hb, hall⟩ := C27_loom v d hd 22 0 h (by decide)
  obtain ⟨bs', hb', hsame, hval, h', hr⟩ := hall 69 (by decide)
  have hwf : DatFile.WF (d.setTechCost 22 0 69) := (C13_round_trips_iff _ bs' hb').1 ⟨h', hr⟩
  obtain ⟨fs', hs, hpar, hother⟩ := C24_save_then_parse z hz env hf fs _ hwf dst
  refine ⟨fs', o, bs, bs', (editFile_saves hp he).trans hs, hother, hpar, hb, ?_, hsame, hval⟩
  obtain ⟨bs2, hb2, hc⟩ := C26_returned_complete z env fs fs' _ dst hs
  rw [hb'] at hb2
  cases hb2
  exact hc

/-- Running it again on its own output writes the very same file. -/
theorem C43_loom_twice (z : Zlib) (hz : z.Lawful) (env env' : Environment) (hf : env.fault = none) (hf' : env'.fault = none)
    (fs fs' : FileSystem) (src dst dst' : Path) (h : editFile changeLoom z env fs src dst = (fs', .returned ())) :
    ∃ fs'', editFile changeLoom z env' fs' dst dst' = (fs'', .returned ()) ∧ fs'' dst' = fs' dst ∧ ∀ q, q ≠ dst' → fs'' q = fs' q := by
  cases hp : DatFile.parse z fs src with
  | raised e => simp only [editFile, hp] at h; cases h
  | crashed => simp only [editFile, hp] at h; cases h
  | returned d =>
    obtain ⟨v, hd⟩ := parse_wf hp
    by_cases ht : 22 < d.techs.length
    · obtain ⟨fs1, o, bs, bs', h1, hq, hpar, hb, hc, hsame, hval⟩ := (C43_loom_program z hz env hf fs src dst d hp).2 ht
      rw [h] at h1
      have : fs' = fs1 := (Prod.mk.inj h1).1
      subst this
      have ht' : 22 < (d.setTechCost 22 0 69).techs.length := by simpa [DatFile.setTechCost] using ht
      obtain ⟨fs2, o2, bs2, bs2', h2, hq2, hpar2, hb2, hc2, -, -⟩ := (C43_loom_program z hz env' hf' fs' dst dst' _ hpar).2 ht'
      refine ⟨fs2, h2, ?_, hq2⟩
      have same : (d.setTechCost 22 0 69).setTechCost 22 0 69 = d.setTechCost 22 0 69 := by
        simp only [DatFile.setTechCost, List.modify_modify_eq]
        congr 2
        funext t
        simp only [Function.comp_def, List.modify_modify_eq]
      obtain ⟨b1, e1, c1⟩ := C26_returned_complete z env fs fs' _ dst ((editFile_saves hp ((C43_loom_edit v d hd).2 ht)).symm.trans h)
      obtain ⟨v2, hd2⟩ := parse_wf hpar
      obtain ⟨b2, e2, c2⟩ := C26_returned_complete z env' fs' fs2 _ dst'
        ((editFile_saves hpar ((C43_loom_edit v2 _ hd2).2 ht')).symm.trans h2)
      rw [same, e1] at e2
      cases e2
      rw [c1, c2]
    · have := (C43_loom_program z hz env hf fs src dst d hp).1 (by omega)
      rw [h] at this
      cases this

/-! ## Kings -/

/-- What is wrong with the king of a civ: there is no slot 434, the slot is empty, the unit in it has no `bird` part (then its type is
below 40, or 90: C18), it has no task. -/
def kingProblem (civ : Civ) : Option PyErr :=
  match civ.units[434]? with
  | none => some .indexError
  | some none => some .attributeError
  | some (some unit) =>
    match unit.bird with
    | none => some .attributeError
    | some bird => if bird.tasks.length = 0 then some .indexError else none

/-- The civ without the last task of its king. -/
def Civ.popTask (c : Civ) (k : Nat) : Civ := { c with
  units := c.units.modify k fun o => o.map fun u => { u with
    bird := u.bird.map fun b => { b with tasks := b.tasks.dropLast } } }

theorem DatFile.popTasks_civs (d : DatFile) (k : Nat) : d.popTasks k = { d with civs := d.civs.map (·.popTask k) } := rfl

theorem popKingTask_eq (c : Civ) :
    popKingTask c = match kingProblem c with | some e => .error e | none => .ok (c.popTask 434) := by
  cases hu : c.units[434]? with
  | none => simp only [popKingTask, kingProblem, getItem, hu]; rfl
  | some o =>
    cases o with
    | none => simp only [popKingTask, kingProblem, getItem, notNone, hu]; rfl
    | some u =>
      cases hb : u.bird with
      | none => simp only [popKingTask, kingProblem, getItem, notNone, hu, hb]; exact by simp only [bind, Except.bind, hb]
      | some b =>
        cases ht : b.tasks with
        | nil =>
          simp only [popKingTask, kingProblem, getItem, notNone, hu, hb, ht, popped, bind, Except.bind]
          rfl
        | cons t ts =>
          simp only [popKingTask, kingProblem, getItem, notNone, hu, hb, ht, popped, bind, Except.bind, Civ.popTask,
            modify_eq_set hu, Option.map_some]
          rfl

theorem mapM_popKing (cs : List Civ) :
    cs.mapM popKingTask = match cs.findSome? kingProblem with | some e => .error e | none => .ok (cs.map (·.popTask 434)) := by
  induction cs with
  | nil => rfl
  | cons c cs ih =>
    rw [List.mapM_cons, popKingTask_eq, ih, List.findSome?_cons]
    cases kingProblem c with
    | some e => rfl
    | none => cases cs.findSome? kingProblem <;> rfl

/-- `changeKings` raises what the first civ with a problem raises; if there is none, it removes one task from unit 434 of every civ. -/
theorem C43_king_edit (d : DatFile) :
    (∀ e, d.civs.findSome? kingProblem = some e → changeKings d = .error e) ∧
    ((∀ c ∈ d.civs, kingProblem c = none) → changeKings d = .ok (d.popTasks 434)) := by
  have key := mapM_popKing d.civs
  constructor
  · intro e h
    rw [h] at key
    simp only [changeKings, key]
    rfl
  · intro h
    have : d.civs.findSome? kingProblem = none := List.findSome?_eq_none_iff.2 h
    rw [this] at key
    simp only [changeKings, key, DatFile.popTasks_civs]
    rfl

/-! ### the sizes -/

theorem sum_filterMap_set (f : α → Nat) (l : List (Option α)) (k : Nat) (a b : α) (h : l[k]? = some (some a)) :
    (((l.set k (some b)).filterMap id).map f).sum + f a = ((l.filterMap id).map f).sum + f b := by
  induction l generalizing k with
  | nil => cases h
  | cons o l ih =>
    cases k with
    | zero =>
      rw [List.getElem?_cons_zero] at h
      cases h
      simp only [List.set_cons_zero, List.filterMap_cons, id_eq, List.map_cons, List.sum_cons]
      omega
    | succ k =>
      rw [List.getElem?_cons_succ] at h
      have := ih k h
      cases o with
      | none => simpa only [List.set_cons_succ, List.filterMap_cons, id_eq] using this
      | some x => simp only [List.set_cons_succ, List.filterMap_cons, id_eq, List.map_cons, List.sum_cons]; omega

theorem sum_dropLast (f : α → Nat) (c : Nat) (hc : ∀ x, f x = c) (l : List α) (h : l.length ≠ 0) :
    (l.dropLast.map f).sum + c = (l.map f).sum := by
  induction l with
  | nil => exact absurd rfl h
  | cons a l ih =>
    cases l with
    | nil => simp [hc]
    | cons b l =>
      rw [List.dropLast_cons_of_ne_nil (by simp)]
      have := ih (by simp)
      simp only [List.map_cons, List.sum_cons] at this ⊢
      omega

/-- Bytes of a task in a file of version `v`. -/
def taskSize (v : Version) : Nat := if 88 ≤ v.num then 69 else 67

theorem Civ.popTask_size (v : Version) (c : Civ) (hc : Civ.WF v c) (h : kingProblem c = none) :
    (c.popTask 434).size v + taskSize v = c.size v := by
  unfold kingProblem at h
  split at h
  · cases h
  · cases h
  · rename_i u hu
    split at h
    · cases h
    · rename_i b hb
      split at h
      · cases h
      · rename_i ht
        have hw := hc.units.2 _ (List.mem_of_getElem? hu) u rfl
        have hty : u.type ≠ 90 ∧ 40 ≤ u.type := by
          have := hw.bird.1
          rw [hb] at this
          exact this.2 rfl
        simp only [Civ.popTask, modify_eq_set hu, Option.map_some, Civ.size, List.length_set]
        have key := sum_filterMap_set (Unit.size v) c.units 434 u { u with bird := u.bird.map fun b => { b with tasks := b.tasks.dropLast } } hu
        have hsz : Unit.size v { u with bird := u.bird.map fun b => { b with tasks := b.tasks.dropLast } } + taskSize v = Unit.size v u := by
          have := sum_dropLast (Task.size v) (taskSize v) (fun _ => rfl) b.tasks ht
          simp only [Unit.size, hb, Option.map_some, partSize, if_pos hty, Bird.size]
          omega
        omega

theorem sum_map_add (f g : α → Nat) (n : Nat) (l : List α) (h : ∀ x ∈ l, f x + n = g x) :
    (l.map f).sum + l.length * n = (l.map g).sum := by
  induction l with
  | nil => simp
  | cons a l ih =>
    have h1 := ih fun x hx => h x (List.mem_cons_of_mem _ hx)
    have h2 := h a List.mem_cons_self
    simp only [List.map_cons, List.sum_cons, List.length_cons, Nat.succ_mul]
    omega

theorem DatFile.popTasks_size (v : Version) (d : DatFile) (hd : DatFile.WFAt v d) (h : ∀ c ∈ d.civs, kingProblem c = none) :
    (d.popTasks 434).size v + d.civs.length * taskSize v = d.size v := by
  have := sum_map_add (fun c => (Civ.popTask c 434).size v) (Civ.size v) (taskSize v) d.civs
    fun c hc => c.popTask_size v (hd.civs.2 c hc) (h c hc)
  simp only [DatFile.popTasks_civs, DatFile.size, List.map_map, Function.comp_def]
  omega

/-- README, "Prevent Kings from garrisoning", when nothing goes wrong: if some civ has a problem, the program ends with the exception
of the first such civ and nothing has changed; otherwise the new file loads as the old data without the last task of unit 434 of
every civ, its uncompressed content is shorter by one task per civ, and no other file has changed. -/
theorem C43_king_program (z : Zlib) (hz : z.Lawful) (env : Environment) (hf : env.fault = none) (fs : FileSystem) (src dst : Path)
    (v : Version) (d : DatFile) (hp : DatFile.parse z fs src = .returned d) (hv : d.version = v.value) :
    (∀ e, d.civs.findSome? kingProblem = some e → editFile changeKings z env fs src dst = (fs, .raised e)) ∧
    ((∀ c ∈ d.civs, kingProblem c = none) → ∃ fs' bs bs',
      editFile changeKings z env fs src dst = (fs', .returned ()) ∧
      (∀ q, q ≠ dst → fs' q = fs q) ∧
      DatFile.parse z fs' dst = .returned (d.popTasks 434) ∧
      DatFile.toBytes d = .ok bs ∧ fs' dst = some (z.compress bs') ∧ bs'.length + d.civs.length * taskSize v = bs.length) := by
  obtain ⟨w, hd⟩ := parse_wf hp
  have hwv : w = v := by
    have h1 := (versionNames_spec hd.version).1
    have h2 : Version.ofStr v.value = .ok v := by cases v <;> rfl
    rw [hv, h2] at h1
    exact (Except.ok.inj h1).symm
  subst hwv
  refine ⟨fun e h => C43_raises_untouched _ z env fs src dst _ (.inr ⟨d, hp, .inl ((C43_king_edit d).1 e h)⟩), fun h => ?_⟩
  have he := (C43_king_edit d).2 h
  obtain ⟨bs', h', hb', hr⟩ := C32_kings w d hd 434
  have hwf : DatFile.WF (d.popTasks 434) := (C13_round_trips_iff _ bs' hb').1 ⟨h', hr⟩
  obtain ⟨fs', hs, hpar, hother⟩ := C24_save_then_parse z hz env hf fs _ hwf dst
  have hb := DatFile.bytes_of_wf hd
  refine ⟨fs', _, bs', (editFile_saves hp he).trans hs, hother, hpar, hb, ?_, ?_⟩
  · obtain ⟨bs2, hb2, hc⟩ := C26_returned_complete z env fs fs' _ dst hs
    rw [hb'] at hb2
    cases hb2
    exact hc
  · have e1 := C23_datfile_size w d _ hv hb
    have e2 := C23_datfile_size w (d.popTasks 434) bs' hv hb'
    rw [e1, e2]
    exact DatFile.popTasks_size w d hd h

/-! ## the hypotheses can be met -/

/-- A file with 23 techs and two civs; slot 434 of both civs is as `king` says. -/
def Sample.modFile (v : Version) (king : Option Unit) : DatFile := { Sample.datFile v with
  techs := List.replicate 23 Sample.tech,
  civs := (Sample.datFile v).civs.map fun c => { c with units := List.replicate 434 none ++ [king] } }

theorem Sample.modFile_wf (v : Version) (hv : v ≠ .UNDEFINED) (king : Option Unit) (hk : ∀ u ∈ king, Unit.WF v u) :
    DatFile.WFAt v (Sample.modFile v king) := by
  have hd := Sample.datFile_wf v hv
  refine { hd with techs := ⟨?_, fun t ht => ?_⟩, civs := ⟨hd.civs.1, fun c hc => ?_⟩ }
  · obtain ⟨c', hc', rfl⟩ := List.mem_map.1 hc
    refine { hd.civs.2 c' hc' with units := ⟨?_, fun o ho => ?_⟩ }
    · show (List.replicate 434 none ++ [king]).length ≤ _
      rw [List.length_append, List.length_replicate]
      exact (by decide : 435 ≤ 32767)
    · rcases List.mem_append.1 ho with h | h
      · rw [List.eq_of_mem_replicate h]
        intro u hu
        cases hu
      · rw [List.mem_singleton.1 h]
        exact hk
  · show (List.replicate 23 Sample.tech).length ≤ _
    rw [List.length_replicate]
    decide
  · rw [List.eq_of_mem_replicate ht]
    exact hd.techs.2 _ List.mem_cons_self

theorem Sample.archer_wf (v : Version) (hv : v ≠ .UNDEFINED) : Unit.WF v (Sample.archer v) :=
  ((Sample.datFile_wf v hv).civs.2 (Sample.civ v) List.mem_cons_self).units.2 (some (Sample.archer v)) (by simp [Sample.civ]) _ rfl

/-- A disk with one file. -/
def Sample.disk (z : Zlib) (p : Path) (bs : Bytes) : FileSystem := fun q => if q = p then some (z.compress bs) else none

theorem Sample.disk_parse (z : Zlib) (hz : z.Lawful) (p : Path) (d : DatFile) (hd : DatFile.WF d) :
    ∃ bs, DatFile.parse z (Sample.disk z p bs) p = .returned d := by
  obtain ⟨bs, hb, -⟩ := C12_datfile_round_trip_file d hd
  refine ⟨bs, parse_data z _ p (z.compress bs) bs d (by simp [Sample.disk]) ?_ (ofData_toBytes d hd bs hb)⟩
  simpa using hz.inverse bs []

/-- Both programs can succeed on a loaded file, ... -/
example (v : Version) (hv : v ≠ .UNDEFINED) : ∃ fs, DatFile.parse Zlib.toy fs "in.dat" = .returned (Sample.modFile v (some (Sample.archer v))) ∧
    22 < (Sample.modFile v (some (Sample.archer v))).techs.length ∧
    (∀ c ∈ (Sample.modFile v (some (Sample.archer v))).civs, kingProblem c = none) ∧
    (Sample.modFile v (some (Sample.archer v))).civs.length = 2 ∧
    (Sample.modFile v (some (Sample.archer v))).version = v.value := by
  obtain ⟨bs, h⟩ := Sample.disk_parse Zlib.toy Zlib.toy_lawful "in.dat" _
    ⟨v, Sample.modFile_wf v hv (some (Sample.archer v)) fun u hu => by cases hu; exact Sample.archer_wf v hv⟩
  refine ⟨_, h, (by decide : 22 < (List.replicate 23 Sample.tech).length), fun c hc => ?_, rfl, rfl⟩
  obtain ⟨c', hc', rfl⟩ := List.mem_map.1 hc
  rfl

/-- ... and fail: a civ without king, and a file with two techs. -/
example (v : Version) (hv : v ≠ .UNDEFINED) :
    (∃ fs, DatFile.parse Zlib.toy fs "in.dat" = .returned (Sample.modFile v none)) ∧
    (Sample.modFile v none).civs.findSome? kingProblem = some .attributeError ∧
    (∃ fs, DatFile.parse Zlib.toy fs "in.dat" = .returned (Sample.datFile v)) ∧ (Sample.datFile v).techs.length ≤ 22 ∧
    (Sample.datFile v).civs.findSome? kingProblem = some .indexError := by
  obtain ⟨bs, h⟩ := Sample.disk_parse Zlib.toy Zlib.toy_lawful "in.dat" _ ⟨v, Sample.modFile_wf v hv none fun u hu => by cases hu⟩
  obtain ⟨bs', h'⟩ := Sample.disk_parse Zlib.toy Zlib.toy_lawful "in.dat" _ ⟨v, Sample.datFile_wf v hv⟩
  exact ⟨⟨_, h⟩, rfl, ⟨_, h'⟩, by simp [Sample.datFile], rfl⟩

end Genie
