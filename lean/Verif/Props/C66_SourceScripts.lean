import Verif.Proof.Source.ScriptsKeep
import Verif.Py.InterpScripts
import Verif.Props.C56_Scripts
import Verif.Props.C08_C10_Readers
import Verif.Props.C36_C37_Errors
/-!
# C66: scripts, from the source

C56 speaks about all scripts that load files, work on the objects in any way, and save them, with `parse` and `save` as the model has them.  Here
`parse` and `save` are executed from their source.  The script does the same.
-/

namespace Genie.Src

/-- An action that creates instances of classes of the package only (`Class(…)` of another class is not a matter of the package). -/
def Action.ofPackage : Action → Prop
  | .op (.new cls _) => cls ∈ dataclassNames
  | _ => True

/-- Whatever a script does, instances stay instances of classes of the package. -/
theorem C66_objects (z : Zlib) (env : Environment) (depth : Nat) (S : Situation Memory) (a : Action) (ha : Action.ofPackage a)
    (hk : OfPackage S.memory.heap) : OfPackage (S.act z env depth a).2.memory.heap := by
  have hand : ∀ H names v, (Memory.hand H names v).2.heap = H := fun H names v => by cases v <;> rfl
  cases a with
  | op o =>
    have ho : Op.ofPackage o := by cases o <;> first | trivial | exact ha
    unfold Situation.act Memory.op
    dsimp only
    cases he : o.eval depth S.memory.names S.memory.heap (ByteHandler.new []) with
    | error e => exact hk
    | ok x =>
      obtain ⟨v, H', s'⟩ := x
      dsimp only
      rw [hand]
      exact Stays.op depth S.memory.names o ho _ _ _ _ _ hk he
  | parse p =>
    unfold Situation.act DatFile.parseObject
    dsimp only
    cases S.disk p with
    | none => exact hk
    | some content =>
      dsimp only
      cases z.decompress content with
      | none => exact hk
      | some data =>
        dsimp only
        have h0 := DatFile_from_bytes.mono (Nat.le_refl _) 13 (by omega) S.memory.heap (ByteHandler.new data)
        cases hb : DatFile.build S.memory.heap (ByteHandler.new data) with
        | error e => exact hk
        | ok x =>
          obtain ⟨v, H', s'⟩ := x
          rw [hb] at h0
          obtain ⟨t, hp, -⟩ := h0
          dsimp only
          rw [hand]
          exact (C61_objects_keep_class 13 _ _ _ _ _ _ _ _ _ hp).2.2.2.2 hk
  | save o p =>
    unfold Situation.act
    dsimp only
    split
    · split <;> exact hk
    · exact hk

/-- One action: if the model — with room for `depth` nested calls — does not raise `RecursionError`, executing the source — with room for four calls
for each of them — answers the same and leaves the same objects and files. -/
theorem C66_action (P : Platform) (room depth : Nat) (hr : 14 ≤ room) (hd : 4 * depth + 3 ≤ room) (S : Situation Memory) (hk : OfPackage S.memory.heap)
    (a : Action) (hn : (S.act P.zlib P.env depth a).1 ≠ .raised .recursionError) : act P room depth S a = S.act P.zlib P.env depth a := by
  obtain ⟨n, rfl⟩ : ∃ n, room = n + 1 := ⟨room - 1, by omega⟩
  cases a with
  | op o => rfl
  | parse p =>
    unfold act
    dsimp only
    rw [parse_source P n (by omega) _ (.path p) p rfl]
    unfold parsed Situation.act
    dsimp only
    cases DatFile.parseObject P.zlib S.disk p S.memory.heap with
    | returned x => rfl
    | raised e => rfl
    | crashed => rfl
  | save o p =>
    unfold act Situation.act
    dsimp only
    by_cases hi : isDatFile S.memory.heap (named S.memory.names o) = true
    · rw [if_pos hi, if_pos hi]
      have hA : IsA S.memory.heap (named S.memory.names o) n!"DatFile" := by
        generalize named S.memory.names o = v at hi
        cases v with
        | ref b =>
          unfold isDatFile at hi
          dsimp only at hi
          have hi := of_decide_eq_true hi
          cases hc : S.memory.heap[b]? with
          | none => rw [hc] at hi; cases hi
          | some c =>
            rw [hc] at hi
            cases c with
            | record cls attrs =>
              have : cls = lit "DatFile" := by simpa [Cell.kind] using hi
              exact ⟨cls, attrs, hc, by rw [this]; decide +kernel⟩
            | list _ => simp [Cell.kind] at hi
            | tuple _ => simp [Cell.kind] at hi
        | _ => cases hi
      have hne : W.toBytes S.memory.heap depth (named S.memory.names o) .UNDEFINED ≠ .error .recursionError := by
        intro he
        apply hn
        unfold Situation.act
        dsimp only
        rw [if_pos hi]
        unfold W.save
        rw [he]
      rw [save_source P n depth (by omega) _ hk _ hA hne (.path p) p rfl]
      unfold saved
      dsimp only
      generalize W.save P.zlib P.env S.disk S.memory.heap depth (named S.memory.names o) p = r
      obtain ⟨d, x⟩ := r
      cases x <;> rfl
    · rw [if_neg hi, if_neg hi]

/-- The action that a script is about to do. -/
def upcoming (script : Script σ α) : Status σ Memory → Option (Action × Situation Memory)
  | .crashed _ => none
  | .running st S =>
    match script st with
    | .stop _ => none
    | .call a _ => some (a, S)

/-- The first `n` actions of a script create instances of classes of the package only, and none of them raises `RecursionError`. -/
def Calm (script : Script σ α) (z : Zlib) (env : Nat → Environment) (depth n : Nat) (st : Status σ Memory) : Prop :=
  ∀ i < n, ∀ a S, upcoming script (script.run z env depth i st) = some (a, S) →
    Action.ofPackage a ∧ (S.act z (env i) depth a).1 ≠ .raised .recursionError

theorem package_kept (script : Script σ α) (z : Zlib) (env : Nat → Environment) (depth : Nat) (st : Status σ Memory)
    (hk : ∀ s S, st = .running s S → OfPackage S.memory.heap) : ∀ n, Calm script z env depth n st →
      ∀ s S, script.run z env depth n st = .running s S → OfPackage S.memory.heap
  | 0, _ => hk
  | n + 1, hc => fun s S hS => by
    have ih := package_kept script z env depth st hk n (fun i hi => hc i (by omega))
    have hc := hc n (by omega)
    unfold Script.run at hS
    generalize script.run z env depth n st = x at hS ih hc
    cases x with
    | crashed d => cases hS
    | running s0 S0 =>
      have ih0 := ih s0 S0 rfl
      unfold Script.step at hS
      dsimp only at hS
      cases hp : script s0 with
      | stop r => rw [hp] at hS; cases hS; exact ih0
      | call a next =>
        rw [hp] at hS
        dsimp only at hS
        have hx := hc a S0 (by unfold upcoming; dsimp only; rw [hp])
        have := C66_objects z (env n) depth S0 a hx.1 ih0
        generalize S0.act z (env n) depth a = r at hS this
        obtain ⟨o, S'⟩ := r
        cases o <;> cases hS <;> exact this

/-- A script, at any moment of its run, whether it ends or not, with any faults of the disk and a crash: executed from the source, it is where it is in
the model — for which C56 says where that is — if until then it created instances of classes of the package only and there was no `RecursionError`. -/
theorem C66_script (script : Script σ α) (P : Nat → Platform) (z : Zlib) (hz : ∀ i, (P i).zlib = z) (room depth : Nat) (hr : 14 ≤ room)
    (hd : 4 * depth + 3 ≤ room) (st : Status σ Memory) (hk : ∀ s S, st = .running s S → OfPackage S.memory.heap) :
    ∀ n, Calm script z (fun i => (P i).env) depth n st →
      runScript script P room depth n st = script.run z (fun i => (P i).env) depth n st
  | 0, _ => rfl
  | n + 1, hc => by
    have ih := C66_script script P z hz room depth hr hd st hk n (fun i hi => hc i (by omega))
    have hp := package_kept script z (fun i => (P i).env) depth st hk n (fun i hi => hc i (by omega))
    have hc := hc n (by omega)
    unfold runScript Script.run
    rw [ih]
    generalize script.run z (fun i => (P i).env) depth n st = x at hp hc
    cases x with
    | crashed d => rfl
    | running s0 S0 =>
      unfold step Script.step
      dsimp only
      cases hs : script s0 with
      | stop r => rfl
      | call a next =>
        dsimp only
        have hx := hc a S0 (by unfold upcoming; dsimp only; rw [hs])
        have := C66_action (P n) room depth hr hd S0 (hp s0 S0 rfl) a (by rw [hz n]; exact hx.2)
        rw [hz n] at this
        rw [this]
        generalize S0.act z (P n).env depth a = r
        obtain ⟨o, S'⟩ := r
        cases o <;> rfl

/-- A program creates instances of classes of the package only, and has no `try`: an exception ends it. -/
def Plain : Prog α → Prop
  | .done _ => True
  | .raised _ => True
  | .act a next handler => Action.ofPackage a ∧ (∀ v, Plain (next v)) ∧ ∀ e, handler e = .raised e

/-- A program without `try`, from its beginning to its end. -/
theorem C66_program (P : Nat → Platform) (z : Zlib) (hz : ∀ i, (P i).zlib = z) (room depth : Nat) (hr : 14 ≤ room) (hd : 4 * depth + 3 ≤ room) :
    ∀ (p : Prog α) (_ : Plain p) (i : Nat) (S : Situation Memory), OfPackage S.memory.heap →
      (p.exec z (fun i => (P i).env) depth i S).1 ≠ .raised .recursionError →
      execProg P room depth p i S = p.exec z (fun i => (P i).env) depth i S
  | .done _, _, _, _, _, _ => rfl
  | .raised _, _, _, _, _, _ => rfl
  | .act a next handler, hp, i, S, hk, hn => by
    obtain ⟨ha, hnx, hh⟩ := hp
    have hk' := C66_objects z (P i).env depth S a ha hk
    have hne : (S.act z (P i).env depth a).1 ≠ .raised .recursionError := by
      intro he
      apply hn
      unfold Prog.exec
      generalize S.act z (P i).env depth a = r at he
      obtain ⟨o, S'⟩ := r
      dsimp only at he
      subst he
      dsimp only
      rw [hh]
      rfl
    have e := C66_action (P i) room depth hr hd S hk a (by rw [hz i]; exact hne)
    rw [hz i] at e
    unfold execProg
    unfold Prog.exec at hn ⊢
    rw [e]
    generalize S.act z (P i).env depth a = r at hn hk'
    obtain ⟨o, S'⟩ := r
    cases o with
    | returned v => exact C66_program P z hz room depth hr hd (next v) (hnx v) (i + 1) S' hk' hn
    | raised e => dsimp only; rw [hh]; rfl
    | crashed => rfl

/-! ## Load, change, save -/

theorem Plain.bind {p : Prog α} {f : α → Prog β} : Plain p → (∀ a, Plain (f a)) → Plain (p.bind f) := by
  induction p with
  | done a => intro _ hf; exact hf a
  | raised e => intro _ _; trivial
  | act a next handler ih _ =>
    intro hp hf
    obtain ⟨ha, hn, hh⟩ := hp
    exact ⟨ha, fun v => ih v (hn v) hf, fun e => by show (handler e).bind f = _; rw [hh e]; rfl⟩

theorem Plain.call {a : Action} (ha : Action.ofPackage a) : Plain (Prog.call a) := ⟨ha, fun _ => trivial, fun _ => rfl⟩

theorem Plain.object {o : Op} (ho : Action.ofPackage (.op o)) : Plain (Prog.object o) :=
  Plain.bind (Plain.call ho) fun s => by cases s <;> trivial

theorem Plain.int {o : Op} (ho : Action.ofPackage (.op o)) : Plain (Prog.int o) :=
  Plain.bind (Plain.call ho) fun s => by cases s <;> trivial

theorem Plain.parse (p : Path) : Plain (Prog.parse p) := Plain.bind (Plain.call trivial) fun s => by cases s <;> trivial

theorem Plain.save (o : Nat) (p : Path) : Plain (Prog.save o p) := Plain.bind (Plain.call trivial) fun _ => trivial

theorem Plain.update (o : Nat) (name : PyStr) (f : Int → Int) : Plain (Prog.update o name f) :=
  Plain.bind (Plain.int trivial) fun _ => Plain.bind (Plain.call trivial) fun _ => trivial

theorem Plain.forFrom {body : Nat → Prog PUnit} (hb : ∀ x, Plain (body x)) : ∀ n i, Plain (Prog.forFrom body i n)
  | 0, _ => trivial
  | n + 1, i => Plain.bind (hb i) fun _ => Plain.forFrom hb n (i + 1)

theorem Plain.visit {body : Nat → Prog PUnit} (hb : ∀ x, Plain (body x)) (l i : Nat) : Plain (Prog.visit l body i) :=
  Plain.bind (Plain.call (a := .op (.getItem l i)) trivial) fun s => by cases s <;> first | trivial | exact hb _

theorem Plain.forEach {body : Nat → Prog PUnit} (hb : ∀ x, Plain (body x)) (l : Nat) : Plain (Prog.forEach l body) :=
  Plain.bind (Plain.int trivial) fun _ => Plain.forFrom (fun i => Plain.visit hb l i) _ _

/-- No file and no value makes loading, changing and saving raise `RecursionError`. -/
theorem editFile_calm (edit : DatFile → DatFile) (z : Zlib) (e : Environment) (disk : FileSystem) (src dst : Path) :
    (editFile (fun d => .ok (edit d)) z e disk src dst).2 ≠ .raised .recursionError := by
  unfold editFile DatFile.parse
  cases disk src with
  | none => intro h; cases h
  | some content =>
    dsimp only
    cases z.decompress content with
    | none => intro h; cases h
    | some data =>
      dsimp only
      unfold DatFile.ofData
      cases hd : DatFile.fromBytes (ByteHandler.new data) with
      | error err =>
        intro h
        have h := Outcome.raised.inj h
        rcases C10_datfile_errors _ _ hd with rfl | rfl | rfl | rfl <;> cases h
      | ok x =>
        obtain ⟨d, s⟩ := x
        show (DatFile.save z e disk (edit d) dst).2 ≠ _
        unfold DatFile.save
        cases hb : DatFile.toBytes (edit d) with
        | error err =>
          intro h
          have h := Outcome.raised.inj h
          subst h
          rcases C37_datfile_errors _ _ hb with h | ⟨h, -⟩ | ⟨h, -⟩ | ⟨h, -⟩
          · rcases h with h | h | h <;> cases h
          · cases h
          · cases h
          · cases h
        | ok bs =>
          show (writeBytes e disk dst (z.compress bs)).2 ≠ _
          unfold writeBytes
          cases e.fault with
          | none => intro h; cases h
          | some f =>
            obtain ⟨k, crash⟩ := f
            cases crash <;> intro h <;> cases h

/-- A program that loads a file, changes it as `edit` says (C56), and saves it, executed from the source: what it does to the disk and how it ends are what
they are on values (C43) — for every file, disk, fault and crash. -/
theorem C66_load_change_save (body : Nat → Prog PUnit) (hp : ∀ x, Plain (body x)) (edit : DatFile → DatFile) (P : Platform)
    (hb : ∀ x d old, d.Sized → (edit d).Sized ∧ (body x).Makes P.zlib (fun _ => P.env) 5 x (d.object old) ((edit d).object old))
    (room : Nat) (hr : 23 ≤ room) (disk : FileSystem) (H : Heap) (hk : OfPackage H) (src dst : Path) :
    ∃ j W, execProg (fun _ => P) room 5 (Prog.loadChangeSave body src dst) 0 ⟨disk, ⟨H, []⟩⟩ =
      ((editFile (fun d => .ok (edit d)) P.zlib P.env disk src dst).2, j, ⟨(editFile (fun d => .ok (edit d)) P.zlib P.env disk src dst).1, W⟩) ∧
        H <+: W.heap := by
  obtain ⟨j, W, h, hw⟩ := C56_load_change_save body edit P.zlib P.env 5 (Nat.le_refl _) hb disk H src dst
  refine ⟨j, W, ?_, hw⟩
  rw [← h]
  refine C66_program (fun _ => P) P.zlib (fun _ => rfl) room 5 (by omega) (by omega) _ ?_ 0 _ hk ?_
  · exact Plain.bind (Plain.parse src) fun x => Plain.bind (hp x) fun _ => Plain.save x dst
  · show ((Prog.loadChangeSave body src dst).exec P.zlib (fun _ => P.env) 5 0 ⟨disk, ⟨H, []⟩⟩).1 ≠ _
    rw [h]
    exact editFile_calm edit P.zlib P.env disk src dst

/-- `for civ in data.civs: for unit in civ.units: if unit is not None: unit.hit_points = f(unit.hit_points)` between `parse` and `save`: the hit points of
every unit change, and nothing else. -/
theorem C66_hit_points (f : Int → Int) (P : Platform) (room : Nat) (hr : 23 ≤ room) (disk : FileSystem) (H : Heap) (hk : OfPackage H) (src dst : Path) :
    ∃ j W, execProg (fun _ => P) room 5 (Prog.loadChangeSave (Prog.hitPoints f) src dst) 0 ⟨disk, ⟨H, []⟩⟩ =
      ((editFile (fun d => .ok (d.hitPoints f)) P.zlib P.env disk src dst).2, j, ⟨(editFile (fun d => .ok (d.hitPoints f)) P.zlib P.env disk src dst).1, W⟩) ∧
        H <+: W.heap := by
  obtain ⟨j, W, h, hw⟩ := C56_hit_points f P.zlib P.env 5 (Nat.le_refl _) disk H src dst
  refine ⟨j, W, ?_, hw⟩
  rw [← h]
  refine C66_program (fun _ => P) P.zlib (fun _ => rfl) room 5 (by omega) (by omega) _ ?_ 0 _ hk ?_
  · refine Plain.bind (Plain.parse src) fun x => Plain.bind ?_ fun _ => Plain.save x dst
    exact Plain.bind (Plain.object trivial) fun l => Plain.forEach (fun c => Plain.bind (Plain.object (o := .getAttr c (lit "units")) trivial) fun u => Plain.forEach (fun v => Plain.update v _ f) u) l
  · show ((Prog.loadChangeSave (Prog.hitPoints f) src dst).exec P.zlib (fun _ => P.env) 5 0 ⟨disk, ⟨H, []⟩⟩).1 ≠ _
    rw [h]
    exact editFile_calm _ P.zlib P.env disk src dst

/-- A script that tries one file after the other until one can be loaded: it is calm, as long as there are no files, however long it tries. -/
example (z : Zlib) (env : Nat → Environment) (n : Nat) :
    Calm (α := PUnit) (fun (i : Nat) => .call (.parse (toString i ++ ".dat")) fun r => match r with | .ok _ => 0 | .error _ => i + 1) z env 5 n
      (.running 0 ⟨fun _ => none, ⟨[], []⟩⟩) := by
  have h : ∀ n, Script.run (α := PUnit) (fun (i : Nat) => .call (.parse (toString i ++ ".dat")) fun r => match r with | .ok _ => 0 | .error _ => i + 1)
      z env 5 n (.running 0 ⟨fun _ => none, ⟨[], []⟩⟩) = .running n ⟨fun _ => none, ⟨[], []⟩⟩ := by
    intro n
    induction n with
    | zero => rfl
    | succ n ih => unfold Script.run; rw [ih]; rfl
  intro i _ a S ha
  rw [h i] at ha
  cases ha
  exact ⟨trivial, fun h => by cases h⟩

end Genie.Src
