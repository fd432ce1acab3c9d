import Verif.Proof.Schedules
import Verif.Proof.Termination
import Verif.Props.C44_Histories
import Verif.Props.C23_Sizes
/-!
# C49: programs that run at the same time

The processes and their steps are in `Verif/Model/Processes.lean`; a schedule is any sequence of steps of any of the processes
(`World.Runs`).  `Independent` (`Verif/Spec/Schedules.lean`) says that nobody writes to a file that another one reads or writes.
-/

namespace Genie

theorem Process.compute_compressed {z : Zlib} {p : Process} {c data : Bytes} (h : p.compute z c = .opening data) :
    ∃ bs, data = z.compress bs := by
  unfold Process.compute at h
  repeat' split at h
  all_goals first | cases h; done | (cases h; exact ⟨_, rfl⟩)

/-! ## independent processes -/

theorem Process.alone_other {z : Zlib} {fs : FileSystem} {p : Process} {q : Path} (h : q ≠ p.dst) : (p.alone z fs).1 q = fs q := by
  cases e : fs p.src with
  | none => rw [Process.alone_none e]
  | some c =>
    rcases p.compute_cases z c with ⟨how, k⟩ | ⟨data, k⟩
    · rw [Process.alone_ended e k]
    · rw [Process.alone_opening e k]; exact FileSystem.put_other _ _ h

theorem Process.alone_congr {z : Zlib} {fs fs' : FileSystem} {p : Process} (h1 : fs' p.src = fs p.src) (h2 : fs' p.dst = fs p.dst) :
    (p.alone z fs').1 p.dst = (p.alone z fs).1 p.dst := by
  cases e : fs p.src with
  | none => rw [Process.alone_none e, Process.alone_none (h1.trans e)]; exact h2
  | some c =>
    rcases p.compute_cases z c with ⟨how, k⟩ | ⟨data, k⟩
    · rw [Process.alone_ended e k, Process.alone_ended (h1.trans e) k]; exact h2
    · rw [Process.alone_opening e k, Process.alone_opening (h1.trans e) k]; simp [FileSystem.put_self]

/-- Neither writes to a file of the other. -/
def Apart (p q : Process) : Prop := (p.dst ≠ q.src ∧ p.dst ≠ q.dst) ∧ (q.dst ≠ p.src ∧ q.dst ≠ p.dst)

theorem Independent.pairwise {ps : List Process} (h : Independent ps) : ps.Pairwise Apart := by
  rw [List.pairwise_iff_getElem]
  intro i j hi hj hij
  exact ⟨h i j _ _ (by omega) (List.getElem?_eq_getElem hi) (List.getElem?_eq_getElem hj),
    h j i _ _ (by omega) (List.getElem?_eq_getElem hj) (List.getElem?_eq_getElem hi)⟩

theorem history_apart {z : Zlib} : ∀ {ps : List Process} {fs : FileSystem}, ps.Pairwise Apart →
    (∀ q : Path, (∀ p ∈ ps, p.dst ≠ q) → runHistory z fs (ps.map Process.session) q = fs q) ∧
    (∀ p ∈ ps, runHistory z fs (ps.map Process.session) p.dst = (p.alone z fs).1 p.dst)
  | [], _, _ => ⟨fun _ _ => rfl, fun _ h => (nomatch h)⟩
  | p :: ps, fs, h => by
    obtain ⟨h1, h2⟩ := List.pairwise_cons.1 h
    obtain ⟨i1, i2⟩ := history_apart (z := z) (fs := (p.alone z fs).1) h2
    refine ⟨fun q hq => ?_, fun q hq => ?_⟩
    · refine (i1 q fun p' hp' => hq p' (List.mem_cons_of_mem _ hp')).trans ?_
      exact Process.alone_other fun e => hq p List.mem_cons_self e.symm
    · rcases List.mem_cons.1 hq with rfl | hq
      · exact i1 q.dst fun p' hp' => ((h1 p' hp').2).2
      · refine (i2 q hq).trans (Process.alone_congr ?_ ?_)
        · exact Process.alone_other fun e => (h1 q hq).1.1 e.symm
        · exact Process.alone_other (h1 q hq).2.2

/-- Independent processes, in any schedule: when all have ended, each has ended as it does alone, and the disk is the one that running them
one after the other gives, in any order. -/
theorem C49_independent (z : Zlib) (w w' : World) (hi : Independent w.procs) (hs : ∀ p ∈ w.procs, p.phase = .start)
    (hr : World.Runs z false w w') (he : ∀ p ∈ w'.procs, ∃ how, p.phase = .ended how) :
    (∀ (i : Nat) (p : Process), w.procs[i]? = some p → ∃ p' : Process, w'.procs[i]? = some p' ∧ p'.phase = .ended (p.alone z w.disk).2) ∧
    ∀ order, List.Perm order w.procs → w'.disk = runHistory z w.disk (order.map Process.session) := by
  have inv := WInv.runs hi hr (WInv.init z false w hs)
  have main : ∀ (i : Nat) (p : Process), w.procs[i]? = some p →
      w'.procs[i]? = some { p with phase := .ended (p.alone z w.disk).2 } ∧ w'.disk p.dst = (p.alone z w.disk).1 p.dst := by
    intro i p hp
    obtain ⟨ph, h1, h2⟩ := inv.each i p hp
    obtain ⟨how, e⟩ := he _ (List.mem_of_getElem? h1)
    have e : ph = .ended how := e
    subst e
    rcases h2 with ⟨k1, rfl, k2⟩ | ⟨c, k1, k2, k3⟩ | ⟨c, data, k1, k2, rfl, k3⟩ | ⟨k, _⟩
    · rw [Process.alone_none k1]; exact ⟨h1, k2⟩
    · rw [Process.alone_ended k1 k2]; exact ⟨h1, k3⟩
    · rw [Process.alone_opening k1 k2]; exact ⟨h1, k3.trans (FileSystem.put_self _ _ _).symm⟩
    · cases k
  refine ⟨fun i p hp => ⟨_, (main i p hp).1, rfl⟩, fun order ho => ?_⟩
  have ha : order.Pairwise Apart := (ho.pairwise_iff (R := Apart) fun h => ⟨h.2, h.1⟩).2 hi.pairwise
  obtain ⟨o1, o2⟩ := history_apart (z := z) (fs := w.disk) ha
  funext q
  by_cases hq : ∃ p ∈ w.procs, p.dst = q
  · obtain ⟨p, hp, rfl⟩ := hq
    obtain ⟨i, hi'⟩ := List.getElem?_of_mem hp
    rw [o2 p (ho.mem_iff.2 hp), (main i p hi').2]
  · have hq' : ∀ p ∈ w.procs, p.dst ≠ q := fun p hp e => hq ⟨p, hp, e⟩
    rw [inv.others q hq', o1 q fun p hp => hq' p (ho.mem_iff.1 hp)]

/-- With crashes and `OSError`s, and at any moment, not only at the end: a file that nobody writes is as it was; the target of a process is
as it was, or a beginning of what the process alone writes; a process that has returned has written all of it; and one that has raised
anything but `OSError` raises that alone, and has not touched its target. -/
theorem C49_faults (z : Zlib) (w w' : World) (hi : Independent w.procs) (hs : ∀ p ∈ w.procs, p.phase = .start)
    (hr : World.Runs z true w w') :
    (∀ q : Path, (∀ p ∈ w.procs, p.dst ≠ q) → w'.disk q = w.disk q) ∧
    ∀ (i : Nat) (p : Process), w.procs[i]? = some p → ∃ p' : Process, w'.procs[i]? = some p' ∧
      (w'.disk p.dst = w.disk p.dst ∨
        ∃ bs part, p.alone z w.disk = (w.disk.put p.dst (z.compress bs), .returned ()) ∧ part <+: z.compress bs ∧ w'.disk p.dst = some part) ∧
      (p'.phase = .ended (.returned ()) → (p.alone z w.disk).2 = .returned () ∧ w'.disk p.dst = (p.alone z w.disk).1 p.dst) ∧
      (∀ e, e ≠ .osError → p'.phase = .ended (.raised e) → p.alone z w.disk = (w.disk, .raised e) ∧ w'.disk p.dst = w.disk p.dst) := by
  have inv := WInv.runs hi hr (WInv.init z true w hs)
  refine ⟨inv.others, fun i p hp => ?_⟩
  obtain ⟨ph, h1, h2⟩ := inv.each i p hp
  refine ⟨_, h1, ?_, ?_, ?_⟩
  · have wrote : ∀ c data part, w.disk p.src = some c → p.compute z c = .opening data → part <+: data → w'.disk p.dst = some part →
        ∃ bs part, p.alone z w.disk = (w.disk.put p.dst (z.compress bs), .returned ()) ∧ part <+: z.compress bs ∧ w'.disk p.dst = some part := by
      intro c data part k1 k2 k3 k4
      obtain ⟨bs, rfl⟩ := Process.compute_compressed k2
      exact ⟨bs, part, Process.alone_opening k1 k2, k3, k4⟩
    cases ph with
    | start => exact .inl h2
    | reading b => exact .inl h2.1
    | loaded c => exact .inl h2.1
    | opening data => exact .inl h2.1
    | writing done rest =>
      obtain ⟨k1, c, k2, k3⟩ := h2
      exact .inr (wrote c _ done k2 k3 (List.prefix_append _ _) k1)
    | ended how =>
      rcases h2 with ⟨k1, rfl, k2⟩ | ⟨c, k1, k2, k3⟩ | ⟨c, data, k1, k2, rfl, k3⟩ | ⟨_, _, k | ⟨c, data, part, k1, k2, k3, k4⟩⟩
      · exact .inl k2
      · exact .inl k3
      · exact .inr (wrote c data data k1 k2 (List.prefix_refl _) k3)
      · exact .inl k
      · exact .inr (wrote c data part k1 k2 k3 k4)
  · intro e
    have e : ph = .ended (.returned ()) := e
    subst e
    rcases h2 with ⟨k1, k, k2⟩ | ⟨c, k1, k2, k3⟩ | ⟨c, data, k1, k2, k, k3⟩ | ⟨_, k | k, _⟩
    · cases k
    · exfalso
      unfold Process.compute at k2
      repeat' split at k2
      all_goals cases k2
    · rw [Process.alone_opening k1 k2]; exact ⟨rfl, k3.trans (FileSystem.put_self _ _ _).symm⟩
    · cases k
    · cases k
  · intro x hx e
    have e : ph = .ended (.raised x) := e
    subst e
    rcases h2 with ⟨k1, k, k2⟩ | ⟨c, k1, k2, k3⟩ | ⟨c, data, k1, k2, k, k3⟩ | ⟨_, k | k, _⟩
    · cases k; exact absurd rfl hx
    · exact ⟨Process.alone_ended k1 k2, k3⟩
    · cases k
    · cases k
    · cases k; exact absurd rfl hx

/-- So at any moment, loading the target of a process gives what it gave at the beginning, or `zlib.error`, or what it gives after the
process has run alone. -/
theorem C49_faults_load (z : Zlib) (hz : z.Lawful) (w w' : World) (hi : Independent w.procs) (hs : ∀ p ∈ w.procs, p.phase = .start)
    (hr : World.Runs z true w w') (p : Process) (hp : p ∈ w.procs) :
    DatFile.parse z w'.disk p.dst = DatFile.parse z w.disk p.dst ∨ DatFile.parse z w'.disk p.dst = .raised .zlibError ∨
      DatFile.parse z w'.disk p.dst = DatFile.parse z (p.alone z w.disk).1 p.dst := by
  obtain ⟨i, hp⟩ := List.getElem?_of_mem hp
  obtain ⟨p', _, h, _⟩ := (C49_faults z w w' hi hs hr).2 i p hp
  rcases h with h | ⟨bs, part, h1, h2, h3⟩
  · exact .inl (by unfold DatFile.parse; rw [h])
  · by_cases e : part = z.compress bs
    · refine .inr (.inr ?_)
      rw [h1]
      unfold DatFile.parse
      rw [h3, e]
      dsimp only
      rw [FileSystem.put_self]
    · refine .inr (.inl ?_)
      unfold DatFile.parse
      rw [h3]
      dsimp only
      rw [hz.truncated bs part h2 e]

/-! ## progress -/

theorem files_stay {z : Zlib} {faults : Bool} {w w' : World} (hs : World.Step z faults w w') (q : Path) (h : w.disk q ≠ none) :
    w'.disk q ≠ none := by
  cases hs with
  | @act i p fs ph hp ha =>
    generalize e0 : p.phase = ph0 at ha
    cases ha with
    | openWrite => simp only [FileSystem.put]; split <;> simp_all
    | write => simp only [FileSystem.put]; split <;> simp_all
    | _ => exact h
  | fault => exact h

/-- The files that a process has open exist. -/
def HasFiles (w : World) : Prop := ∀ p ∈ w.procs,
  (∀ b, p.phase = .reading b → w.disk p.src ≠ none) ∧ (∀ d r, p.phase = .writing d r → w.disk p.dst ≠ none)

theorem HasFiles.set {w : World} {fs : FileSystem} {i : Nat} {p : Process} (h : HasFiles w) (hf : ∀ q, w.disk q ≠ none → fs q ≠ none)
    (hp : (∀ b, p.phase = .reading b → fs p.src ≠ none) ∧ (∀ d r, p.phase = .writing d r → fs p.dst ≠ none)) :
    HasFiles ⟨fs, w.procs.set i p⟩ := by
  intro q hq
  rcases List.mem_or_eq_of_mem_set hq with hq | rfl
  · exact ⟨fun b e => hf _ ((h q hq).1 b e), fun d r e => hf _ ((h q hq).2 d r e)⟩
  · exact hp

theorem HasFiles.step {z : Zlib} {faults : Bool} {w w' : World} (h : HasFiles w) (hs : World.Step z faults w w') : HasFiles w' := by
  have stay := files_stay hs
  cases hs with
  | @act i p fs ph hp ha =>
    refine h.set stay ?_
    have hm := h p (List.mem_of_getElem? hp)
    generalize e0 : p.phase = ph0 at ha
    cases ha with
    | openRead a => exact ⟨fun b _ => by rw [a]; simp, fun d r e => (nomatch e)⟩
    | missing a => exact ⟨fun b e => (nomatch e), fun d r e => (nomatch e)⟩
    | read a => exact ⟨fun b _ => by rw [a]; simp, fun d r e => (nomatch e)⟩
    | eof => exact ⟨fun b e => (nomatch e), fun d r e => (nomatch e)⟩
    | @compute c =>
      rcases p.compute_cases z c with ⟨how, k⟩ | ⟨data, k⟩ <;> rw [k] <;> exact ⟨fun b e => (nomatch e), fun d r e => (nomatch e)⟩
    | openWrite => exact ⟨fun b e => (nomatch e), fun d r e => by simp [FileSystem.put_self]⟩
    | write => exact ⟨fun b e => (nomatch e), fun d r e => by simp [FileSystem.put_self]⟩
    | close => exact ⟨fun b e => (nomatch e), fun d r e => (nomatch e)⟩
  | @fault i p ph hf hp ha =>
    refine h.set stay ?_
    cases ha <;> exact ⟨fun b e => (nomatch e), fun d r e => (nomatch e)⟩

/-- Nobody ever waits: whatever the others have done, a process that has not ended can take its next step. -/
theorem C49_progress (z : Zlib) (faults : Bool) (w w' : World) (hs : ∀ p ∈ w.procs, p.phase = .start) (hr : World.Runs z faults w w')
    (p : Process) (hp : p ∈ w'.procs) (he : ∀ how, p.phase ≠ .ended how) : ∃ fs ph, p.Act z w'.disk p.phase fs ph := by
  have h0 : HasFiles w := fun p hp => ⟨fun b e => (by rw [hs p hp] at e; cases e), fun d r e => by rw [hs p hp] at e; cases e⟩
  have h1 : HasFiles w' := by
    clear hs hp he
    induction hr with
    | refl => exact h0
    | step s _ ih => exact ih (h0.step s)
  have h2 := h1 p hp
  cases e : p.phase with
  | start =>
    cases e1 : w'.disk p.src with
    | none => exact ⟨_, _, .missing e1⟩
    | some c => exact ⟨_, _, .openRead e1⟩
  | reading b =>
    cases e1 : w'.disk p.src with
    | none => exact absurd e1 (h2.1 b e)
    | some c =>
      cases e2 : c.drop b.length with
      | nil => exact ⟨_, _, .eof e1 (List.drop_eq_nil_iff.1 e2)⟩
      | cons x xs => exact ⟨_, _, .read (piece := [x]) (rest := xs) e1 e2 (by simp)⟩
  | loaded c => exact ⟨_, _, .compute⟩
  | opening d => exact ⟨_, _, .openWrite⟩
  | writing d r =>
    cases e1 : w'.disk p.dst with
    | none => exact absurd e1 (h2.2 d r e)
    | some c =>
      cases r with
      | nil => exact ⟨_, _, .close⟩
      | cons x xs => exact ⟨_, _, .write (piece := [x]) (rest := xs) (by simp) e1⟩
  | ended how => exact absurd e (he how)

theorem World.Runs.trans {z : Zlib} {f : Bool} {u v w : World} (h : World.Runs z f u v) : World.Runs z f v w → World.Runs z f u w := by
  induction h with
  | refl => exact id
  | step s _ ih => exact fun h => .step s (ih h)

theorem World.Step.faulty {z : Zlib} {f : Bool} {u v : World} (h : World.Step z f u v) : World.Step z true u v := by
  cases h with
  | act h1 h2 => exact .act h1 h2
  | fault _ h1 h2 => exact .fault rfl h1 h2

/-- And nobody goes on for ever: there is no infinite schedule, not even of processes that read a file others are writing. -/
theorem C49_terminates (z : Zlib) (faults : Bool) : ¬ ∃ f : Nat → World, ∀ n, World.Step z faults (f n) (f (n + 1)) := by
  rintro ⟨f, hf⟩
  have main : ∀ w : World, ∀ n, f n ≠ w := by
    intro w
    induction w using (World.step_wf z).induction with
    | _ w ih =>
      intro n e
      refine ih (f (n + 1)) ?_ (n + 1) rfl
      rw [← e]
      exact (hf n).faulty
  exact main _ 0 rfl

/-- So whatever has happened so far, there is a way on, without faults, to a moment when all processes have ended; and every schedule that
cannot be continued has got there. -/
theorem C49_ends (z : Zlib) (faults : Bool) (w w' : World) (hs : ∀ p ∈ w.procs, p.phase = .start) (hr : World.Runs z faults w w') :
    (∃ w'', World.Runs z false w' w'' ∧ ∀ p ∈ w''.procs, ∃ how, p.phase = .ended how) ∧
    ((¬ ∃ w'', World.Step z false w' w'') → ∀ p ∈ w'.procs, ∃ how, p.phase = .ended how) := by
  have stuck : ∀ u, World.Runs z faults w u → (¬ ∃ w'', World.Step z false u w'') → ∀ p ∈ u.procs, ∃ how, p.phase = .ended how := by
    intro u hu hn p hp
    refine Classical.byContradiction fun hc => hn ?_
    obtain ⟨fs, ph, h⟩ := C49_progress z faults w u hs hu p hp fun how e => hc ⟨how, e⟩
    obtain ⟨i, hi⟩ := List.getElem?_of_mem hp
    exact ⟨_, .act hi h⟩
  have lift : ∀ {u u' : World}, World.Step z false u u' → World.Step z faults u u' := fun h => by
    cases h with
    | act h1 h2 => exact .act h1 h2
    | fault h _ _ => cases h
  refine ⟨?_, stuck w' hr⟩
  induction w' using (World.step_wf z).induction with
  | _ u ih =>
    by_cases hn : ∃ w'', World.Step z false u w''
    · obtain ⟨u', h⟩ := hn
      obtain ⟨w'', k1, k2⟩ := ih u' h.faulty (hr.trans (.step (lift h) (.refl _)))
      exact ⟨w'', .step h k1, k2⟩
    · exact ⟨u, .refl _, stuck u hr hn⟩

/-! ## a load while a save is going on -/

/-- Once a save has emptied its target, and if nobody else writes to it: whoever opens it from then on, and reads it in any number of
pieces, gets a beginning of the new content, whatever the writer does meanwhile (it may be killed, too). -/
theorem C49_load_during_save (z : Zlib) (w w' : World) (k j : Nat) (writer reader : Process) (done rest : Bytes)
    (hk : w.procs[k]? = some writer) (hph : writer.phase = .writing done rest) (hd : w.disk writer.dst = some done)
    (hone : ∀ (i : Nat) (p : Process), i ≠ k → w.procs[i]? = some p → p.dst ≠ writer.dst)
    (hj : w.procs[j]? = some reader) (hjs : reader.phase = .start) (hsrc : reader.src = writer.dst)
    (hr : World.Runs z true w w') (reader' : Process) (hj' : w'.procs[j]? = some reader') (content : Bytes)
    (hc : reader'.phase = .loaded content) : content <+: done ++ rest := by
  have hjk : j ≠ k := by
    rintro rfl
    rw [hk] at hj
    cases hj
    rw [hph] at hjs
    cases hjs
  let Inv : World → Prop := fun u =>
    (∃ p, u.procs[k]? = some p ∧ p.dst = writer.dst ∧ ((∃ d r, p.phase = .writing d r ∧ d ++ r = done ++ rest ∧ u.disk writer.dst = some d) ∨
      ((∃ how, p.phase = .ended how) ∧ ∃ d, d <+: done ++ rest ∧ u.disk writer.dst = some d))) ∧
    (∀ (i : Nat) (p : Process), i ≠ k → u.procs[i]? = some p → p.dst ≠ writer.dst) ∧
    (∃ p, u.procs[j]? = some p ∧ p.src = writer.dst ∧ (∀ b, p.phase = .reading b → b <+: done ++ rest) ∧
      (∀ c, p.phase = .loaded c → c <+: done ++ rest))
  have cur : ∀ u, Inv u → ∃ d, d <+: done ++ rest ∧ u.disk writer.dst = some d := by
    rintro u ⟨⟨p, _, _, ⟨d, r, _, h1, h2⟩ | ⟨_, h⟩⟩, _⟩
    · exact ⟨d, ⟨r, h1⟩, h2⟩
    · exact h
  have step : ∀ u u', World.Step z true u u' → Inv u → Inv u' := by
    intro u u' s inv
    obtain ⟨dc, hdc1, hdc2⟩ := cur u inv
    obtain ⟨⟨pk, a1, a2, a3⟩, b, ⟨pj, c1, c2, c3, c4⟩⟩ := inv
    cases s with
    | @act i p fs ph hp ha =>
      have others : i ≠ k → fs writer.dst = u.disk writer.dst := by
        intro hik
        have hne := b i p hik hp
        generalize e0 : p.phase = ph0 at ha
        cases ha with
        | openWrite => exact FileSystem.put_other _ _ fun e => hne e.symm
        | write => exact FileSystem.put_other _ _ fun e => hne e.symm
        | _ => rfl
      refine ⟨?_, ?_, ?_⟩
      · by_cases hik : i = k
        · subst hik
          rw [a1] at hp
          cases hp
          have hl := (List.getElem?_eq_some_iff.1 a1).1
          refine ⟨{ pk with phase := ph }, by simp [hl], a2, ?_⟩
          rcases a3 with ⟨d, r, e1, e2, e3⟩ | ⟨⟨how, e1⟩, _⟩
          · rw [e1] at ha
            generalize e4 : Phase.writing d r = ph0 at ha
            cases ha with
            | @write d' piece r' c hne hc =>
              cases e4
              rw [a2, e3] at hc
              cases hc
              refine .inl ⟨d ++ piece, r', rfl, by rw [← e2, List.append_assoc], ?_⟩
              rw [a2, ← overwrite_end]
              exact FileSystem.put_self _ _ _
            | close => cases e4; exact .inr ⟨⟨_, rfl⟩, d, ⟨[], e2⟩, e3⟩
            | _ => cases e4
          · rw [e1] at ha
            generalize e4 : Phase.ended how = ph0 at ha
            cases ha <;> cases e4
        · refine ⟨pk, by rw [List.getElem?_set_ne hik]; exact a1, a2, ?_⟩
          have e0 := others hik
          dsimp only
          rw [e0]
          exact a3
      · intro i' p' hne hp'
        by_cases hii : i' = i
        · subst hii
          have hl := (List.getElem?_eq_some_iff.1 hp).1
          simp only [List.getElem?_set_self hl] at hp'
          cases hp'
          exact b i' p hne hp
        · rw [List.getElem?_set_ne (fun e => hii e.symm)] at hp'
          exact b i' p' hne hp'
      · by_cases hij : i = j
        · subst hij
          rw [c1] at hp
          cases hp
          have hl := (List.getElem?_eq_some_iff.1 c1).1
          refine ⟨{ pj with phase := ph }, by simp [hl], c2, ?_⟩
          generalize e0 : pj.phase = ph0 at ha
          cases ha with
          | openRead => exact ⟨fun _ e => by cases e; exact List.nil_prefix, fun _ e => (nomatch e)⟩
          | missing => exact ⟨fun _ e => (nomatch e), fun _ e => (nomatch e)⟩
          | @read bf c piece rs hs hdr hne =>
            refine ⟨fun _ e => ?_, fun _ e => (nomatch e)⟩
            cases e
            rw [c2, hdc2] at hs
            cases hs
            have hb := c3 bf e0
            have hbl : bf.length ≤ dc.length := by
              apply Nat.le_of_not_lt
              intro hlt
              rw [List.drop_eq_nil_of_le (by omega)] at hdr
              exact hne (List.append_eq_nil_iff.1 hdr.symm).1
            have hbc : bf <+: dc := List.prefix_of_prefix_length_le hb hdc1 hbl
            obtain ⟨t, rfl⟩ := hbc
            rw [List.drop_left] at hdr
            subst hdr
            exact List.IsPrefix.trans ⟨rs, by simp⟩ hdc1
          | eof => exact ⟨fun _ e => (nomatch e), fun _ e => by cases e; exact c3 _ e0⟩
          | @compute c =>
            rcases pj.compute_cases z c with ⟨how, k⟩ | ⟨data, k⟩ <;> rw [k] <;> exact ⟨fun _ e => (nomatch e), fun _ e => (nomatch e)⟩
          | openWrite => exact ⟨fun _ e => (nomatch e), fun _ e => (nomatch e)⟩
          | write => exact ⟨fun _ e => (nomatch e), fun _ e => (nomatch e)⟩
          | close => exact ⟨fun _ e => (nomatch e), fun _ e => (nomatch e)⟩
        · exact ⟨pj, by rw [List.getElem?_set_ne hij]; exact c1, c2, c3, c4⟩
    | @fault i p ph hf hp ha =>
      have hph : ∃ how, ph = .ended how := by cases ha <;> exact ⟨_, rfl⟩
      obtain ⟨how, rfl⟩ := hph
      refine ⟨?_, ?_, ?_⟩
      · by_cases hik : i = k
        · subst hik
          rw [a1] at hp
          cases hp
          have hl := (List.getElem?_eq_some_iff.1 a1).1
          exact ⟨{ pk with phase := .ended how }, by simp [hl], a2, .inr ⟨⟨_, rfl⟩, dc, hdc1, hdc2⟩⟩
        · exact ⟨pk, by rw [List.getElem?_set_ne hik]; exact a1, a2, a3⟩
      · intro i' p' hne hp'
        by_cases hii : i' = i
        · subst hii
          have hl := (List.getElem?_eq_some_iff.1 hp).1
          simp only [List.getElem?_set_self hl] at hp'
          cases hp'
          exact b i' p hne hp
        · rw [List.getElem?_set_ne (fun e => hii e.symm)] at hp'
          exact b i' p' hne hp'
      · by_cases hij : i = j
        · subst hij
          have hl := (List.getElem?_eq_some_iff.1 c1).1
          rw [c1] at hp
          cases hp
          exact ⟨{ pj with phase := .ended how }, by simp [hl], c2, fun _ e => (nomatch e), fun _ e => (nomatch e)⟩
        · exact ⟨pj, by rw [List.getElem?_set_ne hij]; exact c1, c2, c3, c4⟩
  have h0 : Inv w := ⟨⟨writer, hk, rfl, .inl ⟨done, rest, hph, rfl, hd⟩⟩, hone,
    ⟨reader, hj, hsrc, fun b e => (by rw [hjs] at e; cases e), fun c e => (by rw [hjs] at e; cases e)⟩⟩
  have h1 : Inv w' := by
    clear hj' hc hk hd hone hj
    induction hr with
    | refl => exact h0
    | step s _ ih => exact ih (step _ _ s h0)
  obtain ⟨_, _, ⟨p, e1, _, _, e2⟩⟩ := h1
  rw [hj'] at e1
  cases e1
  exact e2 content hc

/-- So such a load is that of the complete new file, or raises `zlib.error`; it never gives a mixture. -/
theorem C49_load_during_save_result (z : Zlib) (hz : z.Lawful) (bs content : Bytes) (h : content <+: z.compress bs) (p : Process) :
    content = z.compress bs ∨ p.compute z content = .ended (.raised .zlibError) := by
  by_cases e : content = z.compress bs
  · exact .inl e
  · refine .inr ?_
    unfold Process.compute
    rw [hz.truncated bs content h e]

/-! ## what can go wrong -/

/-- Steps of one process while the others wait. -/
inductive Process.Acts (z : Zlib) (p : Process) : FileSystem → Phase → FileSystem → Phase → Prop
  | refl (fs : FileSystem) (ph : Phase) : Acts z p fs ph fs ph
  | step {fs fs' fs'' : FileSystem} {ph ph' ph'' : Phase} : p.Act z fs ph fs' ph' → Acts z p fs' ph' fs'' ph'' → Acts z p fs ph fs'' ph''

theorem Process.Acts.trans {z : Zlib} {p : Process} {fs fs' fs'' : FileSystem} {ph ph' ph'' : Phase} (h : p.Acts z fs ph fs' ph') :
    p.Acts z fs' ph' fs'' ph'' → p.Acts z fs ph fs'' ph'' := by
  induction h with
  | refl => exact id
  | step s _ ih => exact fun h => .step s (ih h)

theorem Process.Act.phase {z : Zlib} {p : Process} {x : Phase} {fs fs' : FileSystem} {ph ph' : Phase} (ha : p.Act z fs ph fs' ph') :
    Process.Act z fs { p with phase := x } ph fs' ph' := by
  cases ha with
  | openRead a => exact .openRead a
  | missing a => exact .missing a
  | read a b c => exact .read a b c
  | eof a b => exact .eof a b
  | compute => exact .compute
  | openWrite => exact .openWrite
  | write a b => exact .write (p := { p with phase := x }) a b
  | close => exact .close

theorem Process.Acts.runs {z : Zlib} {p : Process} {fs fs' : FileSystem} {ph ph' : Phase} (h : p.Acts z fs ph fs' ph') :
    ∀ {ps : List Process} {i : Nat}, ps[i]? = some { p with phase := ph } →
      World.Runs z false ⟨fs, ps⟩ ⟨fs', ps.set i { p with phase := ph' }⟩ := by
  induction h with
  | refl fs ph =>
    intro ps i hi
    obtain ⟨hl, e⟩ := List.getElem?_eq_some_iff.1 hi
    rw [← e, List.set_getElem_self]
    exact .refl _
  | @step fs fs1 fs2 ph ph1 ph2 a _ ih =>
    intro ps i hi
    refine .step (.act hi a.phase) ?_
    have hl := (List.getElem?_eq_some_iff.1 hi).1
    have := ih (ps := ps.set i { p with phase := ph1 }) (i := i) (by simp [hl])
    rwa [List.set_set] at this

theorem Process.Acts.readMore {z : Zlib} {p : Process} {fs : FileSystem} {b piece rest c : Bytes} (h : fs p.src = some c)
    (hd : c.drop b.length = piece ++ rest) : p.Acts z fs (.reading b) fs (.reading (b ++ piece)) := by
  by_cases e : piece = []
  · subst e; rw [List.append_nil]; exact .refl _ _
  · exact .step (.read h hd e) (.refl _ _)

theorem Process.Acts.load {z : Zlib} {p : Process} {fs : FileSystem} {c : Bytes} (h : fs p.src = some c) :
    p.Acts z fs .start fs (p.compute z c) := by
  have h1 : p.Acts z fs (.reading []) fs (.reading ([] ++ c)) := .readMore (rest := []) h (by simp)
  exact .step (.openRead h) (h1.trans (.step (.eof h (by simp)) (.step .compute (.refl _ _))))

theorem Process.Acts.store {z : Zlib} {p : Process} {fs : FileSystem} {data : Bytes} :
    p.Acts z fs (.opening data) (fs.put p.dst data) (.ended (.returned ())) := by
  refine .step .openWrite ?_
  by_cases e : data = []
  · subst e; exact .step .close (.refl _ _)
  · have := Process.Act.write (z := z) (fs := fs.put p.dst []) (p := p) (done := []) (piece := data) (rest := []) e
      (FileSystem.put_self fs p.dst [])
    rw [List.append_nil] at this
    refine .step this ?_
    have e1 : (fs.put p.dst []).put p.dst (overwrite [] (List.length (α := UInt8) []) data) = fs.put p.dst data := by
      funext q
      by_cases hq : q = p.dst <;> simp [FileSystem.put, hq, overwrite]
    rw [e1]
    exact .step .close (.refl _ _)

/-- Two programs that edit the same file in place: there is always a schedule in which both end without an exception and the edit of the
first is lost. -/
theorem C49_lost_update (z : Zlib) (fs : FileSystem) (path : Path) (e1 e2 : DatFile → Py DatFile)
    (h1 : (editFile e1 z .plain fs path path).2 = .returned ()) (h2 : (editFile e2 z .plain fs path path).2 = .returned ()) :
    World.Runs z false ⟨fs, [⟨path, e1, path, .start⟩, ⟨path, e2, path, .start⟩]⟩
      ⟨(editFile e2 z .plain fs path path).1, [⟨path, e1, path, .ended (.returned ())⟩, ⟨path, e2, path, .ended (.returned ())⟩]⟩ := by
  have key : ∀ e : DatFile → Py DatFile, (editFile e z .plain fs path path).2 = .returned () →
      ∃ c data, fs path = some c ∧ Process.compute z ⟨path, e, path, .start⟩ c = .opening data ∧
        editFile e z .plain fs path path = (fs.put path data, .returned ()) := by
    intro e h
    have h : (Process.alone z fs ⟨path, e, path, .start⟩).2 = .returned () := h
    cases hs : fs path with
    | none => rw [Process.alone_none (p := ⟨path, e, path, .start⟩) hs] at h; cases h
    | some c =>
      rcases Process.compute_cases z ⟨path, e, path, .start⟩ c with ⟨how, k⟩ | ⟨data, k⟩
      · rw [Process.alone_ended (p := ⟨path, e, path, .start⟩) hs k] at h
        exfalso
        have h : how = .returned () := h
        subst h
        unfold Process.compute at k
        repeat' split at k
        all_goals cases k
      · exact ⟨c, data, rfl, k, Process.alone_opening (p := ⟨path, e, path, .start⟩) hs k⟩
  obtain ⟨c, d1, s1, k1, -⟩ := key e1 h1
  obtain ⟨c', d2, s2, k2, a2⟩ := key e2 h2
  rw [s1] at s2
  cases s2
  rw [a2]
  have r1 := (Process.Acts.load (z := z) (p := ⟨path, e1, path, .start⟩) s1).runs
    (ps := [⟨path, e1, path, .start⟩, ⟨path, e2, path, .start⟩]) (i := 0) rfl
  rw [k1] at r1
  have r2 := (Process.Acts.load (z := z) (p := ⟨path, e2, path, .start⟩) s1).runs
    (ps := [⟨path, e1, path, .opening d1⟩, ⟨path, e2, path, .start⟩]) (i := 1) rfl
  rw [k2] at r2
  have r3 := (Process.Acts.store (z := z) (fs := fs) (p := ⟨path, e1, path, .start⟩) (data := d1)).runs
    (ps := [⟨path, e1, path, .opening d1⟩, ⟨path, e2, path, .opening d2⟩]) (i := 0) rfl
  have r4 := (Process.Acts.store (z := z) (fs := fs.put path d1) (p := ⟨path, e2, path, .start⟩) (data := d2)).runs
    (ps := [⟨path, e1, path, .ended (.returned ())⟩, ⟨path, e2, path, .opening d2⟩]) (i := 1) rfl
  have e : (fs.put path d1).put path d2 = fs.put path d2 := by
    funext q
    by_cases hq : q = path <;> simp [FileSystem.put, hq]
  have r := ((r1.trans r2).trans r3).trans r4
  rw [← e]
  exact r

theorem overwrite_get (c bs : Bytes) (k i : Nat) : (overwrite c k bs)[i]? =
    if i < k then (if i < c.length then c[i]? else some 0) else if i < k + bs.length then bs[i - k]? else c[i]? := by
  unfold overwrite
  have l1 : (c.take k ++ List.replicate (k - c.length) (0 : UInt8)).length = k := by simp; omega
  have l2 : (c.take k ++ List.replicate (k - c.length) (0 : UInt8) ++ bs).length = k + bs.length := by rw [List.length_append, l1]
  by_cases h1 : i < k
  · rw [if_pos h1, List.append_assoc _ bs, List.getElem?_append_left (by omega)]
    by_cases h2 : i < c.length
    · rw [if_pos h2, List.getElem?_append_left (by simp; omega), List.getElem?_take_of_lt h1]
    · rw [if_neg h2, List.getElem?_append_right (by simp; omega)]
      rw [List.getElem?_replicate, if_pos (by simp; omega)]
  · rw [if_neg h1]
    by_cases h2 : i < k + bs.length
    · rw [if_pos h2, List.getElem?_append_left (by omega), List.getElem?_append_right (by omega), l1]
    · rw [if_neg h2, List.getElem?_append_right (by omega), l2, List.getElem?_drop]
      congr 1; omega

/-- Two programs that save to the same file at the same time: both may end without an exception and leave a file that is neither.  Here the
first one has written the first `k` bytes of `c1` when the second one empties the file, writes all of `c2` and ends; then the first one goes
on behind its position, over what the second one has written, past a gap of zeros if that is less than `k` bytes. -/
theorem C49_two_saves (z : Zlib) (fs : FileSystem) (path : Path) (p1 p2 : Process) (h1 : p1.dst = path) (h2 : p2.dst = path) (c1 c2 : Bytes)
    (k : Nat) (hk : 0 < k) (hk' : k < c1.length) :
    ∃ content, World.Runs z false ⟨fs, [{ p1 with phase := .opening c1 }, { p2 with phase := .opening c2 }]⟩
        ⟨fs.put path content, [{ p1 with phase := .ended (.returned ()) }, { p2 with phase := .ended (.returned ()) }]⟩ ∧
      content.length = max c1.length c2.length ∧
      ∀ i, i < content.length →
        content[i]? = if i < k then (if i < c2.length then c2[i]? else some 0) else if i < c1.length then c1[i]? else c2[i]? := by
  have put2 : ∀ a b : Bytes, (fs.put path a).put path b = fs.put path b := fun a b => by
    funext q
    by_cases hq : q = path <;> simp [FileSystem.put, hq]
  have a1 : p1.Acts z fs (.opening c1) (fs.put path (c1.take k)) (.writing (c1.take k) (c1.drop k)) := by
    have w := Process.Act.write (z := z) (fs := fs.put path []) (p := p1) (done := []) (piece := c1.take k) (rest := c1.drop k) (content := [])
      (fun e => by have := congrArg List.length e; rw [List.length_take, List.length_nil] at this; omega) (by rw [h1]; exact FileSystem.put_self fs path [])
    rw [List.take_append_drop, h1, put2] at w
    have e : overwrite [] (List.length (α := UInt8) []) (c1.take k) = c1.take k := by simp [overwrite]
    rw [e] at w
    refine .step .openWrite ?_
    rw [h1]
    exact .step w (.refl _ _)
  have a2 : p2.Acts z (fs.put path (c1.take k)) (.opening c2) (fs.put path c2) (.ended (.returned ())) := by
    have := Process.Acts.store (z := z) (p := p2) (fs := fs.put path (c1.take k)) (data := c2)
    rwa [h2, put2] at this
  have a3 : p1.Acts z (fs.put path c2) (.writing (c1.take k) (c1.drop k)) (fs.put path (overwrite c2 k (c1.drop k))) (.ended (.returned ())) := by
    have w := Process.Act.write (z := z) (fs := fs.put path c2) (p := p1) (done := c1.take k) (piece := c1.drop k) (rest := []) (content := c2)
      (fun e => by have := congrArg List.length e; rw [List.length_drop, List.length_nil] at this; omega) (by rw [h1]; exact FileSystem.put_self fs path c2)
    rw [List.append_nil, h1, put2, List.take_append_drop] at w
    have e : (c1.take k).length = k := by simp; omega
    rw [e] at w
    exact .step w (.step .close (.refl _ _))
  have r1 := a1.runs (ps := [{ p1 with phase := .opening c1 }, { p2 with phase := .opening c2 }]) (i := 0) rfl
  have r2 := a2.runs (ps := [{ p1 with phase := .writing (c1.take k) (c1.drop k) }, { p2 with phase := .opening c2 }]) (i := 1) rfl
  have r3 := a3.runs (ps := [{ p1 with phase := .writing (c1.take k) (c1.drop k) }, { p2 with phase := .ended (.returned ()) }]) (i := 0) rfl
  refine ⟨overwrite c2 k (c1.drop k), (r1.trans r2).trans r3, ?_, fun i hi => ?_⟩
  · simp [overwrite]; omega
  · rw [overwrite_get, List.length_drop, show k + (c1.length - k) = c1.length from by omega, List.getElem?_drop]
    by_cases h : i < k
    · rw [if_pos h, if_pos h]
    · rw [if_neg h, if_neg h, show k + (i - k) = i from by omega]

/-- Three bytes of the first one, one byte of the second one: a gap of zeros. -/
example : overwrite [7] 3 [4, 5] = [7, 0, 0, 4, 5] ∧ overwrite [7, 8, 9, 10, 11, 12] 3 [4, 5] = [7, 8, 9, 4, 5, 12] := by decide

/-- A load that has begun before a save empties the file may get the beginning of the old and the end of the new content. -/
theorem C49_torn_read (z : Zlib) (fs : FileSystem) (path : Path) (e1 e2 : DatFile → Py DatFile) (dst : Path) (old new : Bytes)
    (hold : fs path = some old) (hnew : editFile e1 z .plain fs path path = (fs.put path new, .returned ())) (k : Nat)
    (hk : k ≤ old.length) (hk' : k ≤ new.length) :
    World.Runs z false ⟨fs, [⟨path, e1, path, .start⟩, ⟨path, e2, dst, .start⟩]⟩
      ⟨fs.put path new, [⟨path, e1, path, .ended (.returned ())⟩, ⟨path, e2, dst, .loaded (old.take k ++ new.drop k)⟩]⟩ := by
  have hc : Process.compute z ⟨path, e1, path, .start⟩ old = .opening new := by
    have h : Process.alone z fs ⟨path, e1, path, .start⟩ = (fs.put path new, .returned ()) := hnew
    rcases Process.compute_cases z ⟨path, e1, path, .start⟩ old with ⟨how, k⟩ | ⟨data, k⟩
    · rw [Process.alone_ended (p := ⟨path, e1, path, .start⟩) hold k] at h
      exfalso
      have h : how = .returned () := (Prod.mk.inj h).2
      subst h
      unfold Process.compute at k
      repeat' split at k
      all_goals cases k
    · rw [Process.alone_opening (p := ⟨path, e1, path, .start⟩) hold k] at h
      have := congrFun (Prod.mk.inj h).1 path
      rw [FileSystem.put_self, FileSystem.put_self] at this
      rw [k, Option.some.inj this]
  have r1 := (Process.Acts.load (z := z) (p := ⟨path, e1, path, .start⟩) hold).runs
    (ps := [⟨path, e1, path, .start⟩, ⟨path, e2, dst, .start⟩]) (i := 0) rfl
  rw [hc] at r1
  have a2 : Process.Acts z ⟨path, e2, dst, .start⟩ fs .start fs (.reading (old.take k)) :=
    .step (.openRead hold) (.readMore (b := []) (rest := old.drop k) hold (by simp))
  have r2 := a2.runs (ps := [⟨path, e1, path, .opening new⟩, ⟨path, e2, dst, .start⟩]) (i := 1) rfl
  have r3 := (Process.Acts.store (z := z) (fs := fs) (p := ⟨path, e1, path, .start⟩) (data := new)).runs
    (ps := [⟨path, e1, path, .opening new⟩, ⟨path, e2, dst, .reading (old.take k)⟩]) (i := 0) rfl
  have hl : (old.take k).length = k := by rw [List.length_take]; omega
  have a4 : Process.Acts z ⟨path, e2, dst, .start⟩ (fs.put path new) (.reading (old.take k)) (fs.put path new)
      (.loaded (old.take k ++ new.drop k)) :=
    (Process.Acts.readMore (rest := []) (FileSystem.put_self _ _ _) (by rw [hl]; simp)).trans
      (.step (.eof (FileSystem.put_self _ _ _) (by simp; omega)) (.refl _ _))
  have r4 := a4.runs (ps := [⟨path, e1, path, .ended (.returned ())⟩, ⟨path, e2, dst, .reading (old.take k)⟩]) (i := 1) rfl
  exact ((r1.trans r2).trans r3).trans r4

/-- A file with two of its numbers changed. -/
def DatFile.withRates (d : DatFile) (slice rate : Int) : DatFile := { d with time_slice := slice, unit_kill_rate := rate }

open Layout in
theorem layout_rates (v : Version) (x : DatFile) : ∃ A B : List Item, ∀ a b, (x.withRates a b).layoutAt v = A ++ (i32 a ++ (i32 b ++ B)) := by
  refine ⟨List.flatten [
    requires (x.float_ptr_terrain_tables.length = x.terrain_pass_graphic_pointers.length) .assertionError,
    requires (x.terrain_pass_graphic_pointers.length = x.terrain_restrictions.length) .assertionError,
    [.fixedText 8 x.version],
    countI16 x.terrain_restrictions,
    x.terrainItems,
    each i32 x.float_ptr_terrain_tables,
    each i32 x.terrain_pass_graphic_pointers,
    each (TerrainRestriction.layout v) x.terrain_restrictions,
    countI16 x.player_colours,
    each (PlayerColour.layout v) x.player_colours,
    countI16 x.sounds,
    each (Sound.layout v) x.sounds,
    countI16 x.graphics,
    pointers x.graphics,
    eachPresent (Graphic.layout v) x.graphics,
    TerrainBlock.layout v x.terrain_block,
    RandomMaps.layout v x.random_maps,
    countI32 x.effects,
    each (Effect.layout v) x.effects,
    countI32 x.unit_headers,
    each (UnitHeaders.layout v) x.unit_headers,
    countI16 x.civs,
    each (Civ.layout v) x.civs,
    countI16 x.techs,
    each (Tech.layout v) x.techs],
    List.flatten [
    i32 x.unit_kill_total,
    i32 x.unit_hit_point_rate,
    i32 x.unit_hit_point_total,
    i32 x.razing_kill_rate,
    i32 x.razing_kill_total,
    TechTree.layout v x.tech_tree], fun a b => ?_⟩
  unfold DatFile.layoutAt DatFile.withRates
  simp only [List.flatten_cons, List.flatten_nil, List.append_assoc, List.append_nil]
  rfl

theorem WFAt.withRates {v : Version} {d : DatFile} (h : DatFile.WFAt v d) {a b : Int} (ha : IsI32 a) (hb : IsI32 b) :
    DatFile.WFAt v (d.withRates a b) :=
  { h with time_slice := ha, unit_kill_rate := hb }

theorem bytes_rates {v : Version} {d : DatFile} (h : DatFile.WFAt v d) : ∃ A B : Bytes, ∀ a b, IsI32 a → IsI32 b →
    DatFile.toBytes (d.withRates a b) = .ok (A ++ ((Item.int 4 true a).bytes ++ ((Item.int 4 true b).bytes ++ B))) := by
  obtain ⟨A, B, hl⟩ := layout_rates v d
  refine ⟨layoutBytes A, layoutBytes B, fun a b ha hb => ?_⟩
  have hw := WFAt.withRates h ha hb
  obtain ⟨bs, hbs, _⟩ := C12_datfile_round_trip_file _ ⟨v, hw⟩
  rw [hbs]
  rw [((DatFile.writesAt (versionNames_spec hw.version).1).ok bs hbs).2, hl a b]
  simp only [layoutBytes, Layout.i32, List.flatMap_append, List.flatMap_cons, List.flatMap_nil, List.append_nil]

theorem toy_compress (P Q : Bytes) : Zlib.toy.compress (P ++ Q) = P.flatMap (fun x => [1, x]) ++ Zlib.toy.compress Q := by
  simp [Zlib.toy]

/-- And what it gets may load without an exception, as a file that never existed: with a time slice of before and a kill rate of after.
(With a compressor that has the laws assumed of zlib; a real one makes this unlikely, not impossible.) -/
theorem C49_torn_read_third (v : Version) (d : DatFile) (hd : DatFile.WFAt v d) (slice slice' rate rate' : Int) (h1 : IsI32 slice)
    (h2 : IsI32 slice') (h3 : IsI32 rate) (h4 : IsI32 rate') (path dst : Path) (edit : DatFile → Py DatFile) :
    ∃ (z : Zlib) (fs : FileSystem) (content got : Bytes), z.Lawful ∧ DatFile.parse z fs path = .returned (d.withRates slice rate) ∧
      World.Runs z false
        ⟨fs, [⟨path, fun _ => .ok (d.withRates slice' rate'), path, .start⟩, ⟨path, edit, dst, .start⟩]⟩
        ⟨fs.put path content, [⟨path, fun _ => .ok (d.withRates slice' rate'), path, .ended (.returned ())⟩,
          ⟨path, edit, dst, .loaded got⟩]⟩ ∧
      (∀ fs', fs' path = some content → DatFile.parse z fs' path = .returned (d.withRates slice' rate')) ∧
      (∀ fs', fs' path = some got → DatFile.parse z fs' path = .returned (d.withRates slice rate')) := by
  obtain ⟨A, B, hb⟩ := bytes_rates hd
  let E : Int → Bytes := fun a => (Item.int 4 true a).bytes
  have hE : ∀ a, (E a).length = 4 := fun a => natLE_len _ _
  let P : Int → Bytes := fun a => A ++ E a
  let Q : Int → Bytes := fun b => E b ++ B
  have hb' : ∀ a b, IsI32 a → IsI32 b → DatFile.toBytes (d.withRates a b) = .ok (P a ++ Q b) := fun a b ha hb2 => by
    rw [hb a b ha hb2]; simp [P, Q, E]
  let fs : FileSystem := fun _ => some (Zlib.toy.compress (P slice ++ Q rate))
  have load : ∀ a b, IsI32 a → IsI32 b → ∀ fs' : FileSystem, fs' path = some (Zlib.toy.compress (P a ++ Q b)) →
      DatFile.parse Zlib.toy fs' path = .returned (d.withRates a b) := by
    intro a b ha hb2 fs' hf
    refine parse_data Zlib.toy _ path _ _ _ hf (by simpa using Zlib.toy_lawful.inverse _ [])
      (ofData_toBytes _ ⟨v, WFAt.withRates hd ha hb2⟩ _ (hb' a b ha hb2))
  have hnew : editFile (fun _ => .ok (d.withRates slice' rate')) Zlib.toy .plain fs path path =
      (fs.put path (Zlib.toy.compress (P slice' ++ Q rate')), .returned ()) := by
    simp only [editFile, load slice rate h1 h3 fs rfl, DatFile.save, hb' slice' rate' h2 h4, writeBytes, Environment.plain, runOps_all]
    rfl
  have hP : ∀ a, ((P a).flatMap (fun x : UInt8 => [(1 : UInt8), x])).length = 2 * (A.length + 4) := fun a => by
    have : ∀ l : Bytes, (l.flatMap (fun x : UInt8 => [(1 : UInt8), x])).length = 2 * l.length := fun l => by
      induction l with
      | nil => rfl
      | cons x xs ih => simp only [List.flatMap_cons, List.length_append, ih, List.length_cons, List.length_nil]; omega
    rw [this]
    simp only [P, List.length_append, hE]
  have torn := C49_torn_read Zlib.toy fs path _ edit dst _ _ rfl hnew (2 * (A.length + 4))
    (by rw [toy_compress, List.length_append, hP]; exact Nat.le_add_right _ _) (by rw [toy_compress, List.length_append, hP]; exact Nat.le_add_right _ _)
  have mix : (Zlib.toy.compress (P slice ++ Q rate)).take (2 * (A.length + 4)) ++
      (Zlib.toy.compress (P slice' ++ Q rate')).drop (2 * (A.length + 4)) = Zlib.toy.compress (P slice ++ Q rate') := by
    rw [toy_compress (P slice) (Q rate), toy_compress (P slice') (Q rate'), toy_compress (P slice) (Q rate'), List.take_left' (hP slice), List.drop_left' (hP slice')]
  rw [mix] at torn
  exact ⟨Zlib.toy, fs, _, _, Zlib.toy_lawful, load slice rate h1 h3 fs rfl, torn, load slice' rate' h2 h4, load slice rate' h1 h4⟩

/-! ## non-vacuity -/

/-- Three independent processes: two of them read the same file, one overwrites its own. -/
example : Independent [⟨"a.dat", changeLoom, "b.dat", .start⟩, ⟨"a.dat", changeKings, "c.dat", .start⟩, ⟨"d.dat", changeLoom, "d.dat", .start⟩] := by
  intro i j p q hij hi hj
  match i, j with
  | 0, 0 => exact absurd rfl hij
  | 1, 1 => exact absurd rfl hij
  | 2, 2 => exact absurd rfl hij
  | 0, 1 => cases hi; cases hj; decide
  | 0, 2 => cases hi; cases hj; decide
  | 1, 0 => cases hi; cases hj; decide
  | 1, 2 => cases hi; cases hj; decide
  | 2, 0 => cases hi; cases hj; decide
  | 2, 1 => cases hi; cases hj; decide
  | (i + 3), _ => cases hi
  | _, (j + 3) => cases hj

/-- A process alone runs to its end; so every independent world of one process does. -/
theorem runs_alone (z : Zlib) (fs : FileSystem) (src dst : Path) (edit : DatFile → Py DatFile) :
    World.Runs z false ⟨fs, [⟨src, edit, dst, .start⟩]⟩
      ⟨(editFile edit z .plain fs src dst).1, [⟨src, edit, dst, .ended (editFile edit z .plain fs src dst).2⟩]⟩ := by
  have ha : Process.Acts z ⟨src, edit, dst, .start⟩ fs .start (Process.alone z fs ⟨src, edit, dst, .start⟩).1
      (.ended (Process.alone z fs ⟨src, edit, dst, .start⟩).2) := by
    cases e : fs src with
    | none =>
      rw [Process.alone_none (p := ⟨src, edit, dst, .start⟩) e]
      exact .step (.missing e) (.refl _ _)
    | some c =>
      have h := Process.Acts.load (z := z) (p := ⟨src, edit, dst, .start⟩) e
      rcases Process.compute_cases z ⟨src, edit, dst, .start⟩ c with ⟨how, k⟩ | ⟨data, k⟩
      · rw [Process.alone_ended (p := ⟨src, edit, dst, .start⟩) e k]
        rw [k] at h
        exact h
      · rw [Process.alone_opening (p := ⟨src, edit, dst, .start⟩) e k]
        rw [k] at h
        exact h.trans .store
  exact ha.runs (ps := [⟨src, edit, dst, .start⟩]) (i := 0) rfl

/-- For every version there is a disk on which the program for Loom runs to its end (C43 says with which result). -/
example (v : Version) (hv : v ≠ .UNDEFINED) : ∃ fs fs', World.Runs Zlib.toy false ⟨fs, [⟨"a.dat", changeLoom, "b.dat", .start⟩]⟩
    ⟨fs', [⟨"a.dat", changeLoom, "b.dat", .ended (.returned ())⟩]⟩ := by
  have hwf := Sample.modFile_wf v hv (some (Sample.archer v)) fun u hu => by cases hu; exact Sample.archer_wf v hv
  obtain ⟨bs, hb, _⟩ := C12_datfile_round_trip_file _ ⟨v, hwf⟩
  let fs : FileSystem := fun _ => some (Zlib.toy.compress bs)
  have hp : DatFile.parse Zlib.toy fs "a.dat" = .returned (Sample.modFile v (some (Sample.archer v))) :=
    parse_data Zlib.toy _ _ _ bs _ rfl (by simpa using Zlib.toy_lawful.inverse bs []) (ofData_toBytes _ ⟨v, hwf⟩ bs hb)
  have := runs_alone Zlib.toy fs "a.dat" "b.dat" changeLoom
  refine ⟨fs, (editFile changeLoom Zlib.toy .plain fs "a.dat" "b.dat").1, ?_⟩
  have e : (editFile changeLoom Zlib.toy .plain fs "a.dat" "b.dat").2 = .returned () := by
    have h22 : 22 < (Sample.modFile v (some (Sample.archer v))).techs.length := (by decide : 22 < (List.replicate 23 Sample.tech).length)
    obtain ⟨d', hd', hw'⟩ : ∃ d', changeLoom (Sample.modFile v (some (Sample.archer v))) = .ok d' ∧ DatFile.WF d' := by
      have := (C43_loom_edit v _ hwf).2 h22
      exact ⟨_, this, C44_readme_keeps_wf.1 _ _ ⟨v, hwf⟩ this⟩
    obtain ⟨bs', hb', _⟩ := C12_datfile_round_trip_file _ hw'
    simp only [editFile, hp, hd', DatFile.save, hb', writeBytes, Environment.plain]
  rwa [e] at this

end Genie
