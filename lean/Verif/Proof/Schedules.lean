import Verif.Spec.Schedules
import Verif.Props.C24_C26_Files
/-! # Lemmas for C49: invariants of processes that share a disk -/

namespace Genie

/-- What holds of a process that started on the disk `fs0`, in phase `ph` on the disk `fs`. -/
def PInv (z : Zlib) (fs0 : FileSystem) (p : Process) (faults : Bool) (fs : FileSystem) : Phase → Prop
  | .start => fs p.dst = fs0 p.dst
  | .reading b => fs p.dst = fs0 p.dst ∧ ∃ c, fs0 p.src = some c ∧ b <+: c
  | .loaded c => fs p.dst = fs0 p.dst ∧ fs0 p.src = some c
  | .opening data => fs p.dst = fs0 p.dst ∧ ∃ c, fs0 p.src = some c ∧ p.compute z c = .opening data
  | .writing done rest => fs p.dst = some done ∧ ∃ c, fs0 p.src = some c ∧ p.compute z c = .opening (done ++ rest)
  | .ended how =>
    (fs0 p.src = none ∧ how = .raised .osError ∧ fs p.dst = fs0 p.dst) ∨
    (∃ c, fs0 p.src = some c ∧ p.compute z c = .ended how ∧ fs p.dst = fs0 p.dst) ∨
    (∃ c data, fs0 p.src = some c ∧ p.compute z c = .opening data ∧ how = .returned () ∧ fs p.dst = some data) ∨
    (faults = true ∧ (how = .crashed ∨ how = .raised .osError) ∧ (fs p.dst = fs0 p.dst ∨
      ∃ c data part, fs0 p.src = some c ∧ p.compute z c = .opening data ∧ part <+: data ∧ fs p.dst = some part))

/-- What holds of all of them. -/
structure WInv (z : Zlib) (faults : Bool) (w0 w : World) : Prop where
  length : w.procs.length = w0.procs.length
  each : ∀ (i : Nat) (p : Process), w0.procs[i]? = some p → ∃ ph, w.procs[i]? = some { p with phase := ph } ∧ PInv z w0.disk p faults w.disk ph
  others : ∀ q : Path, (∀ p ∈ w0.procs, p.dst ≠ q) → w.disk q = w0.disk q

theorem PInv.congr {z : Zlib} {fs0 fs fs' : FileSystem} {p : Process} {faults : Bool} {ph : Phase} (h : fs' p.dst = fs p.dst) :
    PInv z fs0 p faults fs ph → PInv z fs0 p faults fs' ph := by
  cases ph <;> simp only [PInv, h] <;> exact id

theorem FileSystem.put_self (fs : FileSystem) (p : Path) (c : Bytes) : fs.put p c p = some c := by simp [FileSystem.put]
theorem FileSystem.put_other (fs : FileSystem) {p q : Path} (c : Bytes) (h : q ≠ p) : fs.put p c q = fs q := by simp [FileSystem.put, h]

theorem overwrite_end (done piece : Bytes) : overwrite done done.length piece = done ++ piece := by
  unfold overwrite
  rw [List.drop_eq_nil_of_le (by omega)]
  simp

theorem Process.compute_cases (z : Zlib) (p : Process) (c : Bytes) :
    (∃ how, p.compute z c = .ended how) ∨ ∃ data, p.compute z c = .opening data := by
  unfold Process.compute
  repeat' split
  all_goals first | exact .inl ⟨_, rfl⟩ | exact .inr ⟨_, rfl⟩

theorem Process.compute_phase (z : Zlib) (p : Process) (ph : Phase) (c : Bytes) :
    Process.compute z { p with phase := ph } c = p.compute z c := rfl

/-- The step of one process keeps what holds of it. -/
theorem PInv.act {z : Zlib} {fs0 fs fs' : FileSystem} {p : Process} {faults : Bool} {ph ph' : Phase} (ha : p.Act z fs ph fs' ph')
    (hsrc : fs p.dst = fs0 p.dst → fs p.src = fs0 p.src) (h : PInv z fs0 p faults fs ph) :
    PInv z fs0 p faults fs' ph' ∧ ∀ q, q ≠ p.dst → fs' q = fs q := by
  cases ha with
  | openRead hs =>
    refine ⟨⟨h, ?_⟩, fun _ _ => rfl⟩
    rw [hsrc h] at hs
    exact ⟨_, hs, List.nil_prefix⟩
  | missing hs =>
    rw [hsrc h] at hs
    exact ⟨.inl ⟨hs, rfl, h⟩, fun _ _ => rfl⟩
  | @read b c piece rest hs hd hne =>
    obtain ⟨h1, c', h2, h3⟩ := h
    rw [hsrc h1, h2] at hs
    cases hs
    refine ⟨⟨h1, _, h2, ?_⟩, fun _ _ => rfl⟩
    obtain ⟨t, rfl⟩ := h3
    rw [List.drop_left] at hd
    rw [hd]
    exact ⟨rest, by simp⟩
  | @eof b c hs hl =>
    obtain ⟨h1, c', h2, h3⟩ := h
    rw [hsrc h1, h2] at hs
    cases hs
    refine ⟨⟨h1, ?_⟩, fun _ _ => rfl⟩
    rw [h2, h3.eq_of_length_le hl]
  | @compute c =>
    obtain ⟨h1, h2⟩ := h
    refine ⟨?_, fun _ _ => rfl⟩
    rcases p.compute_cases z c with ⟨how, e⟩ | ⟨data, e⟩
    · rw [e]; exact .inr (.inl ⟨c, h2, e, h1⟩)
    · rw [e]; exact ⟨h1, c, h2, e⟩
  | @openWrite data =>
    obtain ⟨h1, h2⟩ := h
    exact ⟨⟨FileSystem.put_self _ _ _, h2⟩, fun q hq => FileSystem.put_other _ _ hq⟩
  | @write done piece rest c hne hc =>
    obtain ⟨h1, c', h2, h3⟩ := h
    rw [h1] at hc
    cases hc
    refine ⟨⟨?_, c', h2, by rw [h3, List.append_assoc]⟩, fun q hq => FileSystem.put_other _ _ hq⟩
    rw [FileSystem.put_self, overwrite_end]
  | @close done =>
    obtain ⟨h1, c', h2, h3⟩ := h
    rw [List.append_nil] at h3
    exact ⟨.inr (.inr (.inl ⟨c', done, h2, h3, rfl, h1⟩)), fun _ _ => rfl⟩

theorem PInv.fault {z : Zlib} {fs0 fs : FileSystem} {p : Process} {ph ph' : Phase} (ha : Process.Fault ph ph')
    (h : PInv z fs0 p true fs ph) : PInv z fs0 p true fs ph' := by
  have key : ∀ how, (how = .crashed ∨ how = .raised .osError) → (∀ how, ph ≠ .ended how) → PInv z fs0 p true fs (.ended how) := by
    intro how hh hn
    refine .inr (.inr (.inr ⟨rfl, hh, ?_⟩))
    cases ph with
    | start => exact .inl h
    | reading b => exact .inl h.1
    | loaded c => exact .inl h.1
    | opening data => exact .inl h.1
    | writing done rest =>
      obtain ⟨h1, c, h2, h3⟩ := h
      exact .inr ⟨c, _, done, h2, h3, List.prefix_append _ _, h1⟩
    | ended how => exact absurd rfl (hn how)
  cases ha with
  | killed hn => exact key _ (.inl rfl) hn
  | error hn _ => exact key _ (.inr rfl) hn

theorem WInv.init (z : Zlib) (faults : Bool) (w : World) (hs : ∀ p ∈ w.procs, p.phase = .start) : WInv z faults w w where
  length := rfl
  each i p h := ⟨p.phase, h, by rw [hs p (List.mem_of_getElem? h)]; exact rfl⟩
  others _ _ := rfl

theorem Independent.mem {ps : List Process} (hi : Independent ps) {i : Nat} {p q : Process} (hp : ps[i]? = some p) (hq : q ∈ ps)
    (h : q.dst = p.src ∨ q.dst = p.dst) : ps[i]? = some q := by
  obtain ⟨j, hj⟩ := List.getElem?_of_mem hq
  by_cases e : i = j
  · rw [e]; exact hj
  · have := hi j i q p (fun e' => e e'.symm) hj hp
    rcases h with h | h
    · exact absurd h this.1
    · exact absurd h this.2

theorem WInv.set {z : Zlib} {faults : Bool} {w0 w : World} (hi : Independent w0.procs) (h : WInv z faults w0 w) {i : Nat} {p : Process}
    {fs : FileSystem} {ph : Phase} (hp : w0.procs[i]? = some p) (hph : PInv z w0.disk p faults fs ph) (hfs : ∀ q, q ≠ p.dst → fs q = w.disk q) :
    WInv z faults w0 ⟨fs, w.procs.set i { p with phase := ph }⟩ where
  length := by simp [h.length]
  each j q hq := by
    by_cases e : j = i
    · subst e
      rw [hp] at hq
      cases hq
      obtain ⟨ph', h1, h2⟩ := h.each j p hp
      refine ⟨ph, ?_, hph⟩
      have := (List.getElem?_eq_some_iff.1 h1).1
      simp [this]
    · obtain ⟨ph', h1, h2⟩ := h.each j q hq
      refine ⟨ph', ?_, h2.congr (hfs _ (hi j i q p e hq hp).2)⟩
      rw [List.getElem?_set_ne (fun e' => e e'.symm)]
      exact h1
  others q hq := by
    have := hq p (List.mem_of_getElem? hp)
    show fs q = _
    rw [hfs q (fun e => this e.symm), h.others q hq]

theorem WInv.get {z : Zlib} {faults : Bool} {w0 w : World} (h : WInv z faults w0 w) {i : Nat} {p' : Process} (hp : w.procs[i]? = some p') :
    ∃ p ph, w0.procs[i]? = some p ∧ p' = { p with phase := ph } ∧ PInv z w0.disk p faults w.disk ph := by
  have hl := (List.getElem?_eq_some_iff.1 hp).1
  rw [h.length] at hl
  obtain ⟨ph, h1, h2⟩ := h.each i _ (List.getElem?_eq_getElem hl)
  rw [hp] at h1
  exact ⟨_, ph, List.getElem?_eq_getElem hl, Option.some.inj h1, h2⟩

theorem WInv.step {z : Zlib} {faults : Bool} {w0 w w' : World} (hi : Independent w0.procs) (h : WInv z faults w0 w)
    (hs : World.Step z faults w w') : WInv z faults w0 w' := by
  cases hs with
  | @act i p' fs ph hp ha =>
    obtain ⟨p, ph0, hp0, rfl, hinv⟩ := h.get hp
    have ha' : p.Act z w.disk ph0 fs ph := by
      generalize e : Process.mk p.src p.edit p.dst ph0 = p' at ha
      have e1 : ph0 = p'.phase := by rw [← e]
      subst e
      cases ha with
      | openRead a => exact .openRead a
      | missing a => exact .missing a
      | read a b c => exact .read a b c
      | eof a b => exact .eof a b
      | compute => exact .compute
      | openWrite => exact .openWrite
      | write a b => exact .write a b
      | close => exact .close
    have hsrc : w.disk p.dst = w0.disk p.dst → w.disk p.src = w0.disk p.src := by
      intro hd
      by_cases hq : ∀ q ∈ w0.procs, q.dst ≠ p.src
      · exact h.others _ hq
      · simp only [Classical.not_forall] at hq
        obtain ⟨q, hq, hne⟩ := hq
        have hne' : q.dst = p.src := Classical.not_not.1 hne
        have := hi.mem hp0 hq (.inl hne')
        rw [hp0] at this
        cases this
        rw [← hne', hd]
    obtain ⟨h1, h2⟩ := hinv.act ha' hsrc
    exact h.set (p := p) hi hp0 h1 h2
  | @fault i p' ph hf hp ha =>
    obtain ⟨p, ph0, hp0, rfl, hinv⟩ := h.get hp
    subst hf
    exact h.set (p := p) hi hp0 (hinv.fault ha) fun _ _ => rfl

theorem WInv.runs {z : Zlib} {faults : Bool} {w0 w w' : World} (hi : Independent w0.procs) (hr : World.Runs z faults w w') :
    WInv z faults w0 w → WInv z faults w0 w' := by
  induction hr with
  | refl => exact id
  | step s _ ih => exact fun h => ih (h.step hi s)

/-! ## the program of a process alone -/

theorem Process.alone_none {z : Zlib} {fs : FileSystem} {p : Process} (h : fs p.src = none) : p.alone z fs = (fs, .raised .osError) := by
  simp only [Process.alone, editFile, DatFile.parse, h]

theorem Process.alone_ended {z : Zlib} {fs : FileSystem} {p : Process} {c : Bytes} {how : Outcome PUnit} (h : fs p.src = some c)
    (hc : p.compute z c = .ended how) : p.alone z fs = (fs, how) := by
  simp only [Process.alone, editFile, DatFile.parse, h]
  unfold Process.compute at hc
  cases e1 : z.decompress c with
  | none => rw [e1] at hc; cases hc; rfl
  | some data =>
    rw [e1] at hc
    dsimp only at hc ⊢
    cases e2 : DatFile.ofData data with
    | error e => rw [e2] at hc; cases hc; rfl
    | ok d =>
      rw [e2] at hc
      dsimp only at hc ⊢
      cases e3 : p.edit d with
      | error e => rw [e3] at hc; cases hc; rfl
      | ok d' =>
        rw [e3] at hc
        dsimp only at hc ⊢
        cases e4 : DatFile.toBytes d' with
        | error e => rw [e4] at hc; cases hc; simp only [DatFile.save, e4]
        | ok bs => rw [e4] at hc; cases hc

theorem Process.alone_opening {z : Zlib} {fs : FileSystem} {p : Process} {c data : Bytes} (h : fs p.src = some c)
    (hc : p.compute z c = .opening data) : p.alone z fs = (fs.put p.dst data, .returned ()) := by
  simp only [Process.alone, editFile, DatFile.parse, h]
  unfold Process.compute at hc
  cases e1 : z.decompress c with
  | none => rw [e1] at hc; cases hc
  | some dat =>
    rw [e1] at hc
    dsimp only at hc ⊢
    cases e2 : DatFile.ofData dat with
    | error e => rw [e2] at hc; cases hc
    | ok d =>
      rw [e2] at hc
      dsimp only at hc ⊢
      cases e3 : p.edit d with
      | error e => rw [e3] at hc; cases hc
      | ok d' =>
        rw [e3] at hc
        dsimp only at hc ⊢
        cases e4 : DatFile.toBytes d' with
        | error e => rw [e4] at hc; cases hc
        | ok bs =>
          rw [e4] at hc
          cases hc
          simp only [DatFile.save, e4, writeBytes, Environment.plain, runOps_all]
          rfl

end Genie
