import Verif.Model.Processes
/-! Every schedule of processes ends: a measure. -/

namespace Genie

def Phase.early : Phase → Nat
  | .start => 1
  | .reading _ => 1
  | .loaded _ => 1
  | _ => 0

def Phase.total : Phase → Nat
  | .opening c => c.length
  | .writing d r => d.length + r.length
  | _ => 0

def Phase.rank (B : Nat) : Phase → Nat
  | .start => B + 5
  | .reading b => (B - b.length) + 3
  | .loaded _ => 2
  | .opening c => c.length + 3
  | .writing _ r => r.length + 1
  | .ended _ => 0

def sizeAt (fs : FileSystem) (q : Path) : Nat := match fs q with
  | none => 0
  | some c => c.length

def sumOf (f : Process → Nat) : List Process → Nat
  | [] => 0
  | p :: ps => f p + sumOf f ps

def maxOf (f : Process → Nat) : List Process → Nat
  | [] => 0
  | p :: ps => max (f p) (maxOf f ps)

theorem le_maxOf {f : Process → Nat} {l : List Process} {i : Nat} {p : Process} (h : l[i]? = some p) : f p ≤ maxOf f l := by
  induction l generalizing i with
  | nil => cases h
  | cons x xs ih =>
    cases i with
    | zero => cases h; exact Nat.le_max_left _ _
    | succ i => exact Nat.le_trans (ih h) (Nat.le_max_right _ _)

theorem maxOf_le {f : Process → Nat} {l : List Process} {B : Nat} (h : ∀ p ∈ l, f p ≤ B) : maxOf f l ≤ B := by
  induction l with
  | nil => exact Nat.zero_le _
  | cons x xs ih => exact Nat.max_le.2 ⟨h x List.mem_cons_self, ih fun p hp => h p (List.mem_cons_of_mem _ hp)⟩

theorem sumOf_set {f g : Process → Nat} {l : List Process} {i : Nat} {p q : Process} (h : l[i]? = some p) (hle : ∀ x, g x ≤ f x) :
    sumOf g (l.set i q) + f p ≤ sumOf f l + g q := by
  have all : ∀ l : List Process, sumOf g l ≤ sumOf f l := fun l => by
    induction l with
    | nil => exact Nat.le_refl _
    | cons x xs ih => exact Nat.add_le_add (hle x) ih
  induction l generalizing i with
  | nil => cases h
  | cons x xs ih =>
    cases i with
    | zero =>
      cases h
      simp only [List.set_cons_zero, sumOf]
      have := all xs
      omega
    | succ i =>
      simp only [List.set_cons_succ, sumOf]
      have := ih (i := i) h
      have := hle x
      omega

def World.size (w : World) : Nat := maxOf (fun p => max (sizeAt w.disk p.src) p.phase.total) w.procs

def World.measure (w : World) : Nat × Nat := (sumOf (fun p => p.phase.early) w.procs, sumOf (fun p => p.phase.rank w.size) w.procs)

theorem Phase.rank_mono {B B' : Nat} (h : B ≤ B') (ph : Phase) : ph.rank B ≤ ph.rank B' := by
  cases ph <;> simp only [Phase.rank] <;> omega

theorem overwrite_len (content : Bytes) (k : Nat) (bs : Bytes) : (overwrite content k bs).length ≤ max content.length (k + bs.length) := by
  simp only [overwrite, List.length_append, List.length_take, List.length_replicate, List.length_drop]
  omega

/-- One step of one process. -/
theorem World.step_lex {w : World} {i : Nat} {p : Process} {fs : FileSystem} {ph : Phase} (hp : w.procs[i]? = some p)
    (he : ph.early ≤ p.phase.early)
    (hk : ph.early = p.phase.early → ph.rank w.size < p.phase.rank w.size ∧ ph.total ≤ w.size ∧ ∀ q, sizeAt fs q ≤ max (sizeAt w.disk q) w.size) :
    Prod.Lex (· < ·) (· < ·) (World.measure ⟨fs, w.procs.set i { p with phase := ph }⟩) w.measure := by
  have h1 := sumOf_set (q := { p with phase := ph }) (f := fun p => p.phase.early) (g := fun p => p.phase.early) hp fun _ => Nat.le_refl _
  dsimp only at h1
  by_cases e : ph.early = p.phase.early
  · obtain ⟨k1, k2, k3⟩ := hk e
    have hb : World.size ⟨fs, w.procs.set i { p with phase := ph }⟩ ≤ w.size := by
      refine maxOf_le fun x hx => ?_
      have src : ∀ y ∈ w.procs, sizeAt w.disk y.src ≤ w.size ∧ y.phase.total ≤ w.size := fun y hy => by
        obtain ⟨j, hj⟩ := List.getElem?_of_mem hy
        have := le_maxOf (f := fun p => max (sizeAt w.disk p.src) p.phase.total) hj
        exact ⟨Nat.le_trans (Nat.le_max_left _ _) this, Nat.le_trans (Nat.le_max_right _ _) this⟩
      rcases List.mem_or_eq_of_mem_set hx with h | rfl
      · exact Nat.max_le.2 ⟨Nat.le_trans (k3 _) (Nat.max_le.2 ⟨(src x h).1, Nat.le_refl _⟩), (src x h).2⟩
      · exact Nat.max_le.2 ⟨Nat.le_trans (k3 _) (Nat.max_le.2 ⟨(src p (List.mem_of_getElem? hp)).1, Nat.le_refl _⟩), k2⟩
    have h2 := sumOf_set (q := { p with phase := ph }) (f := fun p => p.phase.rank w.size)
      (g := fun y => y.phase.rank (World.size ⟨fs, w.procs.set i { p with phase := ph }⟩)) hp fun x => Phase.rank_mono hb _
    dsimp only at h2
    have h3 := Phase.rank_mono hb ph
    have h4 : sumOf (fun p => p.phase.early) (w.procs.set i { p with phase := ph }) ≤ sumOf (fun p => p.phase.early) w.procs := by omega
    rcases Nat.lt_or_eq_of_le h4 with h | h
    · exact .left _ _ h
    · unfold World.measure
      dsimp only
      rw [h]
      exact .right _ (by omega)
  · exact .left _ _ (by dsimp only; omega)

theorem World.step_measure {z : Zlib} {w w' : World} (h : World.Step z true w w') : Prod.Lex (· < ·) (· < ·) w'.measure w.measure := by
  have src : ∀ (i : Nat) (y : Process), w.procs[i]? = some y → sizeAt w.disk y.src ≤ w.size ∧ y.phase.total ≤ w.size := fun j y hj => by
    have := le_maxOf (f := fun p => max (sizeAt w.disk p.src) p.phase.total) hj
    exact ⟨Nat.le_trans (Nat.le_max_left _ _) this, Nat.le_trans (Nat.le_max_right _ _) this⟩
  have same : ∀ q, sizeAt w.disk q ≤ max (sizeAt w.disk q) w.size := fun q => Nat.le_max_left _ _
  cases h with
  | @act i p fs ph hp ha =>
    have hs := src i p hp
    generalize e0 : p.phase = ph0 at ha
    rw [e0] at hs
    cases ha with
    | openRead _ =>
      exact World.step_lex hp (by rw [e0]; exact Nat.le_refl _) fun _ => ⟨by rw [e0]; simp only [Phase.rank, List.length_nil]; omega, Nat.zero_le _, same⟩
    | missing _ =>
      exact World.step_lex hp (Nat.zero_le _) fun h => by rw [e0] at h; cases h
    | @read b c piece rest h1 h2 h3 =>
      refine World.step_lex hp (by rw [e0]; exact Nat.le_refl _) fun _ => ⟨?_, Nat.zero_le _, same⟩
      rw [e0]
      have l1 : sizeAt w.disk p.src = c.length := by unfold sizeAt; rw [h1]
      have l2 := congrArg List.length h2
      rw [List.length_drop, List.length_append] at l2
      have l3 := List.length_pos_iff.2 h3
      simp only [Phase.rank, List.length_append]
      have := hs.1
      omega
    | eof _ _ =>
      exact World.step_lex hp (by rw [e0]; exact Nat.le_refl _) fun _ => ⟨by rw [e0]; simp only [Phase.rank]; omega, Nat.zero_le _, same⟩
    | @compute c =>
      have : (p.compute z c).early = 0 := by
        unfold Process.compute
        repeat' split
        all_goals rfl
      exact World.step_lex hp (by rw [this]; exact Nat.zero_le _) fun h => by rw [this, e0] at h; cases h
    | @openWrite c =>
      refine World.step_lex hp (by rw [e0]; exact Nat.le_refl _) fun _ => ⟨by rw [e0]; simp only [Phase.rank]; omega, ?_, fun q => ?_⟩
      · have := hs.2
        simpa [Phase.total] using this
      · by_cases hq : q = p.dst
        · simp [sizeAt, FileSystem.put, hq]
        · have : sizeAt (w.disk.put p.dst []) q = sizeAt w.disk q := by unfold sizeAt FileSystem.put; rw [if_neg hq]
          rw [this]; exact same q
    | @write d piece rest c h1 h2 =>
      have l3 := List.length_pos_iff.2 h1
      refine World.step_lex hp (by rw [e0]; exact Nat.le_refl _) fun _ => ⟨?_, ?_, fun q => ?_⟩
      · rw [e0]; simp only [Phase.rank, List.length_append]; omega
      · have := hs.2
        simp only [Phase.total, List.length_append] at this ⊢
        omega
      · by_cases hq : q = p.dst
        · subst hq
          have e1 : sizeAt (w.disk.put p.dst (overwrite c d.length piece)) p.dst = (overwrite c d.length piece).length := by
            unfold sizeAt FileSystem.put; rw [if_pos rfl]
          have e2 : sizeAt w.disk p.dst = c.length := by unfold sizeAt; rw [h2]
          rw [e1, e2]
          have := overwrite_len c d.length piece
          have := hs.2
          simp only [Phase.total, List.length_append] at this
          omega
        · have : sizeAt (w.disk.put p.dst (overwrite c d.length piece)) q = sizeAt w.disk q := by unfold sizeAt FileSystem.put; rw [if_neg hq]
          rw [this]; exact same q
    | close =>
      exact World.step_lex hp (by rw [e0]; exact Nat.le_refl _) fun _ => ⟨by rw [e0]; simp [Phase.rank], Nat.zero_le _, same⟩
  | @fault i p ph hf hp ha =>
    have pos : ∀ ph : Phase, (∀ how, ph ≠ .ended how) → 0 < ph.rank w.size := fun ph h => by
      cases ph <;> simp only [Phase.rank] <;> first | omega | exact absurd rfl (h _)
    generalize e0 : p.phase = ph0 at ha
    cases ha with
    | killed h => exact World.step_lex hp (Nat.zero_le _) fun _ => ⟨by rw [e0]; exact pos _ h, Nat.zero_le _, same⟩
    | error h _ => exact World.step_lex hp (Nat.zero_le _) fun _ => ⟨by rw [e0]; exact pos _ h, Nat.zero_le _, same⟩

theorem World.step_wf (z : Zlib) : WellFounded fun w' w => World.Step z true w w' :=
  Subrelation.wf (fun h => World.step_measure h) (InvImage.wf World.measure (Prod.lex ⟨_, Nat.lt_wfRel.wf⟩ ⟨_, Nat.lt_wfRel.wf⟩).wf)

end Genie
