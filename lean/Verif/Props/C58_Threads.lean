import Verif.Spec.Threads
import Verif.Proof.Heap.ScriptSim
import Verif.Props.C56_Scripts
import Verif.Props.C57_TypedScripts
/-!
# C58: threads

Scripts that run as threads of one process, share no objects, and take turns in any way.
-/

namespace Genie

open ObjTree

/-- What others do with other objects does not matter. -/
theorem Holds.frame {H H' : Heap} {names : List HVal} {F : Forest} {roots : List HVal} {fp : List Nat} (h : Holds ⟨H, names⟩ F roots fp)
    (hs : ∀ a ∈ fp, H'[a]? = H[a]?) : Holds ⟨H', names⟩ F roots fp := by
  obtain ⟨h1, h2, h3, h4⟩ := h
  refine ⟨h1.frame hs, ?_, h3, ?_⟩
  · intro a ha
    by_cases m : a ∈ fp
    · refine h2 a ?_
      have e := hs a m
      have ha : Heap.Mutable H' a := ha
      show Heap.Mutable H a
      unfold Heap.Mutable at ha ⊢
      rwa [e] at ha
    · rw [List.count_eq_zero_of_not_mem m]
      exact Nat.zero_le _
  · intro k r p e
    obtain ⟨root, a, k1, k2, k3⟩ := h4 k r p e
    refine ⟨root, a, k1, k2, ?_⟩
    obtain ⟨u, f, k4, k5⟩ := h1.item k1
    have : Heap.follow H' root p = Heap.follow H root p := follow_frame k4 (fun b m => hs b (k5.subset m)) p
    show Heap.follow H' root p = _
    rw [this]
    exact k3

theorem Together.step_sim (P : Script σ α) (z : Zlib) (env : Environment) (depth k : Nat) {T : Together σ} {A : OwnTrees σ} (h : ThreadsHold T A)
    {out : Live (OwnTrees σ)} (hm : A.step P z env depth k = some out) : (T.step P z env depth k).Hold out := by
  obtain ⟨hd, hl, fps, hh, hdis⟩ := h
  unfold OwnTrees.step at hm
  unfold Together.step
  cases e : A.threads[k]? with
  | none =>
    rw [e] at hm
    cases hm
    have : T.threads[k]? = Option.none := by
      rw [List.getElem?_eq_none_iff] at e ⊢
      omega
    rw [this]
    exact ⟨hd, hl, fps, hh, hdis⟩
  | some x =>
    obtain ⟨st, F⟩ := x
    rw [e] at hm
    obtain ⟨names, roots, h1, h2⟩ := hh k st F e
    rw [h1]
    dsimp only at hm ⊢
    cases e1 : P st with
    | stop r =>
      rw [e1] at hm
      cases hm
      exact ⟨hd, hl, fps, hh, hdis⟩
    | call a next =>
      rw [e1] at hm
      dsimp only at hm ⊢
      cases e2 : a.onForest z env depth ⟨A.disk, F⟩ with
      | none => rw [e2] at hm; cases hm
      | some y =>
        obtain ⟨r, S'⟩ := y
        rw [e2] at hm
        obtain ⟨W', roots', fp', k1, k2, k3, _⟩ := Action.sim z env depth h2 a e2
        rw [hd, k1]
        have hk : k < A.threads.length := (List.getElem?_eq_some_iff.1 e).1
        have after : ∀ st', ThreadsHold (σ := σ) ⟨S'.disk, W'.heap, T.threads.set k (st', W'.names)⟩ ⟨S'.disk, A.threads.set k (st', S'.memory)⟩ := by
          intro st'
          refine ⟨rfl, by simp [hl], fun i => if i = k then fp' else fps i, ?_, ?_⟩
          · intro i st1 F1 e3
            dsimp only at e3 ⊢
            by_cases hi : i = k
            · subst hi
              rw [List.getElem?_set_self hk] at e3
              cases e3
              refine ⟨W'.names, roots', List.getElem?_set_self (by omega), ?_⟩
              rw [if_pos rfl]
              exact k2
            · rw [List.getElem?_set_ne (Ne.symm hi)] at e3
              obtain ⟨n1, r1, h3, h4⟩ := hh i st1 F1 e3
              refine ⟨n1, r1, by rw [List.getElem?_set_ne (Ne.symm hi)]; exact h3, ?_⟩
              rw [if_neg hi]
              refine h4.frame fun b m => ?_
              refine k3.same b (h4.1.bound b m) fun m' => ?_
              exact hdis i k (List.getElem?_eq_some_iff.1 e3).1 hk hi b m m'
          · intro i j hi hj ne b m m'
            dsimp only at hi hj m m'
            rw [List.length_set] at hi hj
            have old : ∀ i, i < A.threads.length → ∀ b ∈ fps i, b < T.heap.length := by
              intro i hi b m
              obtain ⟨n1, r1, _, h4⟩ := hh i _ _ (List.getElem?_eq_getElem hi)
              exact h4.1.bound b m
            by_cases hik : i = k
            · subst hik
              have hji : j ≠ i := Ne.symm ne
              rw [if_pos rfl] at m
              rw [if_neg hji] at m'
              rcases k3.sub b m with q | q
              · exact hdis i j hi hj ne b q m'
              · have := old j hj b m'
                have q : T.heap.length ≤ b := q
                omega
            · rw [if_neg hik] at m
              by_cases hjk : j = k
              · subst hjk
                rw [if_pos rfl] at m'
                rcases k3.sub b m' with q | q
                · exact hdis i j hi hj ne b m q
                · have := old i hi b m
                  have q : T.heap.length ≤ b := q
                  omega
              · rw [if_neg hjk] at m'
                exact hdis i j hi hj ne b m m'
        cases r with
        | returned v => cases hm; exact after _
        | raised x => cases hm; exact after _
        | crashed => cases hm; rfl

/-- Threads that share no objects do, in one memory, what they do with trees of their own: at any moment, in any order, whatever happens to the
files. -/
theorem C58_threads (P : Script σ α) (z : Zlib) (env : Nat → Environment) (depth : Nat) (schedule : Nat → Nat) (T : Together σ) (A : OwnTrees σ)
    (h : ThreadsHold T A) (n : Nat) (out : Live (OwnTrees σ)) (hm : A.run P z env depth schedule n = some out) :
    (T.run P z env depth schedule n).Hold out := by
  induction n generalizing out with
  | zero => cases hm; exact h
  | succ n ih =>
    unfold OwnTrees.run at hm
    unfold Together.run
    cases e : A.run P z env depth schedule n with
    | none => rw [e] at hm; cases hm
    | some mid =>
      rw [e] at hm
      have := ih mid e
      cases e1 : T.run P z env depth schedule n with
      | crashed disk =>
        rw [e1] at this
        cases mid with
        | running A' => exact this.elim
        | crashed disk' => cases hm; exact this
      | running T' =>
        rw [e1] at this
        cases mid with
        | running A' => exact Together.step_sim P z (env n) depth (schedule n) this hm
        | crashed disk' => exact this.elim

/-! ## threads with files of their own -/

/-- Writing a file is a matter of that file. -/
theorem runOps_local {p : Path} : ∀ (ops : List FsOp), (∀ o ∈ ops, o = .openTruncate p ∨ ∃ bs, o = .append p bs) → ∀ (D1 D2 : FileSystem),
    (D1 p = D2 p → runOps D1 ops p = runOps D2 ops p) ∧ ∀ q, q ≠ p → runOps D1 ops q = D1 q
  | [], _, _, _ => ⟨id, fun _ _ => rfl⟩
  | o :: ops, h, D1, D2 => by
    obtain ⟨h1, h2⟩ := runOps_local ops (fun o' m => h o' (List.mem_cons_of_mem _ m)) (o.run D1) (o.run D2)
    refine ⟨fun e => h1 ?_, fun q hq => ?_⟩
    · rcases h o (List.mem_cons_self ..) with rfl | ⟨bs, rfl⟩
      · simp [FsOp.run]
      · simp [FsOp.run, e]
    · have := h2 q hq
      show runOps (o.run D1) ops q = D1 q
      rw [this]
      rcases h o (List.mem_cons_self ..) with rfl | ⟨bs, rfl⟩ <;> simp [FsOp.run, hq]

theorem writeOps_path (env : Environment) (p : Path) (bs : Bytes) : ∀ o ∈ writeOps env p bs, o = .openTruncate p ∨ ∃ bs, o = .append p bs := by
  intro o m
  unfold writeOps at m
  rcases List.mem_cons.1 m with rfl | m
  · exact .inl rfl
  · obtain ⟨b, _, rfl⟩ := List.mem_map.1 m
    exact .inr ⟨b, rfl⟩

theorem writeBytes_local (env : Environment) (p : Path) (bs : Bytes) (D1 D2 : FileSystem) :
    (writeBytes env D1 p bs).2 = (writeBytes env D2 p bs).2 ∧ (D1 p = D2 p → (writeBytes env D1 p bs).1 p = (writeBytes env D2 p bs).1 p) ∧
      ∀ q, q ≠ p → (writeBytes env D1 p bs).1 q = D1 q := by
  unfold writeBytes
  cases env.fault with
  | none => exact ⟨rfl, runOps_local _ (writeOps_path env p bs) D1 D2⟩
  | some x =>
    obtain ⟨k, c⟩ := x
    exact ⟨rfl, runOps_local _ (fun o m => writeOps_path env p bs o (List.mem_of_mem_take m)) D1 D2⟩

/-- What an action means depends on the files it is about, and changes no other. -/
theorem Action.onForest_local (z : Zlib) (env : Environment) (depth : Nat) {own : Path → Prop} {a : Action} (hp : ∀ p, a.path = some p → own p)
    {D1 D2 : FileSystem} (hag : ∀ q, own q → D1 q = D2 q) {F : Forest} {r : Outcome Seen} {S1 : Situation Forest}
    (h : a.onForest z env depth ⟨D1, F⟩ = some (r, S1)) :
    ∃ D2', a.onForest z env depth ⟨D2, F⟩ = some (r, ⟨D2', S1.memory⟩) ∧ (∀ q, own q → S1.disk q = D2' q) ∧ ∀ q, ¬ own q → D2' q = D2 q := by
  cases a with
  | op o =>
    unfold Action.onForest at h ⊢
    dsimp only at h ⊢
    cases e : o.onForest depth F with
    | none => rw [e] at h; cases h
    | some x =>
      obtain ⟨x, F'⟩ := x
      rw [e] at h
      cases x with
      | ok v => cases h; exact ⟨D2, rfl, hag, fun _ _ => rfl⟩
      | error v => cases h; exact ⟨D2, rfl, hag, fun _ _ => rfl⟩
  | parse p =>
    have e : DatFile.parse z D2 p = DatFile.parse z D1 p := by unfold DatFile.parse; rw [hag p (hp p rfl)]
    unfold Action.onForest at h ⊢
    dsimp only at h ⊢
    rw [e]
    cases e1 : DatFile.parse z D1 p with
    | returned d => rw [e1] at h; cases h; exact ⟨D2, rfl, hag, fun _ _ => rfl⟩
    | raised d => rw [e1] at h; cases h; exact ⟨D2, rfl, hag, fun _ _ => rfl⟩
    | crashed => rw [e1] at h; cases h; exact ⟨D2, rfl, hag, fun _ _ => rfl⟩
  | save o p =>
    have other : (∃ e, r = .raised e ∧ S1 = ⟨D1, F⟩ ∧ Action.onForest z env depth ⟨D2, F⟩ (.save o p) = some (.raised e, ⟨D2, F⟩)) →
        ∃ D2', Action.onForest z env depth ⟨D2, F⟩ (.save o p) = some (r, ⟨D2', S1.memory⟩) ∧ (∀ q, own q → S1.disk q = D2' q) ∧
          ∀ q, ¬ own q → D2' q = D2 q := by
      rintro ⟨e, rfl, rfl, h'⟩
      exact ⟨D2, h', hag, fun _ _ => rfl⟩
    unfold Action.onForest at h ⊢ other
    dsimp only at h ⊢ other
    cases e : F.value o with
    | obj cls ts =>
      rw [e] at h other
      dsimp only at h ⊢ other
      by_cases hc : cls = lit "DatFile"
      · rw [if_pos hc] at h ⊢
        rw [if_pos hc] at other
        cases e1 : ObjTree.written depth (.obj cls ts) with
        | error x =>
          rw [e1] at h other
          cases h
          exact other ⟨x, rfl, rfl, rfl⟩
        | ok bs =>
          rw [e1] at h
          dsimp only at h ⊢
          obtain ⟨w1, w2, w3⟩ := writeBytes_local env p (z.compress bs) D1 D2
          obtain ⟨_, _, w4⟩ := writeBytes_local env p (z.compress bs) D2 D1
          cases e2 : writeBytes env D1 p (z.compress bs) with
          | mk d1 x1 =>
            cases e3 : writeBytes env D2 p (z.compress bs) with
            | mk d2 x2 =>
              rw [e2, e3] at w1 w2
              rw [e2] at w3 h
              rw [e3] at w4
              dsimp only at w1 w2 w3 w4
              subst w1
              have fin : (∀ q, own q → d1 q = d2 q) ∧ ∀ q, ¬ own q → d2 q = D2 q := by
                refine ⟨fun q hq => ?_, fun q hq => w4 q fun e => hq (e ▸ hp p rfl)⟩
                by_cases e : q = p
                · rw [e]; exact w2 (hag p (hp p rfl))
                · rw [w3 q e, w4 q e]; exact hag q hq
              cases x1 with
              | returned v => cases h; exact ⟨d2, rfl, fin⟩
              | raised v => cases h; exact ⟨d2, rfl, fin⟩
              | crashed => cases h; exact ⟨d2, rfl, fin⟩
      · rw [if_neg hc] at h other ⊢
        cases h
        exact other ⟨_, rfl, rfl, rfl⟩
    | none => rw [e] at h other; cases h; exact other ⟨_, rfl, rfl, rfl⟩
    | int i => rw [e] at h other; cases h; exact other ⟨_, rfl, rfl, rfl⟩
    | float i => rw [e] at h other; cases h; exact other ⟨_, rfl, rfl, rfl⟩
    | str i => rw [e] at h other; cases h; exact other ⟨_, rfl, rfl, rfl⟩
    | list i => rw [e] at h other; cases h; exact other ⟨_, rfl, rfl, rfl⟩
    | tuple i => rw [e] at h other; cases h; exact other ⟨_, rfl, rfl, rfl⟩

/-- The state before the first `n` actions matters only up to them. -/
theorem Script.runF_congr (P : Script σ α) (z : Zlib) {env env' : Nat → Environment} (depth : Nat) (st : Status σ Forest) :
    ∀ n, (∀ i, i < n → env i = env' i) → P.runF z env depth n st = P.runF z env' depth n st
  | 0, _ => rfl
  | n + 1, h => by
    unfold Script.runF
    rw [Script.runF_congr P z depth st n fun i hi => h i (Nat.lt_succ_of_lt hi), h n (Nat.lt_succ_self n)]

theorem turns_other {schedule : Nat → Nat} {k n : Nat} (h : schedule n ≠ k) : turns schedule k (n + 1) = turns schedule k n := by
  simp [turns, List.range_succ, List.filter_append, h]

theorem turns_own {schedule : Nat → Nat} {k n : Nat} (h : schedule n = k) : turns schedule k (n + 1) = turns schedule k n ++ [n] := by
  simp [turns, List.range_succ, List.filter_append, h]

/-- An action raises or returns if the machine does not crash. -/
theorem Action.onForest_alive (z : Zlib) {env : Environment} (hc : ∀ i, env.fault ≠ some (i, true)) (depth : Nat) {a : Action} {S S' : Situation Forest}
    {r : Outcome Seen} (h : a.onForest z env depth S = some (r, S')) : r ≠ .crashed := by
  rintro rfl
  cases a with
  | op o =>
    unfold Action.onForest at h
    dsimp only at h
    split at h <;> cases h
  | parse p =>
    unfold Action.onForest at h
    dsimp only at h
    have : DatFile.parse z S.disk p ≠ .crashed := by
      unfold DatFile.parse
      repeat' split
      all_goals exact nofun
    split at h
    · cases h
    · next e => exact this e
    · cases h
  | save o p =>
    unfold Action.onForest at h
    dsimp only at h
    have : ∀ bs D', writeBytes env S.disk p bs ≠ (D', .crashed) := by
      intro bs D' e
      unfold writeBytes at e
      split at e
      · cases e
      · next k c e' =>
        cases c with
        | true => exact hc k e'
        | false => cases e
    split at h
    · split at h
      · split at h
        · cases h
        · split at h
          · cases h
          · cases h
          · next e => exact this _ _ e
      · cases h
    · cases h

/-- Threads with files of their own, on values: each is where it is if it runs alone. -/
theorem OwnTrees.alone (P : Script σ α) (z : Zlib) (env : Nat → Environment) (hc : ∀ n i, (env n).fault ≠ some (i, true)) (depth : Nat)
    (schedule : Nat → Nat) (A : OwnTrees σ) (I : Nat → σ → Prop) (own : Nat → Path → Prop) (hI : ∀ (k : Nat) (st : σ) (F : Forest), A.threads[k]? = some (st, F) → I k st)
    (hk : ∀ k, P.KeepsTo (I k) (own k)) (hown : ∀ i j p, i ≠ j → own i p → ¬ own j p)
    (hdef : ∀ (k : Nat) (st : σ) (F : Forest), A.threads[k]? = some (st, F) → ∀ env' m, P.runF z env' depth m (.running st ⟨A.disk, F⟩) ≠ Option.none) (n : Nat) :
    ∃ A', A.run P z env depth schedule n = some (.running A') ∧ A'.threads.length = A.threads.length ∧
      ∀ (k : Nat) (st : σ) (F : Forest), A.threads[k]? = some (st, F) → ∃ st' F' D', A'.threads[k]? = some (st', F') ∧ I k st' ∧ (∀ q, own k q → A'.disk q = D' q) ∧
        P.runF z (during env schedule k n) depth (turns schedule k n).length (.running st ⟨A.disk, F⟩) = some (.running st' ⟨D', F'⟩) := by
  induction n with
  | zero => exact ⟨A, rfl, rfl, fun k st F e => ⟨st, F, A.disk, e, hI k st F e, fun _ _ => rfl, rfl⟩⟩
  | succ n ih =>
    obtain ⟨A', r1, r2, r3⟩ := ih
    have run : A.run P z env depth schedule (n + 1) = A'.step P z (env n) depth (schedule n) := by
      show (match A.run P z env depth schedule n with
        | some (.running A') => A'.step P z (env n) depth (schedule n)
        | x => x) = _
      rw [r1]
    rw [run]
    generalize hs : schedule n = k0
    have idle : ∀ k, k ≠ k0 → during env schedule k (n + 1) = during env schedule k n ∧ turns schedule k (n + 1) = turns schedule k n := by
      intro k ne
      have := turns_other (k := k) (n := n) (schedule := schedule) (by rw [hs]; exact Ne.symm ne)
      exact ⟨by unfold during; rw [this], this⟩
    cases e0 : A.threads[k0]? with
    | none =>
      have e1 : A'.threads[k0]? = Option.none := by
        rw [List.getElem?_eq_none_iff] at e0 ⊢
        omega
      refine ⟨A', by unfold OwnTrees.step; rw [e1], r2, fun k st F e => ?_⟩
      obtain ⟨i1, i2⟩ := idle k (fun h => by rw [h, e0] at e; cases e)
      rw [i1, i2]
      exact r3 k st F e
    | some x =>
      obtain ⟨st, F⟩ := x
      obtain ⟨st', F', D', h1, h2, h3, h4⟩ := r3 k0 st F e0
      have own_turn : turns schedule k0 (n + 1) = turns schedule k0 n ++ [n] := turns_own hs
      have solo : P.runF z (during env schedule k0 (n + 1)) depth (turns schedule k0 (n + 1)).length (.running st ⟨A.disk, F⟩) =
          P.stepF z (env n) depth (.running st' ⟨D', F'⟩) := by
        rw [own_turn, List.length_append]
        show (match P.runF z (during env schedule k0 (n + 1)) depth (turns schedule k0 n).length (.running st ⟨A.disk, F⟩) with
          | some st => P.stepF z (during env schedule k0 (n + 1) (turns schedule k0 n).length) depth st
          | Option.none => Option.none) = _
        have c : ∀ i, i < (turns schedule k0 n).length → during env schedule k0 (n + 1) i = during env schedule k0 n i := by
          intro i hi
          unfold during
          rw [own_turn, List.getD_eq_getElem?_getD, List.getD_eq_getElem?_getD, List.getElem?_append_left hi]
        rw [Script.runF_congr P z depth _ _ c, h4]
        have : during env schedule k0 (n + 1) (turns schedule k0 n).length = env n := by
          unfold during
          rw [own_turn, List.getD_eq_getElem?_getD, List.getElem?_concat_length]
          rfl
        rw [this]
      have others : ∀ (A'' : OwnTrees σ) (x : σ × Forest), A''.threads = A'.threads.set k0 x → (∀ q, ¬ own k0 q → A''.disk q = A'.disk q) →
          ∀ (k : Nat) (st : σ) (F : Forest), k ≠ k0 → A.threads[k]? = some (st, F) → ∃ st' F' D', A''.threads[k]? = some (st', F') ∧ I k st' ∧ (∀ q, own k q → A''.disk q = D' q) ∧
            P.runF z (during env schedule k (n + 1)) depth (turns schedule k (n + 1)).length (.running st ⟨A.disk, F⟩) = some (.running st' ⟨D', F'⟩) := by
        intro A'' x e1 e2 k st F ne e
        obtain ⟨i1, i2⟩ := idle k ne
        obtain ⟨st', F', D', q1, q2, q3, q4⟩ := r3 k st F e
        refine ⟨st', F', D', by rw [e1, List.getElem?_set_ne (Ne.symm ne)]; exact q1, q2, fun q hq => ?_, by rw [i1, i2]; exact q4⟩
        rw [e2 q fun h => hown k k0 q ne hq h]
        exact q3 q hq
      have hdef' := hdef k0 st F e0 (during env schedule k0 (n + 1)) (turns schedule k0 (n + 1)).length
      rw [solo] at hdef'
      have hk0 : k0 < A'.threads.length := (List.getElem?_eq_some_iff.1 h1).1
      cases e2 : P st' with
      | stop res =>
        have step : A'.step P z (env n) depth k0 = some (.running A') := by unfold OwnTrees.step; rw [h1]; dsimp only; rw [e2]
        have stepF : P.stepF z (env n) depth (.running st' ⟨D', F'⟩) = some (.running st' ⟨D', F'⟩) := by unfold Script.stepF; dsimp only; rw [e2]
        refine ⟨A', step, r2, fun k st1 F1 e => ?_⟩
        by_cases ne : k = k0
        · subst ne
          rw [e0] at e
          cases e
          exact ⟨st', F', D', h1, h2, h3, solo.trans stepF⟩
        · refine others A' (st', F') ?_ (fun _ _ => rfl) k st1 F1 ne e
          have := List.getElem?_eq_some_iff.1 h1
          rw [← this.2, List.set_getElem_self]
      | call a next =>
        obtain ⟨p1, p2⟩ := hk k0 st' a next h2 e2
        cases e3 : a.onForest z (env n) depth ⟨D', F'⟩ with
        | none =>
          exfalso
          apply hdef'
          unfold Script.stepF
          dsimp only
          rw [e2]
          dsimp only
          rw [e3]
        | some y =>
          obtain ⟨r, S1⟩ := y
          have alive := Action.onForest_alive z (hc n) depth e3
          obtain ⟨D2, l1, l2, l3⟩ := Action.onForest_local z (env n) depth p1 (fun q hq => (h3 q hq).symm) e3
          have go : ∀ x, (A'.step P z (env n) depth k0 = some (.running ⟨D2, A'.threads.set k0 (next x, S1.memory)⟩)) →
              P.stepF z (env n) depth (.running st' ⟨D', F'⟩) = some (.running (next x) S1) →
              ∃ A'', A'.step P z (env n) depth k0 = some (.running A'') ∧ A''.threads.length = A.threads.length ∧
                ∀ (k : Nat) (st : σ) (F : Forest), A.threads[k]? = some (st, F) → ∃ st' F' D', A''.threads[k]? = some (st', F') ∧ I k st' ∧ (∀ q, own k q → A''.disk q = D' q) ∧
                  P.runF z (during env schedule k (n + 1)) depth (turns schedule k (n + 1)).length (.running st ⟨A.disk, F⟩) =
                    some (.running st' ⟨D', F'⟩) := by
            intro x g1 g2
            refine ⟨_, g1, by simp [r2], fun k st1 F1 e => ?_⟩
            by_cases ne : k = k0
            · subst ne
              rw [e0] at e
              cases e
              exact ⟨next x, S1.memory, S1.disk, List.getElem?_set_self hk0, p2 x, fun q hq => (l2 q hq).symm, solo.trans g2⟩
            · exact others _ _ rfl (fun q hq => l3 q hq) k st1 F1 ne e
          cases r with
          | crashed => exact absurd rfl alive
          | returned v =>
            refine go (.ok v) ?_ ?_
            · unfold OwnTrees.step; rw [h1]; dsimp only; rw [e2]; dsimp only; rw [l1]
            · unfold Script.stepF; dsimp only; rw [e2]; dsimp only; rw [e3]
          | raised v =>
            refine go (.error v) ?_ ?_
            · unfold OwnTrees.step; rw [h1]; dsimp only; rw [e2]; dsimp only; rw [l1]
            · unfold Script.stepF; dsimp only; rw [e2]; dsimp only; rw [e3]

/-- Threads that start with no objects and use different files: after any number of actions, in any order, each is in the state it is in if it is
the only thread, in any memory, after as many actions as it had turns; and its files are those it then has.  (If no write crashes the machine, and the threads do not
let objects share parts.) -/
theorem C58_alone (P : Script σ α) (z : Zlib) (env : Nat → Environment) (hc : ∀ n i, (env n).fault ≠ some (i, true)) (depth : Nat)
    (schedule : Nat → Nat) (states : List σ) (disk : FileSystem) (I : Nat → σ → Prop) (own : Nat → Path → Prop)
    (hI : ∀ (k : Nat) (st : σ), states[k]? = some st → I k st) (hk : ∀ k, P.KeepsTo (I k) (own k)) (hown : ∀ i j p, i ≠ j → own i p → ¬ own j p)
    (hdef : ∀ st ∈ states, ∀ env' m, P.runF z env' depth m (.running st ⟨disk, ⟨[], []⟩⟩) ≠ Option.none) (n : Nat) (H : Heap) :
    ∃ T, Together.run P z env depth schedule ⟨disk, H, states.map fun st => (st, [])⟩ n = .running T ∧
      ∀ (k : Nat) (st : σ), states[k]? = some st → ∃ st' names, T.threads[k]? = some (st', names) ∧ ∀ H', ∃ D W,
        P.run z (during env schedule k n) depth (turns schedule k n).length (.running st ⟨disk, ⟨H', []⟩⟩) = .running st' ⟨D, W⟩ ∧
          ∀ q, own k q → T.disk q = D q := by
  have look : ∀ (k : Nat) (st : σ) (F : Forest), (states.map fun st => (st, (⟨[], []⟩ : Forest)))[k]? = some (st, F) → states[k]? = some st ∧ F = ⟨[], []⟩ := by
    intro k st F e
    rw [List.getElem?_map] at e
    cases e1 : states[k]? with
    | none => rw [e1] at e; cases e
    | some x => rw [e1] at e; cases e; exact ⟨rfl, rfl⟩
  have start : ThreadsHold (σ := σ) ⟨disk, H, states.map fun st => (st, [])⟩ ⟨disk, states.map fun st => (st, ⟨[], []⟩)⟩ := by
    refine ⟨rfl, by simp, fun _ => [], fun k st F e => ?_, fun _ _ _ _ _ _ m => nomatch m⟩
    obtain ⟨e1, rfl⟩ := look k st F e
    refine ⟨[], [], by simp [e1], .nil, fun a _ => Nat.zero_le _, rfl, fun h r p e => ?_⟩
    cases e
  obtain ⟨A', a1, a2, a3⟩ := OwnTrees.alone P z env hc depth schedule ⟨disk, states.map fun st => (st, ⟨[], []⟩)⟩ I own
    (fun k st F e => hI k st (look k st F e).1) hk hown
    (fun k st F e => by
      obtain ⟨e1, rfl⟩ := look k st F e
      exact hdef st (List.mem_of_getElem? e1)) n
  have agree := C58_threads P z env depth schedule _ _ start n _ a1
  cases e : Together.run P z env depth schedule ⟨disk, H, states.map fun st => (st, [])⟩ n with
  | crashed d => rw [e] at agree; exact agree.elim
  | running T =>
    rw [e] at agree
    obtain ⟨t1, t2, fps, t3, _⟩ := agree
    refine ⟨T, rfl, fun k st e1 => ?_⟩
    obtain ⟨st', F', D', b1, b2, b3, b4⟩ := a3 k st ⟨[], []⟩ (by simp [e1])
    obtain ⟨names, roots, c1, _⟩ := t3 k st' F' b1
    refine ⟨st', names, c1, fun H' => ?_⟩
    obtain ⟨W, w1, _⟩ := (C56_from_scratch P z (during env schedule k n) depth H' disk st (turns schedule k n).length).1 _ _ b4
    exact ⟨D', W, w1, fun q hq => by rw [t1]; exact b3 q hq⟩

/-! ## an example -/

/-- A script whose actions always have a meaning never lets objects share parts. -/
theorem Script.runF_defined (P : Script σ α) (z : Zlib) (env : Nat → Environment) (depth : Nat)
    (h : ∀ st a next, P st = .call a next → ∀ e S, a.onForest z e depth S ≠ Option.none) (n : Nat) (st : Status σ Forest) :
    P.runF z env depth n st ≠ Option.none := by
  induction n with
  | zero => exact nofun
  | succ n ih =>
    unfold Script.runF
    cases e : P.runF z env depth n st with
    | none => exact absurd e ih
    | some x =>
      dsimp only
      unfold Script.stepF
      cases x with
      | crashed d => exact nofun
      | running st S =>
        dsimp only
        cases e1 : P st with
        | stop r => exact nofun
        | call a next =>
          dsimp only
          cases e2 : a.onForest z (env n) depth S with
          | none => exact absurd e2 (h st a next e1 (env n) S)
          | some y =>
            obtain ⟨r, S'⟩ := y
            cases r <;> exact nofun

/-- `data = DatFile.parse(p); data.name = 7; data.save(p)`, for some attribute `name`, where `p` is a part of the state. -/
def Sample.ownFile (name : PyStr) : Script (Path × Nat) PUnit
  | (p, 0) => .call (.parse p) fun
    | .ok _ => (p, 1)
    | .error _ => (p, 3)
  | (p, 1) => .call (.op (.setAttr 0 name (.int 7))) fun _ => (p, 2)
  | (p, 2) => .call (.save 0 p) fun _ => (p, 3)
  | _ => .stop (.ok ⟨⟩)

/-- Any number of such threads, each with a file of its own: each does what it does alone. -/
example (name : PyStr) (z : Zlib) (schedule : Nat → Nat) (paths : List Path) (nd : paths.Nodup) (disk : FileSystem) (n : Nat) (H : Heap) :
    ∃ T, Together.run (Sample.ownFile name) z (fun _ => .plain) 5 schedule ⟨disk, H, (paths.map fun p => (p, 0)).map fun st => (st, [])⟩ n = .running T ∧
      ∀ (k : Nat) (st : Path × Nat), (paths.map fun p => (p, 0))[k]? = some st → ∃ st' names, T.threads[k]? = some (st', names) ∧ ∀ H', ∃ D W,
        (Sample.ownFile name).run z (during (fun _ => .plain) schedule k n) 5 (turns schedule k n).length (.running st ⟨disk, ⟨H', []⟩⟩) =
          .running st' ⟨D, W⟩ ∧ ∀ q, paths[k]? = some q → T.disk q = D q := by
  refine C58_alone (Sample.ownFile name) z (fun _ => .plain) (fun _ _ => nofun) 5 schedule (paths.map fun p => (p, 0)) disk (fun k st => paths[k]? = some st.1)
    (fun k p => paths[k]? = some p) ?_ ?_ ?_ ?_ n H
  · intro k st e
    rw [List.getElem?_map] at e
    cases e1 : paths[k]? with
    | none => rw [e1] at e; cases e
    | some p => rw [e1] at e; cases e; rfl
  · rintro k ⟨p, i⟩ a next hp e
    dsimp only at hp
    match i, e with
    | 0, e =>
      cases e
      refine ⟨fun q hq => by cases hq; exact hp, fun r => ?_⟩
      cases r <;> exact hp
    | 1, e =>
      cases e
      exact ⟨fun q hq => (nomatch hq), fun r => hp⟩
    | 2, e =>
      cases e
      exact ⟨fun q hq => by cases hq; exact hp, fun r => hp⟩
    | i + 3, e => cases e
  · intro i j p ne hi hj
    obtain ⟨li, hi⟩ := List.getElem?_eq_some_iff.1 hi
    obtain ⟨lj, hj⟩ := List.getElem?_eq_some_iff.1 hj
    have pw := List.pairwise_iff_getElem.1 nd
    rcases Nat.lt_or_gt_of_ne ne with lt | lt
    · exact pw i j li lj lt (hi.trans hj.symm)
    · exact pw j i lj li lt (hj.trans hi.symm)
  · intro st _ env' m
    refine Script.runF_defined _ z env' 5 ?_ m _
    rintro ⟨p, i⟩ a next e env S
    have save : ∀ o p, Action.onForest z env 5 S (.save o p) ≠ Option.none := by
      intro o p
      unfold Action.onForest
      dsimp only
      repeat' split
      all_goals exact nofun
    match i, e with
    | 0, e =>
      cases e
      unfold Action.onForest
      dsimp only
      split <;> exact nofun
    | 1, e =>
      cases e
      unfold Action.onForest Op.onForest
      dsimp only
      split
      · exact nofun
      · exact nofun
      · next e =>
        exfalso
        revert e
        split
        · split
          · exact nofun
          · exact nofun
        · exact nofun
    | 2, e => cases e; exact save _ _
    | i + 3, e => cases e

/-! ## threads that share objects -/

theorem Together.step_typed (P : Script σ α) (can : σ → List Ann → Prop) (hP : P.Typed (Declares false) can) (z : Zlib) (env : Environment) (depth : Nat)
    (hn : 5 ≤ depth) (k : Nat) {T T' : Together σ} (h : T.Typed (Declares false) can) (hm : T.step P z env depth k = .running T') :
    T'.Typed (Declares false) can := by
  unfold Together.step at hm
  cases e : T.threads[k]? with
  | none => rw [e] at hm; cases hm; exact h
  | some x =>
    obtain ⟨st, names⟩ := x
    rw [e] at hm
    dsimp only at hm
    cases e1 : P st with
    | stop r => rw [e1] at hm; cases hm; exact h
    | call a next =>
      rw [e1] at hm
      dsimp only at hm
      obtain ⟨f, hf, hc⟩ := h
      obtain ⟨types, ht, hN⟩ := hc k st names e
      obtain ⟨ρ, h1, h2, h3⟩ := hP _ _ _ _ ht e1
      have := Situation.act_typed_by z env hn (S := ⟨T.disk, ⟨T.heap, names⟩⟩) hf hN h1
      generalize Situation.act z env depth ⟨T.disk, ⟨T.heap, names⟩⟩ a = x at this hm
      obtain ⟨x, S2⟩ := x
      have hk : k < T.threads.length := (List.getElem?_eq_some_iff.1 e).1
      have after : ∀ (g : Nat → Option Ann) (st' : σ) (types' : List Ann), Extends f g → S2.memory.heap.Typed (Declares false) g → can st' types' →
          NamesTyped g S2.memory.names types' →
          Together.Typed (Declares false) can ⟨S2.disk, S2.memory.heap, T.threads.set k (st', S2.memory.names)⟩ := by
        intro g st' types' k1 k2 k3 k4
        refine ⟨g, k2, fun i st1 n1 e3 => ?_⟩
        dsimp only at e3
        by_cases hi : i = k
        · subst hi
          rw [List.getElem?_set_self hk] at e3
          cases e3
          exact ⟨types', k3, k4⟩
        · rw [List.getElem?_set_ne (Ne.symm hi)] at e3
          obtain ⟨ts, q1, q2⟩ := hc i st1 n1 e3
          exact ⟨ts, q1, q2.extends k1⟩
      rcases this with ⟨v, g, e5, k1, k2, k3, k4⟩ | ⟨x, e5, k1, k2⟩ | ⟨e5, _⟩
      · dsimp only at e5
        subst e5
        cases hm
        exact after g _ _ k2 k3 (h2 v k1) k4
      · dsimp only at e5 k2
        subst e5
        cases hm
        exact after f _ types (fun _ _ e => e) (by rw [k2]; exact hf) (h3 x k1) (by rw [k2]; exact hN)
      · dsimp only at e5
        subst e5
        cases hm

/-- Threads that a type checker accepts and that may share objects in any way: at any moment, in any order, each is where the checker thinks it
can be. -/
theorem C58_typed (P : Script σ α) (can : σ → List Ann → Prop) (hP : P.Typed (Declares false) can) (z : Zlib) (env : Nat → Environment) (depth : Nat)
    (hn : 5 ≤ depth) (schedule : Nat → Nat) (T : Together σ) (h : T.Typed (Declares false) can) (n : Nat) (T' : Together σ)
    (hm : T.run P z env depth schedule n = .running T') : T'.Typed (Declares false) can := by
  induction n generalizing T' with
  | zero => cases hm; exact h
  | succ n ih =>
    unfold Together.run at hm
    cases e : T.run P z env depth schedule n with
    | crashed disk => rw [e] at hm; cases hm
    | running T1 =>
      rw [e] at hm
      exact Together.step_typed P can hP z (env n) depth hn (schedule n) (ih T1 e) hm

/-- So no action of any thread raises `TypeError` or `AttributeError`, whatever the others have done to the objects before. -/
theorem C58_no_type_error (P : Script σ α) (can : σ → List Ann → Prop) (hP : P.Typed (Declares false) can) (z : Zlib) (env : Nat → Environment) (depth : Nat)
    (hn : 5 ≤ depth) (schedule : Nat → Nat) (T : Together σ) (h : T.Typed (Declares false) can) (n : Nat) (T' : Together σ)
    (hm : T.run P z env depth schedule n = .running T') (k : Nat) (st : σ) (names : List HVal) (hk : T'.threads[k]? = some (st, names)) (a : Action)
    (next : Py Seen → σ) (ha : P st = .call a next) (e : PyErr) :
    (Situation.act z (env n) depth ⟨T'.disk, ⟨T'.heap, names⟩⟩ a).1 = .raised e → e ≠ .typeError ∧ e ≠ .attributeError := by
  obtain ⟨f, hf, hc⟩ := C58_typed P can hP z env depth hn schedule T h n T' hm
  obtain ⟨types, ht, hN⟩ := hc k st names hk
  obtain ⟨ρ, h1, _⟩ := hP _ _ _ _ ht ha
  intro he
  rcases Situation.act_typed_by z (env n) hn (S := ⟨T'.disk, ⟨T'.heap, names⟩⟩) hf hN h1 with ⟨v, g, e5, _⟩ | ⟨x, e5, k1, _⟩ | ⟨e5, _⟩
  · rw [he] at e5; cases e5
  · rw [he] at e5; cases e5; exact Action.raises_nothing_else k1
  · rw [he] at e5; cases e5

/-- Two threads pop elements off the same list until it is empty. -/
example (disk : FileSystem) : Together.Typed (Declares false) (fun st types => (st = 0 ∧ types = []) ∨ (0 < st ∧ types = [.list .int]))
    ⟨disk, [.list [.int 1, .int 2, .int 3]], [(1, [.ref 0]), (1, [.ref 0])]⟩ := by
  refine ⟨fun b => if b = 0 then some (.list .int) else Option.none, ?_, ?_⟩
  · intro b a e
    dsimp only at e
    split at e
    · rename_i hb
      subst hb
      cases e
      refine ⟨_, rfl, .list fun v hv => ?_⟩
      simp only [List.mem_cons, List.not_mem_nil, or_false] at hv
      rcases hv with rfl | rfl | rfl <;> exact .int _
    · cases e
  · have one : ∃ types : List Ann, (((1 : Nat) = 0 ∧ types = []) ∨ (0 < 1 ∧ types = [.list .int])) ∧
        NamesTyped (fun b => if b = 0 then some (.list .int) else Option.none) [.ref 0] types :=
      ⟨_, .inr ⟨by decide, rfl⟩, rfl, fun h a e => by
        match h, e with
        | 0, e => cases e; exact ⟨0, rfl, rfl⟩
        | h + 1, e => simp at e⟩
    intro k st names e
    match k, e with
    | 0, e => cases e; exact one
    | 1, e => cases e; exact one
    | k + 2, e => simp at e

end Genie
