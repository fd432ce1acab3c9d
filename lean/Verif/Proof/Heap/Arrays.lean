import Verif.Proof.Heap.Sim
import Verif.Spec.ObjectTrees
/-! # The array readers build lists and tuples -/

namespace Genie
open HReader

theorem Builds.of {hr : HReader HVal} {r : Reader α} {tree : Version → α → ObjTree}
    (h : ∀ P ver, Sim P ver [] hr r (tree ver)) : Builds hr r tree := h

theorem Builds.int (r : Reader Int) [hr : Keeps r] : Builds (HReader.int r) r (fun _ => .int) := by
  intro P ver N s hs _
  change Post P ver _ ((lift r >>= fun i => pure (.int i)) _ s) _
  rw [HReader.bind_run]
  unfold lift
  cases e : r s with
  | error e => exact rfl
  | ok p => exact ⟨rfl, (hr.keeps _ _ _ e).trans hs, N, [], rfl, .int _, List.nodup_nil, fun _ h => nomatch h⟩

theorem Builds.float (r : Reader PyFloat) [hr : Keeps r] : Builds (HReader.float r) r (fun _ => .float) := by
  intro P ver N s hs _
  change Post P ver _ ((lift r >>= fun i => pure (.float i)) _ s) _
  rw [HReader.bind_run]
  unfold lift
  cases e : r s with
  | error e => exact rfl
  | ok p => exact ⟨rfl, (hr.keeps _ _ _ e).trans hs, N, [], rfl, .float _, List.nodup_nil, fun _ h => nomatch h⟩

theorem Builds.readIf {hr : HReader HVal} {r : Reader α} {t : Version → α → ObjTree} (h : Builds hr r t) (c : Prop) [Decidable c] :
    Builds (HReader.readIf c hr) (Genie.readIf c r) (fun ver => optObj (t ver)) := by
  intro P ver N s hs o
  unfold HReader.readIf Genie.readIf
  by_cases hc : c
  · rw [if_pos hc, if_pos hc, Reader.bind_run]
    have := h P ver N s hs o
    cases e2 : r s with
    | error e =>
      rw [e2] at this
      revert this
      cases hr (P ++ N) s <;> exact id
    | ok p =>
      rw [e2] at this
      revert this
      cases hr (P ++ N) s <;> exact id
  · rw [if_neg hc, if_neg hc]
    exact ⟨rfl, hs, N, [], rfl, .none, List.nodup_nil, fun _ h => nomatch h⟩

/-- During a loop that appends to the list at address `P.length`. -/
structure LoopInv (P H : Heap) (ts : List ObjTree) : Prop where
  inv : ∃ vs N fps, H = P ++ Cell.list vs :: N ∧ RepItems H vs ts fps ∧ fps.Nodup ∧ ∀ x ∈ fps, P.length < x

theorem LoopInv.start (P : Heap) : LoopInv P (P ++ [Cell.list []]) [] :=
  ⟨[], [], [], rfl, .nil, List.nodup_nil, fun _ h => (nomatch h)⟩

theorem LoopInv.step {P H : Heap} {ts : List ObjTree} (l : LoopInv P H ts) {hr : HReader HVal} {r : Reader α}
    {t : Version → α → ObjTree} (hb : Builds hr r t) {s : ByteHandler} {ver : Version} (hs : s.version = ver) :
    (∃ e, hr H s = .error e ∧ r s = .error e) ∨
    (∃ v b s' H1 H2, hr H s = .ok (v, H1, s') ∧ r s = .ok (b, s') ∧ append (.ref P.length) v H1 s' = .ok ((), H2, s') ∧
      s'.version = ver ∧ LoopInv P H2 (ts ++ [t ver b])) := by
  obtain ⟨vs, N, fps, rfl, ri, nd, fr⟩ := l.inv
  have hp := hb (P ++ Cell.list vs :: N) ver [] s hs Own.nil
  rw [List.append_nil] at hp
  cases e1 : hr (P ++ Cell.list vs :: N) s with
  | error e =>
    cases e2 : r s with
    | error e' =>
      rw [e1, e2] at hp
      exact .inl ⟨e, rfl, by rw [show e = e' from hp]⟩
    | ok p => rw [e1, e2] at hp; exact hp.elim
  | ok p =>
    obtain ⟨v, H1, s1⟩ := p
    cases e2 : r s with
    | error e' => rw [e1, e2] at hp; exact hp.elim
    | ok p =>
      obtain ⟨b, s2⟩ := p
      rw [e1, e2] at hp
      obtain ⟨rfl, hv, N', fp, rfl, rv, nd', fr'⟩ := hp
      refine .inr ⟨v, b, s1, _, P ++ Cell.list (vs ++ [v]) :: (N ++ N'), rfl, rfl, ?_, hv, ?_⟩
      · have hc : (P ++ Cell.list vs :: N ++ N')[P.length]? = some (Cell.list vs) := by
          rw [List.append_assoc, List.getElem?_append_right (Nat.le_refl _)]; simp
        have hset : (P ++ Cell.list vs :: N ++ N').set P.length (Cell.list (vs ++ [v])) = P ++ Cell.list (vs ++ [v]) :: (N ++ N') := by
          rw [List.append_assoc, List.set_append_right _ _ (Nat.le_refl _)]; simp
        unfold append
        rw [HReader.bind_run]
        unfold cell
        simp only [hc]
        unfold update
        dsimp only
        rw [hset]
      · have agree : ∀ a, P.length ≠ a → (P ++ Cell.list (vs ++ [v]) :: (N ++ N'))[a]? = (P ++ Cell.list vs :: N ++ N')[a]? := by
          intro a ha
          have hset : (P ++ Cell.list vs :: N ++ N').set P.length (Cell.list (vs ++ [v])) = P ++ Cell.list (vs ++ [v]) :: (N ++ N') := by
            rw [List.append_assoc, List.set_append_right _ _ (Nat.le_refl _)]; simp
          rw [← hset, List.getElem?_set_ne ha]
        refine ⟨vs ++ [v], N ++ N', fps ++ fp, rfl, ?_, ?_, ?_⟩
        · refine RepItems.snoc ?_ ?_
          · exact (ri.extend N').frame fun a m => agree a (by have := fr a m; omega)
          · exact rv.frame fun a m => agree a (by have := fr' a m; simp only [List.length_append, List.length_cons] at this; omega)
        · rw [List.nodup_append]
          refine ⟨nd, nd', fun a ha b hb e => ?_⟩
          subst e
          have h1 := ri.bound a ha
          have h2 := fr' a hb
          omega
        · intro x hx
          rcases List.mem_append.mp hx with h | h
          · exact fr x h
          · have := fr' x h
            simp only [List.length_append, List.length_cons] at this
            omega

theorem LoopInv.finish {P H : Heap} {ts : List ObjTree} (l : LoopInv P H ts) :
    ∃ N fp, H = P ++ N ∧ Rep H (.ref P.length) (.list ts) fp ∧ fp.Nodup ∧ ∀ x ∈ fp, P.length ≤ x := by
  obtain ⟨vs, N, fps, rfl, ri, nd, fr⟩ := l.inv
  refine ⟨_, P.length :: fps, rfl, .list ?_ ri, ?_, ?_⟩
  · rw [List.getElem?_append_right (Nat.le_refl _)]; simp
  · rw [List.nodup_cons]
    exact ⟨fun h => Nat.lt_irrefl _ (fr _ h), nd⟩
  · intro x hx
    rcases List.mem_cons.mp hx with rfl | h
    · exact Nat.le_refl _
    · exact Nat.le_of_lt (fr x h)

/-- Outcome of a loop. -/
def LoopPost (P : Heap) (ver : Version) (ts : List ObjTree) (t : α → ObjTree) : Py (PUnit × Heap × ByteHandler) → Py (List α × ByteHandler) → Prop
  | .error e, .error e' => e = e'
  | .ok (_, H, s), .ok (as, s') => s = s' ∧ s.version = ver ∧ LoopInv P H (ts ++ as.map t)
  | _, _ => False

theorem appendLoop_post {hr : HReader HVal} {r : Reader α} {t : Version → α → ObjTree} (hb : Builds hr r t) {P : Heap} {ver : Version} :
    ∀ (n : Nat) {H : Heap} {ts : List ObjTree} {s : ByteHandler}, LoopInv P H ts → s.version = ver →
      LoopPost P ver ts (t ver) (appendLoop (.ref P.length) hr n H s) (repeatR r n s)
  | 0, H, ts, s, l, hs => ⟨rfl, hs, by simpa using l⟩
  | n + 1, H, ts, s, l, hs => by
    unfold appendLoop repeatR
    rw [HReader.bind_run, Reader.bind_run]
    rcases l.step hb hs with ⟨e, e1, e2⟩ | ⟨v, b, s', H1, H2, e1, e2, e3, hv, l'⟩
    · rw [e1, e2]; exact rfl
    · rw [e1, e2]
      dsimp only
      rw [HReader.bind_run, e3]
      dsimp only
      have ih := appendLoop_post hb n l' hv
      rw [Reader.bind_run]
      cases e4 : appendLoop (.ref P.length) hr n H2 s' with
      | error e =>
        cases e5 : repeatR r n s' with
        | error e' => rw [e4, e5] at ih; exact ih
        | ok p => rw [e4, e5] at ih; exact ih.elim
      | ok p =>
        cases e5 : repeatR r n s' with
        | error e' => rw [e4, e5] at ih; exact ih.elim
        | ok q =>
          rw [e4, e5] at ih
          obtain ⟨h1, h2, h3⟩ := ih
          exact ⟨h1, h2, by simpa using h3⟩

theorem array_post {P N : Heap} {ver : Version} {t : α → ObjTree} {loop : HVal → HReader PUnit} {s : ByteHandler} {y : Py (List α × ByteHandler)}
    (h : LoopPost (P ++ N) ver [] t (loop (.ref (P ++ N).length) (P ++ N ++ [Cell.list []]) s) y) :
    Post P ver (fun l => .list (l.map t)) ((alloc (.list []) >>= fun elements => (loop elements >>= fun _ => pure elements)) (P ++ N) s) y := by
  rw [HReader.bind_run]
  change Post P ver _ ((loop (.ref (P ++ N).length) >>= fun _ => pure _) (P ++ N ++ [Cell.list []]) s) _
  rw [HReader.bind_run]
  revert h
  cases loop (.ref (P ++ N).length) (P ++ N ++ [Cell.list []]) s with
  | error e =>
    cases y with
    | error e' => exact id
    | ok p => exact False.elim
  | ok p =>
    cases y with
    | error e' => exact False.elim
    | ok q =>
      rintro ⟨h1, h2, h3⟩
      obtain ⟨N', fp, e3, h3, h4, h5⟩ := h3.finish
      refine ⟨h1, h2, N ++ N', fp, ?_, h3, h4, ?_⟩
      · rw [e3, List.append_assoc]
      · intro x hx
        have := h5 x hx
        simp only [List.length_append] at this
        omega

theorem Builds.readArray {hr : HReader HVal} {r : Reader α} {t : Version → α → ObjTree} (hb : Builds hr r t) (size : Int) (b : Bool) :
    Builds (HReader.readArray hr size b) (Genie.readArray r size b) (fun ver l => .list (l.map (t ver))) := by
  intro P ver
  refine Sim.scalar fun _ => ?_
  intro N s hs o
  exact array_post (loop := fun e => appendLoop e hr size.toNat) (appendLoop_post hb size.toNat (LoopInv.start (P ++ N)) hs)

theorem item_list {H : Heap} {v : HVal} {pointers : List Int} {fp : List Nat} (r : Rep H v (.list (pointers.map .int)) fp) (i : Nat) :
    W.item H (.ok v) i = match pointers[i]? with
      | some p => .ok (.int p)
      | none => .error .indexError := by
  have key : ∀ {vs : List HVal} {ps : List Int} {fps : List Nat}, RepItems H vs (ps.map .int) fps → vs = ps.map .int := by
    intro vs ps
    induction ps generalizing vs with
    | nil => intro fps h; cases h; rfl
    | cons p ps ih =>
      intro fps h
      cases h with
      | cons h1 h2 => cases h1; rw [ih h2]; rfl
  cases r with
  | list hc ri =>
    have := key ri
    subst this
    simp only [W.item, bind, Except.bind, W.cell, hc, List.getElem?_map]
    cases pointers[i]? <;> rfl

theorem pointersLoop_post {hr : HReader HVal} {r : Reader α} {t : Version → α → ObjTree} (hb : Builds hr r t) {P : Heap} {ver : Version}
    {pv : HVal} {pfp : List Nat} (pointers : List Int) (hp : Rep P pv (.list (pointers.map .int)) pfp) :
    ∀ (n i : Nat) {H : Heap} {ts : List ObjTree} {s : ByteHandler}, LoopInv P H ts → s.version = ver →
      LoopPost P ver ts (optObj (t ver)) (pointersLoop (.ref P.length) hr pv i n H s) (readPointersFrom r pointers i n s)
  | 0, i, H, ts, s, l, hs => ⟨rfl, hs, by simpa using l⟩
  | n + 1, i, H, ts, s, l, hs => by
    unfold pointersLoop readPointersFrom
    have hi : W.item H (.ok pv) i = match pointers[i]? with
        | some p => .ok (.int p)
        | none => .error .indexError := by
      obtain ⟨vs, N, fps, rfl, _⟩ := l.inv
      exact item_list (hp.extend _) i
    rw [HReader.bind_run]
    unfold HReader.item HReader.look
    simp only [hi]
    cases pointers[i]? with
    | none => exact rfl
    | some p =>
      dsimp only
      rw [HReader.bind_run, Reader.bind_run]
      unfold lift noteLossy
      dsimp only
      have hd : decide (HVal.int p ≠ .int 0 ∧ HVal.int p ≠ .int 1) = decide (p ≠ 0 ∧ p ≠ 1) := by simp
      rw [HReader.bind_run, Reader.bind_run, hd]
      have hs' : ({ s with lossy := s.lossy || decide (p ≠ 0 ∧ p ≠ 1) } : ByteHandler).version = ver := hs
      generalize { s with lossy := s.lossy || decide (p ≠ 0 ∧ p ≠ 1) } = s at hs'
      have ht : HReader.truthy (HVal.int p) H s = .ok (p != 0, H, s) := rfl
      rw [ht]
      dsimp only
      have hc : HReader.readIf ((p != 0) = true) hr = HReader.readIf (p ≠ 0) hr := by
        unfold HReader.readIf
        by_cases h0 : p = 0 <;> simp [h0]
      rw [hc, HReader.bind_run]
      rcases l.step (hb.readIf (p ≠ 0)) hs' with ⟨e, e1, e2⟩ | ⟨v, b, s', H1, H2, e1, e2, e3, hv, l'⟩
      · rw [e1, e2]; exact rfl
      · rw [e1, e2]
        dsimp only
        rw [HReader.bind_run, e3]
        dsimp only
        have ih := pointersLoop_post hb pointers hp n (i + 1) l' hv
        rw [Reader.bind_run]
        revert ih
        cases pointersLoop (.ref P.length) hr pv (i + 1) n H2 s' with
        | error e =>
          cases readPointersFrom r pointers (i + 1) n s' with
          | error e' => exact id
          | ok p => exact False.elim
        | ok p =>
          cases readPointersFrom r pointers (i + 1) n s' with
          | error e' => exact False.elim
          | ok q =>
            rintro ⟨h1, h2, h3⟩
            exact ⟨h1, h2, by simpa using h3⟩

/-- `read_class_array_with_pointers` with a list of pointers that a local variable holds. -/
theorem Sim.pointers {P ver Γ Γ' v fp} {hr : HReader HVal} {r : Reader β} {t : Version → β → ObjTree} {size : Int} {ps : List Int}
    {hk : HVal → HReader HVal} {k : List (Option β) → Reader α} {tree : α → ObjTree} (hb : Builds hr r t)
    (rm : Remove ⟨v, .list (ps.map .int), fp⟩ Γ Γ')
    (h : ∀ w b fp, Sim P ver (⟨w, .list (b.map (optObj (t ver))), fp⟩ :: Γ) (hk w) (k b) tree) :
    Sim P ver Γ (HReader.readClassArrayWithPointers hr size v >>= hk) (Genie.readClassArrayWithPointers r size ps >>= k) tree := by
  intro N s hs o
  have hv : Rep (P ++ N) v (.list (ps.map .int)) fp := (o.remove rm).rep _ List.mem_cons_self
  have hp : Post (P ++ N) ver (fun l => .list (l.map (optObj (t ver)))) (HReader.readClassArrayWithPointers hr size v (P ++ N) s)
      (Genie.readClassArrayWithPointers r size ps s) := by
    have := array_post (P := P ++ N) (N := []) (loop := fun e => pointersLoop e hr v 0 size.toNat) (t := optObj (t ver))
      (pointersLoop_post hb ps (P := P ++ N ++ []) (pv := v) (by rw [List.append_nil]; exact hv) size.toNat 0 (LoopInv.start (P ++ N ++ [])) hs)
    rw [List.append_nil] at this
    exact this
  rw [HReader.bind_run, Reader.bind_run]
  cases e1 : HReader.readClassArrayWithPointers hr size v (P ++ N) s with
  | error e =>
    cases e2 : Genie.readClassArrayWithPointers r size ps s with
    | error e' => rw [e1, e2] at hp; exact hp
    | ok p => rw [e1, e2] at hp; exact hp.elim
  | ok p =>
    obtain ⟨w, H, s1⟩ := p
    cases e2 : Genie.readClassArrayWithPointers r size ps s with
    | error e' => rw [e1, e2] at hp; exact hp.elim
    | ok p =>
      obtain ⟨b, s2⟩ := p
      rw [e1, e2] at hp
      obtain ⟨rfl, hv, N', fp, rfl, hrep, nd, fr⟩ := hp
      have := h w b fp (N ++ N') s1 hv (by rw [← List.append_assoc]; exact o.push hrep nd fr)
      simpa [List.append_assoc] using this

theorem Builds.readOrEmpty {hr : HReader HVal} {r : Reader (List α)} {t : Version → α → ObjTree}
    (hb : Builds hr r (fun ver l => .list (l.map (t ver)))) (c : Prop) [Decidable c] :
    Builds (HReader.readOrEmpty c hr) (Genie.readOr c r []) (fun ver l => .list (l.map (t ver))) := by
  intro P ver
  unfold HReader.readOrEmpty Genie.readOr
  refine Sim.ite (fun _ => hb P ver) fun _ => ?_
  rw [HReader.alloc_bind_pure]
  exact Sim.allocList .nil fun _ _ => Sim.ret .head rfl

theorem Builds.readClass {hr : HReader HVal} {r : Reader α} {t : Version → α → ObjTree} (hb : Builds hr r t) :
    Builds (HReader.readClass hr) (Genie.readClass r) t := hb

theorem Builds.readClassArray {hr : HReader HVal} {r : Reader α} {t : Version → α → ObjTree} (hb : Builds hr r t) (size : Int) (b : Bool) :
    Builds (HReader.readClassArray hr size b) (Genie.readClassArray r size b) (fun ver l => .list (l.map (t ver))) := hb.readArray size b

theorem Builds.readClassArrayWithParam {hr : Int → HReader HVal} {r : Int → Reader α} {t : Version → α → ObjTree}
    (hb : ∀ n, Builds (hr n) (r n) t) (size n : Int) :
    Builds (HReader.readClassArrayWithParam hr size n) (Genie.readClassArrayWithParam r size n) (fun ver l => .list (l.map (t ver))) :=
  (hb n).readArray size false

theorem Builds.readInt8Array (n : Int) : Builds (HReader.readInt8Array n) (Genie.readInt8Array n) (fun _ l => .list (l.map .int)) :=
  (Builds.int readInt8).readArray n false
theorem Builds.readInt16Array (n : Int) : Builds (HReader.readInt16Array n) (Genie.readInt16Array n) (fun _ l => .list (l.map .int)) :=
  (Builds.int readInt16).readArray n false
theorem Builds.readInt32Array (n : Int) : Builds (HReader.readInt32Array n) (Genie.readInt32Array n) (fun _ l => .list (l.map .int)) :=
  (Builds.int readInt32).readArray n false
theorem Builds.readFloatArray (n : Int) : Builds (HReader.readFloatArray n) (Genie.readFloatArray n) (fun _ l => .list (l.map .float)) :=
  (Builds.float readFloat).readArray n false

/-- Find a local variable. -/
syntax "remove_tac" : tactic
macro_rules | `(tactic| remove_tac) => `(tactic| first | exact Remove.head | (apply Remove.tail; remove_tac))

/-- Items from local variables. -/
macro "items_tac" : tactic => `(tactic| repeat first
  | exact ItemsFrom.nil | apply ItemsFrom.int | apply ItemsFrom.float | (apply ItemsFrom.obj; remove_tac))

/-- Attributes from local variables. -/
macro "attrs_tac" : tactic => `(tactic| repeat first
  | exact AttrsFrom.nil | apply AttrsFrom.int | apply AttrsFrom.float | apply AttrsFrom.str | apply AttrsFrom.none
  | (apply AttrsFrom.obj; remove_tac))

/-- A tuple of what is read one after the other. -/
macro "tuple_tac" l:term : tactic => `(tactic| (
  intro P ver
  repeat refine Sim.object $l fun _ _ _ => ?_
  apply Sim.retTuple rfl
  items_tac))

theorem Builds.readInt8Array2 : Builds HReader.readInt8Array2 Genie.readInt8Array2 (fun _ l => .tuple (l.map .int)) := by
  tuple_tac (Builds.int _)
theorem Builds.readInt8Array3 : Builds HReader.readInt8Array3 Genie.readInt8Array3 (fun _ l => .tuple (l.map .int)) := by
  tuple_tac (Builds.int _)
theorem Builds.readInt8Array5 : Builds HReader.readInt8Array5 Genie.readInt8Array5 (fun _ l => .tuple (l.map .int)) := by
  tuple_tac (Builds.int _)
theorem Builds.readInt8Array10 : Builds HReader.readInt8Array10 Genie.readInt8Array10 (fun _ l => .tuple (l.map .int)) := by
  tuple_tac (Builds.int _)
theorem Builds.readInt16Array2 : Builds HReader.readInt16Array2 Genie.readInt16Array2 (fun _ l => .tuple (l.map .int)) := by
  tuple_tac (Builds.int _)
theorem Builds.readInt16Array4 : Builds HReader.readInt16Array4 Genie.readInt16Array4 (fun _ l => .tuple (l.map .int)) := by
  tuple_tac (Builds.int _)
theorem Builds.readInt16Array6 : Builds HReader.readInt16Array6 Genie.readInt16Array6 (fun _ l => .tuple (l.map .int)) := by
  tuple_tac (Builds.int _)
theorem Builds.readInt32Array10 : Builds HReader.readInt32Array10 Genie.readInt32Array10 (fun _ l => .tuple (l.map .int)) := by
  tuple_tac (Builds.int _)
theorem Builds.readFloatArray3 : Builds HReader.readFloatArray3 Genie.readFloatArray3 (fun _ l => .tuple (l.map .float)) := by
  tuple_tac (Builds.float _)
theorem Builds.readClassArray3 {hr : HReader HVal} {r : Reader α} {t : Version → α → ObjTree} (hb : Builds hr r t) :
    Builds (HReader.readClassArray3 hr) (Genie.readClassArray3 r) (fun ver l => .tuple (l.map (t ver))) := by
  tuple_tac hb
theorem Builds.readClassArray4 {hr : HReader HVal} {r : Reader α} {t : Version → α → ObjTree} (hb : Builds hr r t) :
    Builds (HReader.readClassArray4 hr) (Genie.readClassArray4 r) (fun ver l => .tuple (l.map (t ver))) := by
  tuple_tac hb

end Genie
