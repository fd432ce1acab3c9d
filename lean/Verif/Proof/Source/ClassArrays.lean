import Verif.Proof.Source.Tuples
/-!
# The source of the readers of instances of `ByteHandler` does what the model says
-/

namespace Genie.Src

/-- `c.from_bytes(content)`, with at least `d` calls allowed inside each other, does what `build` does. -/
def ReadsAs (d : Nat) (c : Name) (build : HReader HVal) : Prop :=
  ∀ n, d ≤ n → Same PVal.h (callN n (.cls c) c n!"from_bytes" ⟨[.handler], []⟩) build

/-- `read_class` — `/repo/src/genieutils/common.py:240-242`. -/
theorem read_class {d : Nat} {c : Name} {build : HReader HVal} (h : ReadsAs d c build) {n : Nat} (hn : d + 1 ≤ n) :
    Same PVal.h (callN n .handler n!"ByteHandler" n!"read_class" ⟨[.cls c], []⟩) (HReader.readClass build) := by
  call_fun
  unfold HReader.readClass
  refine Same.map (χ := Flow.ret) (h _ (by omega)) fun b => ?_
  rfl

/-- `read_class_array_3` — `/repo/src/genieutils/common.py:251-255`. -/
theorem read_class_array_3 {d : Nat} {c : Name} {build : HReader HVal} (h : ReadsAs d c build) {n : Nat} (hn : d + 1 ≤ n) :
    Same PVal.h (callN n .handler n!"ByteHandler" n!"read_class_array_3" ⟨[.cls c], []⟩) (HReader.readClassArray3 build) := by
  call_fun
  refine Same.bind (h _ (by omega)) fun _ => ?_
  peel
  refine Same.bind (h _ (by omega)) fun _ => ?_
  peel
  refine Same.bind (h _ (by omega)) fun _ => ?_
  peel
  exact (Same.allocH rfl).tail _

/-- `read_class_array_4` — `/repo/src/genieutils/common.py:257-262`. -/
theorem read_class_array_4 {d : Nat} {c : Name} {build : HReader HVal} (h : ReadsAs d c build) {n : Nat} (hn : d + 1 ≤ n) :
    Same PVal.h (callN n .handler n!"ByteHandler" n!"read_class_array_4" ⟨[.cls c], []⟩) (HReader.readClassArray4 build) := by
  call_fun
  refine Same.bind (h _ (by omega)) fun _ => ?_
  peel
  refine Same.bind (h _ (by omega)) fun _ => ?_
  peel
  refine Same.bind (h _ (by omega)) fun _ => ?_
  peel
  refine Same.bind (h _ (by omega)) fun _ => ?_
  peel
  exact (Same.allocH rfl).tail _

/-- The local variables in a loop: those before it, and in later rounds `i` and another one. -/
def LoopEnv (ρ0 : Env) (x : Name) (ρ : Env) : Prop := ρ = ρ0 ∨ ∃ i e, ρ = ρ0 ++ [(n!"i", i), (x, e)]

/-- `read_class_array` — `/repo/src/genieutils/common.py:244-249`. -/
theorem read_class_array {d : Nat} {c : Name} {build : HReader HVal} (h : ReadsAs d c build) {n : Nat} (hd : 1 ≤ d) (hn : d + 1 ≤ n) (k : Int)
    (stored : Bool) :
    Same PVal.h (callN n .handler n!"ByteHandler" n!"read_class_array" ⟨[.cls c, .h (.int k)], []⟩) (HReader.readClassArray build k stored) := by
  call_fun
  refine Same.ghost ?_
  refine Same.bind (Same.allocH rfl) fun v => ?_
  peel
  refine SameNext.bind (I := LoopEnv _ n!"element")
    (SameNext.loop (L := fun _ n => HReader.appendLoop v build n) (step := fun _ => fillStep v build) (fun _ => rfl)
      (fun _ n => appendLoop_succ v build n) ?_ _ 0 _ (Or.inl rfl)) ?_
  · intro i ρ hρ
    refine SameNext.of (φ := fun e => _ ++ [(n!"i", ofInt i), (n!"element", PVal.h e)]) ?_ (fun _ => Or.inr ⟨_, _, rfl⟩)
    rcases hρ with rfl | ⟨j, e, rfl⟩
    · peel
      refine Same.bind (h _ (by omega)) fun e => ?_
      peel
      refine Same.bind (Same.append (by omega) v e) fun _ => ?_
      peel
      exact Same.done e
    · peel
      refine Same.bind (h _ (by omega)) fun e => ?_
      peel
      refine Same.bind (Same.append (by omega) v e) fun _ => ?_
      peel
      exact Same.done e
  · intro ρ _ hρ
    rcases hρ with rfl | ⟨j, e, rfl⟩
    · peel
      exact Same.done _
    · peel
      exact Same.done _

/-- `read_class_array_with_param` — `/repo/src/genieutils/common.py:273-278`. -/
theorem read_class_array_with_param {d : Nat} {c : Name} {build : Int → HReader HVal}
    (h : ∀ n, d ≤ n → ∀ p, Same PVal.h (callN n (.cls c) c n!"from_bytes_with_count" ⟨[.handler, .h (.int p)], []⟩) (build p)) {n : Nat}
    (hd : 1 ≤ d) (hn : d + 1 ≤ n) (k p : Int) :
    Same PVal.h (callN n .handler n!"ByteHandler" n!"read_class_array_with_param" ⟨[.cls c, .h (.int k), .h (.int p)], []⟩)
      (HReader.readClassArrayWithParam build k p) := by
  call_fun
  refine Same.ghost ?_
  refine Same.bind (Same.allocH rfl) fun v => ?_
  peel
  refine SameNext.bind (I := LoopEnv _ n!"terrain_restriction")
    (SameNext.loop (L := fun _ n => HReader.appendLoop v (build p) n) (step := fun _ => fillStep v (build p)) (fun _ => rfl)
      (fun _ n => appendLoop_succ v (build p) n) ?_ _ 0 _ (Or.inl rfl)) ?_
  · intro i ρ hρ
    refine SameNext.of (φ := fun e => _ ++ [(n!"i", ofInt i), (n!"terrain_restriction", PVal.h e)]) ?_ (fun _ => Or.inr ⟨_, _, rfl⟩)
    rcases hρ with rfl | ⟨j, e, rfl⟩
    · peel
      refine Same.bind (h _ (by omega) _) fun e => ?_
      peel
      refine Same.bind (Same.append (by omega) v e) fun _ => ?_
      peel
      exact Same.done e
    · peel
      refine Same.bind (h _ (by omega) _) fun e => ?_
      peel
      refine Same.bind (Same.append (by omega) v e) fun _ => ?_
      peel
      exact Same.done e
  · intro ρ _ hρ
    rcases hρ with rfl | ⟨j, e, rfl⟩
    · peel
      exact Same.done _
    · peel
      exact Same.done _

/-- A look at the objects. -/
theorem Same.look (f : Heap → Py α) : Same id (Src.heapM f) (HReader.look f) := by
  intro H s t hs
  unfold HReader.look
  cases hf : f H with
  | error e => simp only [hf]; simp [Src.heapM, hf]
  | ok a => simp only [hf]; exact ⟨s, hs, by simp [Src.heapM, hf]⟩

/-- `v[i]`. -/
theorem Same.item (v : HVal) (i : Nat) :
    Same PVal.h (Src.andThen (Src.heapM fun H => W.item H (.ok v) i) fun w => Src.done (.h w)) (HReader.item v i) :=
  (Same.look _).tail _

/-- `bool(v)`. -/
theorem Same.truth (v : HVal) : Same id (truth (.h v)) (HReader.truthy v) := by
  intro H s t hs
  cases v <;> exact ⟨s, hs, rfl⟩

/-- One round of the loop of `read_class_array_with_pointers`. -/
def pointersStep (v : HVal) (build : HReader HVal) (ps : HVal) (i : Nat) : HReader HVal := do
  let p ← HReader.item ps i
  HReader.lift (noteLossy (decide (p ≠ .int 0 ∧ p ≠ .int 1)))
  let t ← HReader.truthy p
  let element ← HReader.readIf (t = true) build
  HReader.append v element
  pure element

theorem pointersLoop_succ (v : HVal) (build : HReader HVal) (ps : HVal) (i n : Nat) :
    HReader.pointersLoop v build ps i (n + 1) = (pointersStep v build ps i >>= fun _ => HReader.pointersLoop v build ps (i + 1) n) := by
  unfold pointersStep
  simp only [bind_assoc', pure_bind']
  rfl

/-- `v[i]`. -/
theorem Same.index (v : HVal) (i : Nat) : Same PVal.h (indexM (.h v) (ofInt i)) (HReader.item v i) := by
  have : indexM (.h v) (ofInt i) = Src.andThen (Src.heapM fun H => W.item H (.ok v) i) fun w => Src.done (.h w) := by
    unfold indexM
    dsimp only
    rw [if_neg (by omega)]
    rfl
  rw [this]
  exact Same.item v i

/-- `x = None`, `if c: x = r()`. -/
theorem Same.readIf {φ : HVal → β} {c : Bool} {p : Prop} [Decidable p] {a b : M β} {r : HReader HVal} (hc : c = decide p) (ha : Same φ a r)
    (hb : b = Src.done (φ .none)) : Same φ (Src.branch c a b) (HReader.readIf p r) := by
  unfold HReader.readIf
  refine Same.branch hc (fun _ => ha) fun _ => ?_
  rw [hb]
  exact Same.done _

/-- The local variables in the loop of `read_class_array_with_pointers`. -/
abbrev pointersEnv (c : Name) (k : Int) (ps v : HVal) (i : Nat) (e : PVal) : Env :=
  [(n!"self", PVal.handler), (n!"class_", .cls c), (n!"size", ofInt k), (n!"pointers", .h ps), (n!"elements", .h v), (n!"i", ofInt i), (n!"element", e)]

/-- `read_class_array_with_pointers` — `/repo/src/genieutils/common.py:264-271`. -/
theorem read_class_array_with_pointers {d : Nat} {c : Name} {build : HReader HVal} (h : ReadsAs d c build) {n : Nat} (hd : 1 ≤ d)
    (hn : d + 1 ≤ n) (k : Int) (ps : HVal) :
    Same PVal.h (callN n .handler n!"ByteHandler" n!"read_class_array_with_pointers" ⟨[.cls c, .h (.int k), .h ps], []⟩)
      (HReader.readClassArrayWithPointers build k ps) := by
  call_fun
  refine Same.bind (Same.allocH rfl) fun v => ?_
  peel
  refine SameNext.bind (I := LoopEnv _ n!"element")
    (SameNext.loop (L := fun i n => HReader.pointersLoop v build ps i n) (step := pointersStep v build ps) (fun _ => rfl)
      (fun _ n => pointersLoop_succ v build ps _ n) ?_ _ 0 _ (Or.inl rfl)) ?_
  · intro i ρ hρ
    refine SameNext.of (φ := fun e => _ ++ [(n!"i", ofInt i), (n!"element", PVal.h e)]) ?_ (fun _ => Or.inr ⟨_, _, rfl⟩)
    rcases hρ with rfl | ⟨j, e, rfl⟩
    · peel
      refine Same.bind (Same.index ps i) fun p => ?_
      refine Same.ghost ?_
      peel
      refine Same.bind (Same.truth p) fun t => ?_
      peel
      refine Same.bind (φ := fun e => Flow.next (pointersEnv c k ps v i (.h e))) (Same.readIf (by simp) ?_ rfl) fun e => ?_
      · peel
        exact Same.map (χ := fun e => Flow.next (pointersEnv c k ps v i e)) (h _ (by omega)) fun b => rfl
      peel
      refine Same.bind (Same.append (by omega) v e) fun _ => ?_
      peel
      exact Same.done e
    · peel
      refine Same.bind (Same.index ps i) fun p => ?_
      refine Same.ghost ?_
      peel
      refine Same.bind (Same.truth p) fun t => ?_
      peel
      refine Same.bind (φ := fun e => Flow.next (pointersEnv c k ps v i (.h e))) (Same.readIf (by simp) ?_ rfl) fun e => ?_
      · peel
        exact Same.map (χ := fun e => Flow.next (pointersEnv c k ps v i e)) (h _ (by omega)) fun b => rfl
      peel
      refine Same.bind (Same.append (by omega) v e) fun _ => ?_
      peel
      exact Same.done e
  · intro ρ _ hρ
    rcases hρ with rfl | ⟨j, e, rfl⟩
    · peel
      exact Same.done _
    · peel
      exact Same.done _

end Genie.Src
