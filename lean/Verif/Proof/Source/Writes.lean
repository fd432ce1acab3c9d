import Verif.Proof.Source.UnitRules
import Verif.Model.HeapWriters
/-!
# Writing, executed from the source

`Wr H s φ f g`: started with the objects `H` and the handler `s`, the interpreted program `f` changes neither and gives what `g` gives (`φ` says
how the interpreter represents it), unless the model runs out of room for nested calls.  (The interpreter counts all calls, the model only the
calls of `to_bytes`.)
-/

namespace Genie.Src

/-- The interpreted program `f` does what `g` does. -/
def Wr (H : Heap) (s : ByteHandler) (φ : α → β) (f : M β) (g : Py α) : Prop :=
  g ≠ .error .recursionError → f H s = match g with
    | .error e => .error e
    | .ok a => .ok (φ a, H, s)

section
variable {H : Heap} {s : ByteHandler}

theorem Wr.bindE {φ : α → β} {ψ : γ → δ} {f : M β} {g : Py α} {k : β → M δ} {k' : α → Py γ} (h : Wr H s φ f g)
    (hk : ∀ a, g = .ok a → Wr H s ψ (k (φ a)) (k' a)) : Wr H s ψ (andThen f k) (g >>= k') := by
  intro hne
  cases g with
  | error e =>
    have h0 := h (fun h => hne (by cases h; rfl))
    show andThen f k H s = .error e
    simp only [andThen, h0]
  | ok a =>
    have h0 := h (by simp)
    have : andThen f k H s = k (φ a) H s := by simp only [andThen, h0]
    rw [this]
    exact hk a rfl hne

theorem Wr.bind {φ : α → β} {ψ : γ → δ} {f : M β} {g : Py α} {k : β → M δ} {k' : α → Py γ} (h : Wr H s φ f g)
    (hk : ∀ a, Wr H s ψ (k (φ a)) (k' a)) : Wr H s ψ (andThen f k) (g >>= k') :=
  h.bindE fun a _ => hk a

theorem Wr.done {φ : α → β} (a : α) : Wr H s φ (Src.done (φ a)) (.ok a) := fun _ => rfl

theorem Wr.done' {φ : α → β} {b : β} {a : α} (h : b = φ a) : Wr H s φ (Src.done b) (.ok a) := by subst h; exact fun _ => rfl

theorem Wr.fail {φ : α → β} (e : PyErr) : Wr H s φ (Src.fail e) (.error e) := fun _ => rfl

theorem Wr.tail {φ : α → β} {f : M β} {g : Py α} (h : Wr H s φ f g) (F : β → γ) : Wr H s (fun a => F (φ a)) (andThen f fun v => Src.done (F v)) g := by
  intro hne
  have h0 := h hne
  cases g with
  | error e => simp only [andThen, h0]
  | ok a => simp only [andThen, h0, Src.done]

theorem Wr.tail' {φ : α → β} {f : M β} {g : Py α} (h : Wr H s φ f g) : Wr H s φ (andThen f Src.done) g := h.tail id

theorem Wr.result {φ : α → PVal} {f : M Flow} {g : Py α} (h : Wr H s (fun a => Flow.ret (φ a)) f g) : Wr H s φ (andThen f result) g := by
  intro hne
  have h0 := h hne
  cases g with
  | error e => simp only [andThen, h0]
  | ok a => simp only [andThen, h0, Src.result, Src.done]

theorem Wr.call {φ : α → PVal} {n : Nat} {r : PVal} {c f : Name} {as : Args} {g : Py α} (hn : 0 < n)
    (h : ∀ m, m + 1 = n → Wr H s φ (run (callN m) r c f as) g) : Wr H s φ (callN n r c f as) g := by
  cases n with
  | zero => omega
  | succ m => exact h m rfl

/-- Enter a function of at most `n` calls inside each other. -/
macro "write_fun" : tactic => `(tactic| (refine Wr.call (by omega) fun m _ => ?_; enter_fun; refine Wr.result ?_; peel))

theorem Wr.assoc {ψ : γ → δ} {f : M α} {g : α → M β} {k : β → M δ} {r : Py γ} (h : Wr H s ψ (andThen f fun a => andThen (g a) k) r) :
    Wr H s ψ (andThen (andThen f g) k) r := by
  rw [andThen_assoc]; exact h

theorem Wr.py (x : Py α) : Wr H s id (pyM x) x := by
  intro _
  cases x <;> rfl

theorem Wr.heapM {f : Heap → Py α} : Wr H s id (Src.heapM f) (f H) := by
  intro _
  unfold Src.heapM
  cases f H <;> rfl

/-- `v.a` for an attribute that no class has as a property. -/
theorem Wr.attr {call : Call} {v : HVal} {a : Name} {n : PyStr} (ha : Name.str a = n) (h : noProperty a classes = true) :
    Wr H s PVal.h (Src.objAttr call v a) (W.attr H v n) := by
  intro _
  subst ha
  unfold Src.objAttr
  rw [noProperty_of h]
  show (match W.attr H v (Name.str a) with | Except.ok w => Except.ok (PVal.h w, H, s) | Except.error e => Except.error e) = _
  cases W.attr H v (Name.str a) <;> rfl

/-- A decision. -/
theorem Wr.branch {φ : α → β} {c : Bool} {a b : M β} {g : Py α} (ha : c = true → Wr H s φ a g) (hb : c = false → Wr H s φ b g) :
    Wr H s φ (Src.branch c a b) g := by
  cases c
  · exact hb rfl
  · exact ha rfl

/-- A decision of the model. -/
theorem Wr.ite {φ : α → β} {c : Bool} {a b : M β} {p : Prop} [Decidable p] {g g' : Py α} (hc : c = decide p)
    (ha : p → Wr H s φ a g) (hb : ¬ p → Wr H s φ b g') : Wr H s φ (Src.branch c a b) (if p then g else g') := by
  subst hc
  by_cases hp : p
  · simp only [hp, if_true, decide_true, Src.branch]; exact ha hp
  · simp only [hp, if_false, decide_false, Src.branch]; exact hb hp

/-- A decision of the model, with what follows. -/
theorem Wr.iteBind {ψ : α → β} {c : Bool} {p : Prop} [Decidable p] {a b : M γ} {k : γ → M β} {g g' : Py α} (hc : c = decide p)
    (ha : p → Wr H s ψ (andThen a k) g) (hb : ¬ p → Wr H s ψ (andThen b k) g') :
    Wr H s ψ (andThen (Src.branch c a b) k) (if p then g else g') := by
  subst hc
  by_cases hp : p
  · simp only [hp, if_true, decide_true, Src.branch]; exact ha hp
  · simp only [hp, if_false, decide_false, Src.branch]; exact hb hp

/-- First something that always succeeds. -/
theorem Wr.pureBind {φ : α → β} {ψ : γ → δ} {f : M β} {a : α} {k : β → M δ} {g : Py γ} (h : Wr H s φ f (.ok a)) (hk : Wr H s ψ (k (φ a)) g) :
    Wr H s ψ (andThen f k) g := by
  intro hne
  have h0 := h (by simp)
  have : andThen f k H s = k (φ a) H s := by simp only [andThen, h0]
  rw [this]
  exact hk hne

/-- What follows gives the same value. -/
theorem Wr.mapOk {φ : α → β} {ψ : α → δ} {f : M β} {g : Py α} {k : β → M δ} (h : Wr H s φ f g) (hk : ∀ a, Wr H s ψ (k (φ a)) (.ok a)) :
    Wr H s ψ (andThen f k) g := by
  have e : (g >>= fun a => .ok a) = g := by cases g <;> rfl
  rw [← e]
  exact h.bind hk

/-! ## concatenations -/

/-- `b''.join` of the elements that are known (the last one first) and those that are to come. -/
def joinA (acc : List Bytes) : List (Py Bytes) → Py Bytes
  | [] => .ok acc.reverse.flatten
  | w :: ws => w >>= fun b => joinA (b :: acc) ws

theorem joinA_eq : ∀ (ws : List (Py Bytes)) (acc : List Bytes),
    joinA acc ws = match joinB ws with
      | .error e => .error e
      | .ok b => .ok (acc.reverse.flatten ++ b)
  | [], acc => by simp [joinA, joinB]
  | .error e :: ws, acc => rfl
  | .ok b :: ws, acc => by
    have : joinA acc (.ok b :: ws) = joinA (b :: acc) ws := rfl
    rw [this, joinA_eq ws]
    cases h : joinB ws with
    | error e => simp [joinB, h]
    | ok bs => simp [joinB, h]

theorem joinB_eq (ws : List (Py Bytes)) : joinB ws = joinA [] ws := by
  rw [joinA_eq]
  cases joinB ws <;> simp

/-- Begin with the elements of `b''.join`. -/
theorem Wr.join {φ : Bytes → β} {f : M β} {ws : List (Py Bytes)} (h : Wr H s φ f (joinA [] ws)) : Wr H s φ f (joinB ws) := by
  rw [joinB_eq]; exact h

/-- The next element is known. -/
theorem Wr.elem {ψ : Bytes → δ} {f : M PVal} {g : Py Bytes} {k : PVal → M δ} {acc : List Bytes} {ws : List (Py Bytes)} (h : Wr H s PVal.bytes f g)
    (hk : ∀ b, Wr H s ψ (k (.bytes b)) (joinA (b :: acc) ws)) : Wr H s ψ (andThen f k) (joinA acc (g :: ws)) :=
  Wr.bind (k' := fun b => joinA (b :: acc) ws) h hk

/-- An element that is a `b''.join` itself. -/
theorem Wr.nested {ψ : Bytes → δ} {f : M δ} {acc : List Bytes} {vs ws : List (Py Bytes)} (h : Wr H s ψ f (joinA acc (vs ++ ws))) :
    Wr H s ψ f (joinA acc (joinB vs :: ws)) := by
  have e : joinA acc (joinB vs :: ws) = joinA acc (vs ++ ws) := by
    have : ∀ vs ws, joinB (vs ++ ws) = joinB (joinB vs :: ws) := by
      intro vs ws
      induction vs with
      | nil => simp only [List.nil_append, joinB]; cases joinB ws <;> simp
      | cons v vs ih =>
        cases v with
        | error e => rfl
        | ok b =>
          have e1 : joinB ((.ok b :: vs) ++ ws) = match joinB (vs ++ ws) with
            | .error e => .error e
            | .ok bs => .ok (b ++ bs) := rfl
          rw [e1, ih]
          simp only [joinB]
          cases joinB vs with
          | error e => rfl
          | ok x => simp only []; cases joinB ws <;> simp
    rw [joinA_eq, joinA_eq, this]
  rw [e]; exact h

/-- An argument of a function whose result is used. -/
theorem Wr.argBind {w : Py α → Py γ} {φ : α → β} {ψ : ε → δ} {f : M β} {o : Py α} {k : β → M δ} {K : γ → Py ε}
    (hw : ∀ o, w o = o >>= fun a => w (.ok a)) (ho : Wr H s φ f o) (hk : ∀ a, Wr H s ψ (k (φ a)) (w (.ok a) >>= K)) :
    Wr H s ψ (andThen f k) (w o >>= K) := by
  rw [hw o]
  have e : (o >>= fun a => w (.ok a)) >>= K = o >>= fun a => w (.ok a) >>= K := by cases o <;> rfl
  rw [e]
  exact ho.bind hk

/-- An argument of an element of `b''.join`. -/
theorem Wr.arg {w : Py α → Py Bytes} {φ : α → β} {ψ : Bytes → δ} {f : M β} {o : Py α} {k : β → M δ} {acc : List Bytes} {ws : List (Py Bytes)}
    (hw : ∀ o, w o = o >>= fun a => w (.ok a)) (ho : Wr H s φ f o) (hk : ∀ a, Wr H s ψ (k (φ a)) (joinA acc (w (.ok a) :: ws))) :
    Wr H s ψ (andThen f k) (joinA acc (w o :: ws)) :=
  Wr.argBind (K := fun b => joinA (b :: acc) ws) hw ho hk

end

/-! ## instances -/

/-- Every instance among the objects is of one of the record classes. -/
def Known (H : Heap) : Prop := ∀ (a : Nat) c attrs, H[a]? = some (Cell.record c attrs) → c ∈ W.methods.map (·.1)

/-- `self` is an instance of the class named `c`. -/
def IsA (H : Heap) (self : HVal) (c : Name) : Prop :=
  ∃ name attrs, W.cell H self = some (Cell.record name attrs) ∧ Name.ofStr name = c

/-- A call of a method of an instance. -/
theorem Wr.method {H : Heap} {s : ByteHandler} {φ : α → PVal} {call : Call} {self : HVal} {c f : Name} {as : Args} {g : Py α} (hi : IsA H self c)
    (h : Wr H s φ (call (.h self) c f as) g) : Wr H s φ (objMethod call self f as) g := by
  intro hne
  obtain ⟨name, attrs, hc, hn⟩ := hi
  have := h hne
  unfold objMethod
  rw [hc]
  subst hn
  exact this

/-- The methods of `GenieClass` that no class overrides. -/
def baseNames : List Name :=
  [n!"write_debug_string", n!"write_string", n!"write_int_8", n!"write_int_8_array", n!"write_int_16", n!"write_int_16_array", n!"write_int_32",
    n!"write_int_32_array", n!"write_float", n!"write_float_array", n!"write_class", n!"write_class_array"]

/-- A record class: it has the methods of `GenieClass`. -/
def IsGenie (c : Name) : Prop := ∀ f ∈ baseNames, method c f = method n!"GenieClass" f

/-- Decides whether a class has the methods of `GenieClass`. -/
def isGenieB (c : Name) : Bool :=
  match findCls c classes with
  | none => false
  | some d => Nat.beq d.base n!"GenieClass" && baseNames.all fun f => (findFun f d.funs).isNone

theorem IsGenie.of {c : Name} (h : isGenieB c = true) : IsGenie c := by
  intro f hf
  unfold isGenieB at h
  cases hc : findCls c classes with
  | none => rw [hc] at h; cases h
  | some d =>
    rw [hc] at h
    simp only [Bool.and_eq_true, List.all_eq_true] at h
    have h1 := h.2 f hf
    rw [Option.isNone_iff_eq_none] at h1
    have h2 : d.base = n!"GenieClass" := Nat.eq_of_beq_eq_true h.1
    unfold method
    rw [hc]
    dsimp only
    rw [h1, h2]
    dsimp only
    have h3 : findCls n!"GenieClass" classes = some GenieClass.src := rfl
    rw [h3]
    dsimp only
    simp only [baseNames, List.mem_cons, List.not_mem_nil, or_false] at hf
    rcases hf with rfl | rfl | rfl | rfl | rfl | rfl | rfl | rfl | rfl | rfl | rfl | rfl <;> rfl

theorem run_base {call : Call} {self : PVal} {c f : Name} {as : Args} (hg : IsGenie c) (hf : f ∈ baseNames) :
    run call self c f as = run call self n!"GenieClass" f as := by
  have h := hg f hf
  unfold run
  rw [h]
  simp only [baseNames, List.mem_cons, List.not_mem_nil, or_false] at hf
  rcases hf with rfl | rfl | rfl | rfl | rfl | rfl | rfl | rfl | rfl | rfl | rfl | rfl <;> rfl

/-- A call of a method that is inherited from `GenieClass`. -/
theorem Wr.base {H : Heap} {s : ByteHandler} {φ : α → PVal} {n : Nat} {self : HVal} {c f : Name} {as : Args} {g : Py α} (hi : IsA H self c)
    (hg : IsGenie c) (hf : f ∈ baseNames) (h : Wr H s φ (callN n (.h self) n!"GenieClass" f as) g) :
    Wr H s φ (objMethod (callN n) self f as) g := by
  refine Wr.method hi ?_
  cases n with
  | zero => exact h
  | succ n =>
    have e : callN (n + 1) (.h self) c f as = callN (n + 1) (.h self) n!"GenieClass" f as := run_base hg hf
    rw [e]
    exact h

end Genie.Src
