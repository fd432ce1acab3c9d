import Verif.Proof.Source.Peel
/-!
# Two programs that do the same

`Same φ f g`: the interpreted program `f` and the modelled program `g` raise the same exceptions, and otherwise give the same result (`φ`
says how `f` represents it), the same objects and the same state of the handler — up to the ghost field `lossy`, which only the model has.
-/

namespace Genie.Src

/-- The same handler, up to the ghost field. -/
structure Like (s t : ByteHandler) : Prop where
  content : s.content = t.content
  offset : s.offset = t.offset
  version : s.version = t.version

theorem Like.refl (s : ByteHandler) : Like s s := ⟨rfl, rfl, rfl⟩

/-- The two programs do the same. -/
def Same (φ : α → β) (f : M β) (g : HReader α) : Prop :=
  ∀ H s t, Like s t →
    match g H t with
    | .error e => f H s = .error e
    | .ok (a, H', t') => ∃ s', Like s' t' ∧ f H s = .ok (φ a, H', s')

theorem Same.bindP {φ : α → β} {ψ : γ → δ} {f : M β} {g : HReader α} {k : β → M δ} {k' : α → HReader γ} {P : α → Prop}
    (h : Same φ f g) (hP : ∀ H t a H' t', g H t = .ok (a, H', t') → P a) (hk : ∀ a, P a → Same ψ (k (φ a)) (k' a)) :
    Same ψ (andThen f k) (g >>= k') := by
  intro H s t hs
  have h0 := h H s t hs
  have e : (g >>= k') H t = match g H t with
      | .error e => .error e
      | .ok (a, H', s') => k' a H' s' := rfl
  rw [e]
  cases hg : g H t with
  | error e =>
    rw [hg] at h0
    simp only [andThen, h0]
  | ok r =>
    obtain ⟨a, H', t'⟩ := r
    rw [hg] at h0
    obtain ⟨s', hs', hf⟩ := h0
    have := hk a (hP _ _ _ _ _ hg) H' s' t' hs'
    simp only [andThen, hf]
    exact this

theorem Same.bind {φ : α → β} {ψ : γ → δ} {f : M β} {g : HReader α} {k : β → M δ} {k' : α → HReader γ}
    (h : Same φ f g) (hk : ∀ a, Same ψ (k (φ a)) (k' a)) : Same ψ (andThen f k) (g >>= k') :=
  h.bindP (P := fun _ => True) (fun _ _ _ _ _ _ => trivial) fun a _ => hk a

theorem Same.done {φ : α → β} (a : α) : Same φ (done (φ a)) (pure a) := fun _ s _ hs => ⟨s, hs, rfl⟩

theorem Same.fail {φ : α → β} (e : PyErr) : Same φ (fail e) (HReader.raise e) := fun _ _ _ _ => rfl

/-- A result that is passed on. -/
theorem Same.tail {φ : α → β} {f : M β} {g : HReader α} (h : Same φ f g) (F : β → γ) : Same (fun a => F (φ a)) (andThen f fun v => Src.done (F v)) g := by
  intro H s t hs
  have h0 := h H s t hs
  cases hg : g H t with
  | error e => rw [hg] at h0; simp only [andThen, h0]
  | ok r =>
    obtain ⟨a, H', t'⟩ := r
    rw [hg] at h0
    obtain ⟨s', hs', hf⟩ := h0
    exact ⟨s', hs', by simp only [andThen, hf, Src.done]⟩

/-- A result that is passed on as it is. -/
theorem Same.tail' {φ : α → β} {f : M β} {g : HReader α} (h : Same φ f g) : Same φ (andThen f Src.done) g := h.tail id

theorem Same.map {φ : α → β} {χ : β → γ} {f : M β} {g : HReader α} {k : β → M γ} (h : Same φ f g) (hk : ∀ b, k b = Src.done (χ b)) :
    Same (fun a => χ (φ a)) (andThen f k) g := by
  have : k = fun b => Src.done (χ b) := funext hk
  rw [this]
  exact h.tail χ

/-- Ghost bookkeeping on the right. -/
theorem Same.ghost {φ : α → β} {f : M β} {g : PUnit → HReader α} {b : Bool} (h : Same φ f (g ⟨⟩)) :
    Same φ f (HReader.lift (noteLossy b) >>= g) := fun H s t hs => h H s _ ⟨hs.content, hs.offset, hs.version⟩

/-- The function ends with the result of its body. -/
theorem Same.result {φ : α → PVal} {f : M Flow} {g : HReader α} (h : Same (fun a => Flow.ret (φ a)) f g) : Same φ (andThen f result) g := by
  intro H s t hs
  have h0 := h H s t hs
  cases hg : g H t with
  | error e => rw [hg] at h0; simp only [andThen, h0]
  | ok r =>
    obtain ⟨a, H', t'⟩ := r
    rw [hg] at h0
    obtain ⟨s', hs', hf⟩ := h0
    exact ⟨s', hs', by simp only [andThen, hf, Src.result, Src.done]⟩

theorem Same.version : Same PVal.version (handlerAttr n!"version") (HReader.lift getVersion) := by
  intro H s t hs
  exact ⟨s, hs, by rw [← hs.version]; rfl⟩

theorem Same.alloc (c : Cell) : Same id (HReader.alloc c) (HReader.alloc c) := fun H s _ hs => ⟨s, hs, rfl⟩

/-- A new object. -/
theorem Same.allocH {c c' : Cell} (h : c = c') : Same PVal.h (andThen (HReader.alloc c) fun v => Src.done (.h v)) (HReader.alloc c') := by
  subst h
  exact (Same.alloc c).tail _

/-- A function of the heap. -/
theorem Same.heapM (f : Heap → Py α) : Same id (heapM f) (fun H s => match f H with | .ok a => .ok (a, H, s) | .error e => .error e) := by
  intro H s t hs
  cases hf : f H with
  | error e => simp only [hf]; simp [Src.heapM, hf]
  | ok a => simp only [hf]; exact ⟨s, hs, by simp [Src.heapM, hf]⟩

/-- A decision. -/
theorem Same.branch {φ : α → β} {c : Bool} {a b : M β} {p : Prop} [Decidable p] {g g' : HReader α} (hc : c = decide p)
    (ha : p → Same φ a g) (hb : ¬ p → Same φ b g') : Same φ (branch c a b) (if p then g else g') := by
  subst hc
  by_cases hp : p
  · simp only [hp, if_true, decide_true, Src.branch]; exact ha hp
  · simp only [hp, if_false, decide_false, Src.branch]; exact hb hp

theorem callN_succ (n : Nat) (r : PVal) (c f : Name) (as : Args) : callN (n + 1) r c f as = run (callN n) r c f as := rfl

/-- A call. -/
theorem Same.call {φ : α → PVal} {n : Nat} {r : PVal} {c f : Name} {as : Args} {g : HReader α} (hn : 0 < n)
    (h : ∀ m, m + 1 = n → Same φ (run (callN m) r c f as) g) : Same φ (callN n r c f as) g := by
  cases n with
  | zero => omega
  | succ m => exact h m rfl

end Genie.Src
