import Verif.Proof.Source.Unpack
/-!
# Decisions in the source
-/

namespace Genie.Src

/-- `v >= w` — `/repo/src/genieutils/versions.py:26-27`. -/
theorem version_ge {n : Nat} (hn : 1 ≤ n) (v w : Version) :
    Same PVal.bool (callN n (.version v) n!"Version" n!"__ge__" ⟨[.version w], []⟩) (pure (v.ge w)) := by
  call_fun
  exact Same.done _

/-- `v > w` — `/repo/src/genieutils/versions.py:23-24`. -/
theorem version_gt {n : Nat} (hn : 1 ≤ n) (v w : Version) :
    Same PVal.bool (callN n (.version v) n!"Version" n!"__gt__" ⟨[.version w], []⟩) (pure (v.gt w)) := by
  call_fun
  exact Same.done _

/-- First something that has no effect in the model. -/
theorem Same.pureBind {φ : α → β} {ψ : γ → δ} {f : M β} {a : α} {k : β → M δ} {g : HReader γ} (h : Same φ f (pure a))
    (hk : Same ψ (k (φ a)) g) : Same ψ (Src.andThen f k) g := by
  intro H s t hs
  have h0 := h H s t hs
  obtain ⟨s', hs', hf⟩ : ∃ s', Like s' t ∧ f H s = .ok (φ a, H, s') := h0
  have := hk H s' t hs'
  simp only [Src.andThen, hf]
  exact this

/-- `if c: … return …`. -/
theorem Same.iteBind {ψ : α → β} {c : Bool} {p : Prop} [Decidable p] {a b : M γ} {k : γ → M β} {g g' : HReader α} (hc : c = decide p)
    (ha : p → Same ψ (Src.andThen a k) g) (hb : ¬ p → Same ψ (Src.andThen b k) g') :
    Same ψ (Src.andThen (Src.branch c a b) k) (if p then g else g') := by
  subst hc
  by_cases hp : p
  · simp only [hp, if_true, decide_true, Src.branch]; exact ha hp
  · simp only [hp, if_false, decide_false, Src.branch]; exact hb hp

/-- A decision whose outcome is known. -/
theorem Same.branchTrue {ψ : α → β} {c : Bool} {a b : M γ} {k : γ → M β} {g : HReader α} (hc : c = true) (ha : Same ψ (Src.andThen a k) g) :
    Same ψ (Src.andThen (Src.branch c a b) k) g := by
  subst hc; exact ha

theorem Same.branchFalse {ψ : α → β} {c : Bool} {a b : M γ} {k : γ → M β} {g : HReader α} (hc : c = false) (hb : Same ψ (Src.andThen b k) g) :
    Same ψ (Src.andThen (Src.branch c a b) k) g := by
  subst hc; exact hb

theorem reread (c : Version → Prop) [∀ v, Decidable (c v)] (A : HReader α) (g : Version → HReader α) :
    (HReader.lift getVersion >>= fun v => if c v then A else g v) =
      (HReader.lift getVersion >>= fun v => if c v then A else HReader.lift getVersion >>= g) := by
  funext H s
  show (if c s.version then A else g s.version) H s = (if c s.version then A else HReader.lift getVersion >>= g) H s
  split <;> rfl

theorem setK_andThen (x : Name) (v : PVal) (k' : α → M β) : ∀ (ρ : Env) (k : Env → M α),
    andThen (setK x v ρ k) k' = setK x v ρ fun ρ' => andThen (k ρ') k'
  | [], _ => rfl
  | (y, w) :: ρ, k => by
    unfold setK
    split
    · rfl
    · exact setK_andThen x v k' ρ _

theorem andThen_assoc (f : M α) (g : α → M β) (k : β → M γ) : andThen (andThen f g) k = andThen f fun a => andThen (g a) k := by
  funext H s
  unfold andThen
  cases f H s <;> rfl

theorem Same.assoc {ψ : γ → δ} {f : M α} {g : α → M β} {k : β → M δ} {r : HReader γ} (h : Same ψ (Src.andThen f fun a => Src.andThen (g a) k) r) :
    Same ψ (Src.andThen (Src.andThen f g) k) r := by
  rw [andThen_assoc]; exact h

/-- `return f(…)`. -/
theorem Same.ret {φ : α → PVal} {f : M PVal} {g : HReader α} {k : Env → M Flow} (h : Same φ f g) :
    Same (fun a => Flow.ret (φ a)) (Src.andThen (Src.andThen f fun v => Src.done (Flow.ret v)) fun fl => after fl k) g := by
  rw [andThen_assoc]
  exact h.map fun b => rfl

/-- `x = None`, …, `if c: x = e`. -/
theorem Same.ifRead {ψ : α → Flow} {call : Call} {m x : Name} {e : Ex} {ρ : Env} {k : Env → M Flow} {c : Bool} {p : Prop} [Decidable p]
    {f : M PVal} {r : HReader HVal} {k' : HVal → HReader α} (hc : c = decide p) (he : ∀ k2 : PVal → M Flow, eval call m e ρ k2 = Src.andThen f k2)
    (hf : Same PVal.h f r) (hρ : ∀ k : Env → M Flow, setK x (.h .none) ρ k = k ρ) (hk : ∀ v, Same ψ (setK x (.h v) ρ k) (k' v)) :
    Same ψ (Src.andThen (Src.branch c (exec call m (.assign x e .done) ρ) (exec call m .done ρ)) fun fl => after fl k)
      (HReader.readIf p r >>= k') := by
  subst hc
  unfold HReader.readIf
  by_cases hp : p
  · simp only [hp, if_true, decide_true, Src.branch]
    have e1 : exec call m (.assign x e .done) ρ = eval call m e ρ fun v => setK x v ρ (exec call m .done) := rfl
    rw [e1, he, andThen_assoc]
    refine Same.bind hf fun v => ?_
    rw [setK_andThen]
    exact hk v
  · simp only [hp, if_false, decide_false, Src.branch]
    have := hk .none
    rw [hρ] at this
    exact this

/-- `x = d`, …, `if c: x = e`. -/
theorem Same.ifReadOr {ψ : α → Flow} {call : Call} {m x : Name} {e : Ex} {ρ : Env} {k : Env → M Flow} {c : Bool} {p : Prop} [Decidable p]
    {f : M PVal} {φ : γ → PVal} {r : Reader γ} {d : γ} {k' : γ → HReader α} (hc : c = decide p)
    (he : ∀ k2 : PVal → M Flow, eval call m e ρ k2 = Src.andThen f k2) (hf : Same φ f (HReader.lift r))
    (hρ : ∀ k : Env → M Flow, setK x (φ d) ρ k = k ρ) (hk : ∀ v, Same ψ (setK x (φ v) ρ k) (k' v)) :
    Same ψ (Src.andThen (Src.branch c (exec call m (.assign x e .done) ρ) (exec call m .done ρ)) fun fl => after fl k)
      (HReader.lift (readOr p r d) >>= k') := by
  subst hc
  unfold readOr
  by_cases hp : p
  · simp only [hp, if_true, decide_true, Src.branch]
    have e1 : exec call m (.assign x e .done) ρ = eval call m e ρ fun v => setK x v ρ (exec call m .done) := rfl
    rw [e1, he, andThen_assoc]
    refine Same.bind hf fun v => ?_
    rw [setK_andThen]
    exact hk v
  · simp only [hp, if_false, decide_false, Src.branch]
    have := hk d
    rw [hρ] at this
    exact this

theorem ne_decide (i : Int) : W.truthy [] (.int i) = decide (i ≠ 0) := by
  by_cases h : i = 0 <;> simp [W.truthy, h]

theorem Same.truthInt (i : Int) : Same id (Src.truth (.h (.int i))) (pure (decide (i ≠ 0))) := by
  rw [← ne_decide]
  exact Same.done _

end Genie.Src
