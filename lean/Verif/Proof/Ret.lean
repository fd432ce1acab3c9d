import Verif.Model.Common
/-! # Facts about every result of a reader -/

namespace Genie

/-- Whatever `r` returns satisfies `Q`. -/
def Ret (r : Reader α) (Q : α → Prop) : Prop := ∀ h a h', r h = .ok (a, h') → Q a

theorem Ret.pure {a : α} {Q : α → Prop} (h : Q a) : Ret (pure a : Reader α) Q := by
  intro hd b h' e
  cases e; exact h

theorem Ret.bind {r : Reader α} {f : α → Reader β} {P : α → Prop} {Q : β → Prop} (h1 : Ret r P)
    (h2 : ∀ a, P a → Ret (f a) Q) : Ret (r >>= f) Q := by
  intro hd b h' e
  have hb : (r >>= f) hd = match r hd with | .error e => .error e | .ok (a, h') => f a h' := rfl
  rw [hb] at e
  split at e
  · cases e
  · rename_i a h2' hr
    exact h2 a (h1 _ _ _ hr) _ _ _ e

theorem Ret.skip {r : Reader α} {f : α → Reader β} {Q : β → Prop} (h2 : ∀ a, Ret (f a) Q) : Ret (r >>= f) Q :=
  Ret.bind (P := fun _ => True) (fun _ _ _ _ => trivial) fun a _ => h2 a

end Genie
