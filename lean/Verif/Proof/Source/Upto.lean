import Verif.Proof.Source.UnitRules
import Verif.Proof.Source.Keeps
import Verif.Py.InterpO
/-!
# Two executions that agree unless the first one raises

`Upto S f g`: `f` does what `g` does, or raises one of the exceptions `S`.  Executing source is a congruence for this relation: if calls of
functions agree, then so does everything that calls them — also if `assert` statements are left out on the right-hand side, whose conditions
change nothing.
-/

namespace Genie.Src

/-- `f` does what `g` does, unless it raises one of the exceptions `S`; and its results are `Q`. -/
def UptoQ (S : PyErr → Prop) (Q : α → Prop) (f g : M α) : Prop :=
  ∀ H s, (f H s = g H s ∧ ∀ a H' s', g H s = .ok (a, H', s') → Q a) ∨ ∃ e, S e ∧ f H s = .error e

/-- `f` does what `g` does, unless it raises one of the exceptions `S`. -/
abbrev Upto (S : PyErr → Prop) (f g : M α) : Prop := UptoQ S (fun _ => True) f g

variable {S : PyErr → Prop}

namespace UptoQ

theorem same (f : M α) : Upto S f f := fun _ _ => .inl ⟨rfl, fun _ _ _ _ => trivial⟩

theorem fail {Q : α → Prop} (e : PyErr) : UptoQ S Q (Src.fail e) (Src.fail e) := fun _ _ => .inl ⟨rfl, nofun⟩

theorem done {Q : α → Prop} {a : α} (h : Q a) : UptoQ S Q (Src.done a) (Src.done a) := fun _ _ => .inl ⟨rfl, fun _ _ _ e => by cases e; exact h⟩

theorem raises {Q : α → Prop} (e : PyErr) (he : S e) (g : M α) : UptoQ S Q (Src.fail e) g := fun _ _ => .inr ⟨e, he, rfl⟩

theorem thenQ {P : α → Prop} {Q : β → Prop} {f g : M α} {k l : α → M β} (hf : UptoQ S P f g) (hk : ∀ a, P a → UptoQ S Q (k a) (l a)) :
    UptoQ S Q (Src.andThen f k) (Src.andThen g l) := by
  intro H s
  unfold Src.andThen
  rcases hf H s with ⟨h, hp⟩ | ⟨e, he, h⟩
  · rw [h]
    cases hg : g H s with
    | error e => exact .inl ⟨rfl, nofun⟩
    | ok r => exact hk r.1 (hp _ _ _ hg) r.2.1 r.2.2
  · rw [h]
    exact .inr ⟨e, he, rfl⟩

theorem andThen {Q : β → Prop} {f g : M α} {k l : α → M β} (hf : Upto S f g) (hk : ∀ a, UptoQ S Q (k a) (l a)) :
    UptoQ S Q (Src.andThen f k) (Src.andThen g l) := thenQ hf fun a _ => hk a

end UptoQ

theorem UptoQ.branch {Q : β → Prop} {c : Bool} {a b a' b' : M β} (ha : UptoQ S Q a a') (hb : UptoQ S Q b b') : UptoQ S Q (Src.branch c a b) (Src.branch c a' b') := by
  cases c
  · exact hb
  · exact ha

theorem UptoQ.nameK {Q : β → Prop} {m x : Name} {k l : PVal → M β} (hk : ∀ v, UptoQ S Q (k v) (l v)) : ∀ ρ, UptoQ S Q (Src.nameK m x ρ k) (Src.nameK m x ρ l)
  | [] => by
    unfold Src.nameK
    split
    · exact hk _
    · exact .fail _
  | (y, v) :: ρ => by
    unfold Src.nameK
    split
    · exact hk _
    · exact UptoQ.nameK hk ρ

/-- The variable `x` is not there. -/
def Unbound (x : Name) (ρ : Env) : Prop := find x ρ = none

theorem UptoQ.setK {Q : β → Prop} {x y : Name} {v : PVal} (hy : Nat.beq y x = false) : ∀ (ρ : Env) {k l : Env → M β}, Unbound y ρ →
    (∀ ρ, Unbound y ρ → UptoQ S Q (k ρ) (l ρ)) → UptoQ S Q (Src.setK x v ρ k) (Src.setK x v ρ l)
  | [], k, l, _, hk => hk _ (by unfold Unbound find; rw [hy]; rfl)
  | (z, w) :: ρ, k, l, h, hk => by
    have hz : Nat.beq y z = false ∧ Unbound y ρ := by
      unfold Unbound find at h
      cases hb : Nat.beq y z with
      | true => rw [hb] at h; cases h
      | false => rw [hb] at h; exact ⟨rfl, h⟩
    unfold Src.setK
    split
    · exact hk _ (by unfold Unbound find; rw [hz.1]; exact hz.2)
    · exact UptoQ.setK hy ρ hz.2 fun ρ' h' => hk _ (by unfold Unbound find; rw [hz.1]; exact h')

theorem UptoQ.setK' {Q : β → Prop} {x : Name} {v : PVal} : ∀ (ρ : Env) {k l : Env → M β}, (∀ ρ, UptoQ S Q (k ρ) (l ρ)) → UptoQ S Q (Src.setK x v ρ k) (Src.setK x v ρ l)
  | [], k, l, hk => hk _
  | (y, w) :: ρ, k, l, hk => by
    unfold Src.setK
    split
    · exact hk _
    · exact UptoQ.setK' ρ fun _ => hk _

theorem UptoQ.unpackK {Q : β → Prop} {y : Name} : ∀ (xs : List Name) (_ : xs.all (fun x => !Nat.beq y x) = true) (vs : List HVal) (ρ : Env) {k l : Env → M β}, Unbound y ρ →
    (∀ ρ, Unbound y ρ → UptoQ S Q (k ρ) (l ρ)) → UptoQ S Q (Src.unpackK xs vs ρ k) (Src.unpackK xs vs ρ l)
  | [], _, [], _, _, _, h, hk => hk _ h
  | [], _, _ :: _, _, _, _, _, _ => .fail _
  | _ :: _, _, [], _, _, _, _, _ => .fail _
  | x :: xs, hx, _ :: vs, ρ, _, _, h, hk => by
    rw [List.all_cons, Bool.and_eq_true] at hx
    exact UptoQ.setK (by simpa using hx.1) ρ h fun ρ' h' => UptoQ.unpackK xs hx.2 vs ρ' h' hk

theorem UptoQ.forEach {f g : HVal → M (List PVal) → M (List PVal)} (hf : ∀ v more more', Upto S more more' → Upto S (f v more) (g v more')) :
    ∀ vs, Upto S (Src.forEach f vs) (Src.forEach g vs)
  | [] => .same _
  | v :: vs => hf v _ _ (UptoQ.forEach hf vs)

section
variable {call call' : Call} (hc : ∀ r c f as, Upto S (call r c f as) (call' r c f as))
include hc

theorem UptoQ.cmpM (op : Cmp) (l r : PVal) : Upto S (Src.cmpM call op l r) (Src.cmpM call' op l r) := by
  unfold Src.cmpM
  repeat' (first | exact .same _ | exact hc _ _ _ _ | split)

theorem UptoQ.objAttr (v : HVal) (a : Name) : Upto S (Src.objAttr call v a) (Src.objAttr call' v a) := by
  intro H s
  unfold Src.objAttr
  cases propertyOf H v a with
  | some c => exact hc _ _ _ _ _ _
  | none => exact .inl ⟨rfl, fun _ _ _ _ => trivial⟩

theorem UptoQ.attrM (v : PVal) (a : Name) : Upto S (Src.attrM call v a) (Src.attrM call' v a) := by
  unfold Src.attrM
  repeat' (first | exact .same _ | exact UptoQ.objAttr hc _ _ | split)

theorem UptoQ.objMethod (v : HVal) (f : Name) (as : Args) : Upto S (Src.objMethod call v f as) (Src.objMethod call' v f as) := by
  intro H s
  unfold Src.objMethod
  split
  · exact hc _ _ _ _ _ _
  · exact .inl ⟨rfl, fun _ _ _ _ => trivial⟩

theorem UptoQ.invoke (v : PVal) (f : Name) (as : Args) : Upto S (Src.invoke call v f as) (Src.invoke call' v f as) := by
  unfold Src.invoke
  repeat' (first | exact .same _ | exact hc _ _ _ _ | exact UptoQ.objMethod hc _ _ _ | split)

omit hc in
/-- What is shown about an expression, by induction. -/
structure UptoEx (S : PyErr → Prop) (call call' : Call) (m : Name) (e : Ex) : Prop where
  ev : ∀ {β : Type} {Q : β → Prop} (ρ : Env) (k l : PVal → M β), (∀ v, UptoQ S Q (k v) (l v)) → UptoQ S Q (Src.eval call m e ρ k) (Src.eval call' m e ρ l)
  args : ∀ {β : Type} {Q : β → Prop} (ρ : Env) (k l : List PVal → List (Name × PVal) → M β), (∀ v w, UptoQ S Q (k v w) (l v w)) →
    UptoQ S Q (Src.evalArgs call m e ρ k) (Src.evalArgs call' m e ρ l)
  cmp : ∀ {β : Type} {Q : β → Prop} (v : PVal) (ρ : Env) (k l : PVal → M β), (∀ v, UptoQ S Q (k v) (l v)) → UptoQ S Q (Src.evalCmp call m v e ρ k) (Src.evalCmp call' m v e ρ l)
  recv : ∀ e' f, e = .attr e' f → ∀ {β : Type} {Q : β → Prop} (ρ : Env) (k l : PVal → M β), (∀ v, UptoQ S Q (k v) (l v)) →
    UptoQ S Q (Src.eval call m e' ρ k) (Src.eval call' m e' ρ l)

theorem UptoEx.all (m : Name) (e : Ex) : UptoEx S call call' m e := by
  induction e with
  | name x => exact ⟨fun ρ k l hk => UptoQ.nameK hk ρ, fun _ _ _ _ => .fail _, fun _ _ _ _ _ => .fail _, nofun⟩
  | int i => exact ⟨fun ρ k l hk => hk _, fun _ _ _ _ => .fail _, fun _ _ _ _ _ => .fail _, nofun⟩
  | float i => exact ⟨fun ρ k l hk => hk _, fun _ _ _ _ => .fail _, fun _ _ _ _ _ => .fail _, nofun⟩
  | str i => exact ⟨fun ρ k l hk => hk _, fun _ _ _ _ => .fail _, fun _ _ _ _ _ => .fail _, nofun⟩
  | bytes i => exact ⟨fun ρ k l hk => hk _, fun _ _ _ _ => .fail _, fun _ _ _ _ _ => .fail _, nofun⟩
  | none => exact ⟨fun ρ k l hk => hk _, fun _ _ _ _ => .fail _, fun _ _ _ _ _ => .fail _, nofun⟩
  | bool i => exact ⟨fun ρ k l hk => hk _, fun _ _ _ _ => .fail _, fun _ _ _ _ _ => .fail _, nofun⟩
  | attr e a ih =>
    exact ⟨fun ρ k l hk => ih.ev ρ _ _ fun v => .andThen (UptoQ.attrM hc _ _) hk, fun _ _ _ _ => .fail _, fun _ _ _ _ _ => .fail _,
      fun e' f h => by cases h; exact ih.ev⟩
  | call f as ihf iha =>
    refine ⟨fun ρ k l hk => ?_, fun _ _ _ _ => .fail _, fun _ _ _ _ _ => .fail _, nofun⟩
    cases f with
    | attr e' f' => exact ihf.recv _ _ rfl ρ _ _ fun v => iha.args ρ _ _ fun _ _ => .andThen (UptoQ.invoke hc _ _ _) hk
    | _ =>
      exact ihf.ev ρ (fun v => Src.evalArgs call m as ρ fun pos kw => Src.andThen (Src.apply v ⟨pos, kw⟩) k)
        (fun v => Src.evalArgs call' m as ρ fun pos kw => Src.andThen (Src.apply v ⟨pos, kw⟩) l) fun v =>
        iha.args ρ _ _ fun _ _ => .andThen (.same _) hk
  | tuple es ih => exact ⟨fun ρ k l hk => ih.args ρ _ _ fun _ _ => .andThen (.same _) hk, fun _ _ _ _ => .fail _, fun _ _ _ _ _ => .fail _, nofun⟩
  | list es ih => exact ⟨fun ρ k l hk => ih.args ρ _ _ fun _ _ => .andThen (.same _) hk, fun _ _ _ _ => .fail _, fun _ _ _ _ _ => .fail _, nofun⟩
  | compare l t ihl iht => exact ⟨fun ρ k l hk => ihl.ev ρ _ _ fun v => iht.cmp v ρ _ _ hk, fun _ _ _ _ => .fail _, fun _ _ _ _ _ => .fail _, nofun⟩
  | cmpNil => exact ⟨fun _ _ _ _ => .fail _, fun _ _ _ _ => .fail _, fun _ _ _ _ _ => .fail _, nofun⟩
  | cmp op r t ihr iht =>
    refine ⟨fun _ _ _ _ => .fail _, fun _ _ _ _ => .fail _, fun v ρ k l hk => ?_, nofun⟩
    cases t with
    | cmpNil => exact ihr.ev ρ _ _ fun w => .andThen (UptoQ.cmpM hc _ _ _) fun b => hk _
    | _ =>
      exact ihr.ev ρ _ _ fun w => .andThen (UptoQ.cmpM hc _ _ _) fun b =>
        .andThen (.same _) fun _ => .andThen (.branch (iht.cmp _ ρ _ _ fun _ => .same _) (.same _)) hk
  | bin op l r ihl ihr =>
    exact ⟨fun ρ k l hk => ihl.ev ρ _ _ fun v => ihr.ev ρ _ _ fun w => .andThen (.same _) hk, fun _ _ _ _ => .fail _, fun _ _ _ _ _ => .fail _, nofun⟩
  | neg e ih => exact ⟨fun ρ k l hk => ih.ev ρ _ _ fun v => .andThen (.same _) hk, fun _ _ _ _ => .fail _, fun _ _ _ _ _ => .fail _, nofun⟩
  | not e ih => exact ⟨fun ρ k l hk => ih.ev ρ _ _ fun v => .andThen (.same _) fun _ => hk _, fun _ _ _ _ => .fail _, fun _ _ _ _ _ => .fail _, nofun⟩
  | and l r ihl ihr =>
    exact ⟨fun ρ k l hk => ihl.ev ρ _ _ fun v => .andThen (.same _) fun _ => .andThen (.branch (ihr.ev ρ _ _ fun _ => .same _) (.same _)) hk,
      fun _ _ _ _ => .fail _, fun _ _ _ _ _ => .fail _, nofun⟩
  | ifExp c a b ihc iha ihb =>
    exact ⟨fun ρ k l hk => ihc.ev ρ _ _ fun v => .andThen (.same _) fun _ =>
        .andThen (.branch (iha.ev ρ _ _ fun _ => .same _) (ihb.ev ρ _ _ fun _ => .same _)) hk,
      fun _ _ _ _ => .fail _, fun _ _ _ _ _ => .fail _, nofun⟩
  | index e i ihe ihi =>
    exact ⟨fun ρ k l hk => ihe.ev ρ _ _ fun v => ihi.ev ρ _ _ fun w => .andThen (.same _) hk, fun _ _ _ _ => .fail _, fun _ _ _ _ _ => .fail _, nofun⟩
  | slice e i j ihe ihi ihj =>
    exact ⟨fun ρ k l hk => ihe.ev ρ _ _ fun v => ihi.ev ρ _ _ fun w => ihj.ev ρ _ _ fun x => .andThen (.same _) hk,
      fun _ _ _ _ => .fail _, fun _ _ _ _ _ => .fail _, nofun⟩
  | comp elt x it ihe ihi =>
    exact ⟨fun ρ k l hk => ihi.ev ρ _ _ fun v => .andThen (.same _) fun _ => .andThen (UptoQ.forEach (fun v _ _ hm => UptoQ.setK' (x := x) (v := .h v) ρ fun ρ' =>
        ihe.ev ρ' _ _ fun w => .andThen hm fun ws => .same (Src.done (w :: ws))) _) fun _ => .andThen (.same _) hk,
      fun _ _ _ _ => .fail _, fun _ _ _ _ _ => .fail _, nofun⟩
  | compIf elt x it c ihe ihi ihc =>
    exact ⟨fun ρ k l hk => ihi.ev ρ _ _ fun v => .andThen (.same _) fun _ => .andThen (UptoQ.forEach (fun v _ _ hm => UptoQ.setK' (x := x) (v := .h v) ρ fun ρ' =>
        ihc.ev ρ' _ _ fun t => .andThen (.same (Src.truth t)) fun b => .branch (c := b) (ihe.ev ρ' _ _ fun w => .andThen hm fun ws => .same (Src.done (w :: ws))) hm) _) fun _ =>
        .andThen (.same _) hk,
      fun _ _ _ _ => .fail _, fun _ _ _ _ _ => .fail _, nofun⟩
  | argNil => exact ⟨fun _ _ _ _ => .fail _, fun ρ k l hk => hk _ _, fun _ _ _ _ _ => .fail _, nofun⟩
  | arg e r ihe ihr => exact ⟨fun _ _ _ _ => .fail _, fun ρ k l hk => ihe.ev ρ _ _ fun v => ihr.args ρ _ _ fun _ _ => hk _ _, fun _ _ _ _ _ => .fail _, nofun⟩
  | kw x e r ihe ihr => exact ⟨fun _ _ _ _ => .fail _, fun ρ k l hk => ihe.ev ρ _ _ fun v => ihr.args ρ _ _ fun _ _ => hk _ _, fun _ _ _ _ _ => .fail _, nofun⟩
  | star e r ihe ihr =>
    exact ⟨fun _ _ _ _ => .fail _, fun ρ k l hk => ihe.ev ρ _ _ fun v => .andThen (.same _) fun _ => ihr.args ρ _ _ fun _ _ => hk _ _,
      fun _ _ _ _ _ => .fail _, nofun⟩

theorem UptoQ.eval (m : Name) (e : Ex) (ρ : Env) {β : Type} {Q : β → Prop} (k l : PVal → M β) (hk : ∀ v, UptoQ S Q (k v) (l v)) :
    UptoQ S Q (Src.eval call m e ρ k) (Src.eval call' m e ρ l) := (UptoEx.all hc m e).ev ρ k l hk

end

end Genie.Src
