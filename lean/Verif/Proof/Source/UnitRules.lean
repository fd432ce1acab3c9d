import Verif.Proof.Source.Records
/-!
# Decisions in the source of `Unit`
-/

namespace Genie.Src

/-- An optional part that is not read. -/
theorem Same.readIfFalse {ψ : α → β} {p : Prop} [Decidable p] {r : HReader HVal} {k' : HVal → HReader α} {f : M β} (hp : ¬ p)
    (h : Same ψ f (k' .none)) : Same ψ f (HReader.readIf p r >>= k') := by
  unfold HReader.readIf
  rw [if_neg hp]
  exact h

/-- An optional part that is read. -/
theorem Same.readIfTrue {ψ : α → β} {p : Prop} [Decidable p] {r : HReader HVal} {k' : HVal → HReader α} {f : M β} (hp : p)
    (h : Same ψ f (r >>= k')) : Same ψ f (HReader.readIf p r >>= k') := by
  unfold HReader.readIf
  rw [if_pos hp]
  exact h

/-- `x = None`, …, `if c: x = e` inside a block. -/
theorem Same.ifReadIn {ψ : α → β} {call : Call} {m x : Name} {e : Ex} {ρ : Env} {k : Env → M Flow} {K : Flow → M β} {c : Bool} {p : Prop} [Decidable p]
    {f : M PVal} {r : HReader HVal} {k' : HVal → HReader α} (hc : c = decide p) (he : ∀ k2 : PVal → M Flow, eval call m e ρ k2 = Src.andThen f k2)
    (hf : Same PVal.h f r) (hρ : ∀ k : Env → M Flow, setK x (.h .none) ρ k = k ρ) (hk : ∀ v, Same ψ (Src.andThen (setK x (.h v) ρ k) K) (k' v)) :
    Same ψ (Src.andThen (Src.andThen (Src.branch c (exec call m (.assign x e .done) ρ) (exec call m .done ρ)) fun fl => after fl k) K)
      (HReader.readIf p r >>= k') := by
  subst hc
  unfold HReader.readIf
  by_cases hp : p
  · simp only [hp, if_true, decide_true, Src.branch]
    have e1 : exec call m (.assign x e .done) ρ = eval call m e ρ fun v => setK x v ρ (exec call m .done) := rfl
    rw [e1, he, andThen_assoc, andThen_assoc]
    refine Same.bind hf fun v => ?_
    rw [← andThen_assoc, setK_andThen]
    exact hk v
  · simp only [hp, if_false, decide_false, Src.branch]
    have := hk .none
    rw [hρ] at this
    exact this

/-- `if c: …` with a block that changes no local variable. -/
theorem Same.ifBlock {ψ : α → Flow} {call : Call} {m : Name} {c : Bool} {p : Prop} [Decidable p] {a : M Flow} {ρ : Env} {k : Env → M Flow}
    {g : HReader PUnit} {k' : PUnit → HReader α} (hc : c = decide p) (ha : p → Same (fun _ : PUnit => Flow.next ρ) a g) (hk : Same ψ (k ρ) (k' ⟨⟩)) :
    Same ψ (Src.andThen (Src.branch c a (exec call m .done ρ)) fun fl => after fl k) ((if p then g else pure ⟨⟩) >>= k') :=
  Same.bind (φ := fun _ => Flow.next ρ) (Same.branch hc ha fun _ => Same.done (α := PUnit) ⟨⟩) fun _ => hk

/-- The same, where the model repeats what follows. -/
theorem Same.ifBlock' {ψ : α → Flow} {call : Call} {m : Name} {c : Bool} {p : Prop} [Decidable p] {a : M Flow} {ρ : Env} {k : Env → M Flow}
    {g k' : HReader α} (hc : c = decide p) (ha : p → Same ψ (Src.andThen a fun fl => after fl k) g) (hk : Same ψ (k ρ) k') :
    Same ψ (Src.andThen (Src.branch c a (exec call m .done ρ)) fun fl => after fl k) (if p then g else k') :=
  Same.iteBind hc ha fun _ => hk

/-- No class has a property of this name. -/
def noProperty (a : Name) (cs : List Cls) : Bool :=
  cs.all fun c => c.funs.all fun f => !(Nat.beq a f.name) || f.kind != .property

theorem findFun_mem {f : Name} : ∀ {l : List Fun} {g : Fun}, findFun f l = some g → g ∈ l ∧ Nat.beq f g.name = true
  | [], _, h => by cases h
  | g' :: l, g, h => by
    unfold findFun at h
    cases hb : Nat.beq f g'.name with
    | true => rw [hb] at h; cases h; exact ⟨by simp, hb⟩
    | false => rw [hb] at h; have := findFun_mem h; exact ⟨by simp [this.1], this.2⟩

theorem noProperty_method {a c m : Name} {f : Fun} (h : noProperty a classes = true) (hm : method c a = some (m, f)) : f.kind ≠ .property := by
  have key : ∀ d ∈ classes, ∀ g, findFun a d.funs = some g → g.kind ≠ .property := by
    intro d hd g hg
    have ⟨hg1, hg2⟩ := findFun_mem hg
    have h1 := List.all_eq_true.mp h d hd
    have h2 := List.all_eq_true.mp h1 g hg1
    rw [hg2] at h2
    simpa using h2
  unfold method at hm
  split at hm
  · cases hm
  · rename_i d hd
    split at hm
    · rename_i g hg
      cases hm
      exact key d (findCls_mem hd) _ hg
    · split at hm
      · cases hm
      · rename_i b hb
        split at hm
        · rename_i g hg
          cases hm
          exact key b (findCls_mem hb) _ hg
        · cases hm

theorem noProperty_of {a : Name} (h : noProperty a classes = true) (H : Heap) (v : HVal) : propertyOf H v a = none := by
  unfold propertyOf
  split
  · split
    · rename_i hm
      rw [if_neg (noProperty_method h hm)]
    · rfl
  · rfl

theorem hbind_apply (g : HReader α) (k : α → HReader β) (H : Heap) (t : ByteHandler) : (g >>= k) H t = match g H t with
    | .error e => .error e
    | .ok (a, H', s') => k a H' s' := rfl

/-- `v.a` for an attribute that no class has as a property. -/
theorem Same.objAttr {call : Call} {v : HVal} {a : Name} {n : PyStr} (ha : Name.str a = n) (h : noProperty a classes = true) :
    Same PVal.h (Src.objAttr call v a) (HReader.getAttr v n) := by
  intro H s t hs
  have e : Src.objAttr call v a H s = match W.attr H v (Name.str a) with
    | .ok w => .ok (.h w, H, s)
    | .error e => .error e := by
    unfold Src.objAttr
    rw [noProperty_of h]
    rfl
  have e2 : HReader.getAttr v n H t = match W.attr H v n with
    | .ok w => .ok (w, H, t)
    | .error e => .error e := by
    cases v <;> try rfl
    rename_i i
    cases hc : H[i]? with
    | none =>
      have e3 : HReader.cell (.ref i) .attributeError H t = .error .attributeError := by simp only [HReader.cell, hc]
      simp only [HReader.getAttr, W.attr, W.cell, hc]
      rw [hbind_apply, e3]
    | some c =>
      have e3 : HReader.cell (.ref i) .attributeError H t = .ok (c, H, t) := by simp only [HReader.cell, hc]
      simp only [HReader.getAttr, W.attr, W.cell, hc]
      rw [hbind_apply, e3]
      cases c with
      | record cls attrs =>
        dsimp only
        cases HReader.lookup n attrs <;> rfl
      | _ => rfl
  rw [e, e2, ha]
  cases W.attr H v n with
  | error e => rfl
  | ok w => exact ⟨s, hs, rfl⟩

/-- A step that leaves the handler alone. -/
theorem Same.of_heap {f : HReader α} (h : ∀ H s t, match f H s with
    | .error e => f H t = .error e
    | .ok (a, H', s') => s' = s ∧ f H t = .ok (a, H', t)) : Same id f f := by
  intro H s t hs
  have := h H s t
  cases e : f H s with
  | error e1 => rw [e] at this; rw [this]
  | ok r =>
    obtain ⟨a, H', s'⟩ := r
    rw [e] at this
    rw [this.2]
    exact ⟨s, hs, by rw [this.1]; rfl⟩

/-- `o.a = v`. -/
theorem Same.setAttr {o v : HVal} {n : PyStr} : Same id (HReader.setAttr o n v) (HReader.setAttr o n v) := by
  apply Same.of_heap
  intro H s t
  have e : ∀ s, HReader.setAttr o n v H s = match HReader.cell o .attributeError H s with
    | .error e => .error e
    | .ok (.record cls attrs, H, s) =>
      match HReader.lookup n attrs with
      | some _ => HReader.update o (.record cls (HReader.assign n v attrs)) H s
      | none => if HReader.ofClass n then .error .attributeError else HReader.update o (.record cls (attrs ++ [(n, v)])) H s
    | .ok (_, H, s) => .error .attributeError := by
    intro s
    unfold HReader.setAttr
    rw [hbind_apply]
    cases HReader.cell o .attributeError H s with
    | error e => rfl
    | ok r =>
      obtain ⟨c, H', s'⟩ := r
      cases c <;> try rfl
      dsimp only
      cases HReader.lookup n _ <;> try rfl
      dsimp only
      split <;> rfl
  rw [e s, e t]
  cases o <;> try rfl
  rename_i i
  cases hc : H[i]? with
  | none => simp only [HReader.cell, hc]
  | some c =>
    simp only [HReader.cell, hc]
    cases c <;> try rfl
    dsimp only
    cases HReader.lookup n _ with
    | some _ => exact ⟨rfl, rfl⟩
    | none =>
      dsimp only
      by_cases hn : HReader.ofClass n = true
      · simp only [hn, if_true]
      · simp only [hn]; exact ⟨rfl, rfl⟩

theorem truth_apply (v : HVal) (H : Heap) (s : ByteHandler) : Src.truth (.h v) H s = .ok (W.truthy H v, H, s) := by
  cases v <;> rfl

/-- `v and w` as a condition. -/
theorem Same.truthAnd {v : HVal} {f : M PVal} {r : HReader HVal} {ψ : α → β} {K : Bool → M β} {k' : Bool → HReader α} (hf : Same PVal.h f r)
    (hk : ∀ t, Same ψ (K t) (k' t)) :
    Same ψ (Src.andThen (Src.truth (.h v)) fun b => Src.andThen (Src.branch b f (Src.done (.h v))) fun w => Src.andThen (Src.truth w) K)
      (HReader.truthy v >>= fun c => (if c = true then r >>= HReader.truthy else pure c) >>= k') := by
  have h1 : Same ψ (Src.andThen f fun w => Src.andThen (Src.truth w) K) ((r >>= HReader.truthy) >>= k') := by
    rw [bind_assoc']
    exact Same.bind hf fun w => Same.bind (Same.truth w) hk
  intro H s t hs
  have e1 : (HReader.truthy v >>= fun c => (if c = true then r >>= HReader.truthy else pure c) >>= k') H t =
      ((if W.truthy H v = true then r >>= HReader.truthy else pure (W.truthy H v)) >>= k') H t := rfl
  have e2 : ∀ (K : Bool → M β), Src.andThen (Src.truth (.h v)) K H s = K (W.truthy H v) H s := by
    intro K
    simp only [Src.andThen, truth_apply]
  rw [e1, e2]
  cases hv : W.truthy H v with
  | true => exact h1 H s t hs
  | false =>
    have e3 := e2 K
    rw [hv] at e3
    have : Src.andThen (Src.branch false f (Src.done (.h v))) (fun w => Src.andThen (Src.truth w) K) H s = K false H s := e3
    rw [this]
    exact hk false H s t hs

/-- `if c: x = …` where what follows is given for both outcomes. -/
theorem Same.iteThen {ψ : α → β} {c : Bool} {p : Prop} [Decidable p] {a b : M γ} {k : γ → M β} {g g' : HReader δ} {k' : δ → HReader α}
    (hc : c = decide p) (ha : p → Same ψ (Src.andThen a k) (g >>= k')) (hb : ¬ p → Same ψ (Src.andThen b k) (g' >>= k')) :
    Same ψ (Src.andThen (Src.branch c a b) k) ((if p then g else g') >>= k') := by
  subst hc
  by_cases hp : p
  · simp only [hp, if_true, decide_true, Src.branch]; exact ha hp
  · simp only [hp, if_false, decide_false, Src.branch]; exact hb hp

/-- `Version(s)`. -/
theorem Same.versionOf (x : PyStr) :
    Same PVal.version (Src.andThen (Src.pyM (Version.ofStr x)) fun v => Src.done (.version v)) (HReader.lift (liftPy (Version.ofStr x))) :=
  (Same.py _).tail _

/-- `content.version = v`. -/
theorem Same.setVersion (v : Version) : Same id (Src.setHandlerAttr n!"version" (.version v)) (HReader.lift (setVersion v)) := by
  intro H s t hs
  exact ⟨{ s with version := v }, ⟨hs.content, hs.offset, rfl⟩, rfl⟩

/-- Nothing to do without a `creatable`. -/
theorem storeHotKey_none (i : Int) (k : PUnit → HReader α) : (Creatable.storeHotKey .none i >>= k) = k ⟨⟩ := rfl

theorem readHotKey_none (i : Int) (k : HVal → HReader α) : (Creatable.readHotKey .none i >>= k) = k (.int i) := rfl

end Genie.Src
