import Verif.Proof.Source.WriteSpecial
/-!
# The source of `Unit.to_bytes`: the parts that a unit has depending on its type
-/

namespace Genie.Src

variable {H : Heap} {s : ByteHandler}

/-- The bytes of the parts that a unit may have. -/
structure UnitParts where
  speed : Bytes
  dead_fish : Bytes
  bird : Bytes
  type_50 : Bytes
  projectile : Bytes
  creatable : Bytes
  building : Bytes

/-- The variables of `Unit.to_bytes_84` and `Unit.to_bytes_88`. -/
def unitEnv (self : HVal) (ver : Version) (p : UnitParts) : Env := [(n!"self", .h self), (n!"version", .version ver), (n!"speed", .bytes p.speed),
  (n!"dead_fish", .bytes p.dead_fish), (n!"bird", .bytes p.bird), (n!"type_50", .bytes p.type_50), (n!"projectile", .bytes p.projectile),
  (n!"creatable", .bytes p.creatable), (n!"building", .bytes p.building)]

/-- `if self.type op t: …`, when the type is known. -/
theorem Wr.ifPart {ψ : α → β} {t : HVal} {op : Cmp} {m : Int} {A B : M Flow} {R : Flow → M β} {w : Py Bytes} {K : Bytes → Py α}
    (hA : Wr H s ψ (Src.andThen A R) (w >>= K)) (hB : Wr H s ψ (Src.andThen B R) (K [])) :
    Wr H s ψ (Src.andThen (Src.andThen (Src.pyM (Src.intCmp op t m)) fun b => Src.done (.bool b)) fun b => Src.andThen (Src.truth b) fun t =>
        Src.andThen (Src.branch t A B) R)
      (W.when [Src.intCmp op t m] w >>= K) := by
  refine Wr.assoc ?_
  have e : W.when [Src.intCmp op t m] w >>= K = Src.intCmp op t m >>= fun b => if b then w >>= K else K [] := by
    cases Src.intCmp op t m with
    | error e => rfl
    | ok b => cases b <;> rfl
  rw [e]
  refine Wr.bind (Wr.py _) fun b => ?_
  cases b with
  | true => exact hA
  | false => exact hB


theorem Wr.errBind {φ : α → β} {ψ : γ → δ} {f : M β} {e : PyErr} {k : β → M δ} (h : Wr H s φ f (.error e)) :
    Wr H s ψ (Src.andThen f k) (.error e) := by
  intro hne
  have h0 := h (fun hh => hne (by cases hh; rfl))
  simp only [Src.andThen, h0]

theorem ifNotNone_ok {v : HVal} (hv : v ≠ .none) (w : Py Bytes) : W.ifNotNone (.ok v) w = w := by
  cases v <;> first | rfl | exact absurd rfl hv

/-- No part. -/
def UnitParts.none : UnitParts := ⟨[], [], [], [], [], [], []⟩

/-- The statements that write the parts of a unit — `/repo/src/genieutils/unit.py:1537-1549` and `:1647-1659`. -/
def unitBlock : St :=
      (.assign n!"speed" (.ifExp (.compare (.attr (.name n!"self") n!"speed") (.cmp .isNot .none .cmpNil)) (.call (.attr (.name n!"self") n!"write_float") (.arg (.attr (.name n!"self") n!"speed") .argNil)) (.bytes []))
      (.ite (.compare (.attr (.name n!"self") n!"type") (.cmp .ge (.attr (.name n!"UnitType") n!"DeadFish") .cmpNil))
        (.assign n!"dead_fish" (.ifExp (.compare (.attr (.name n!"self") n!"dead_fish") (.cmp .isNot .none .cmpNil)) (.call (.attr (.name n!"self") n!"write_class") (.arg (.attr (.name n!"self") n!"dead_fish") (.arg (.name n!"version") .argNil))) (.bytes [])) .done) .done
      (.ite (.compare (.attr (.name n!"self") n!"type") (.cmp .ge (.attr (.name n!"UnitType") n!"Bird") .cmpNil))
        (.assign n!"bird" (.ifExp (.compare (.attr (.name n!"self") n!"bird") (.cmp .isNot .none .cmpNil)) (.call (.attr (.name n!"self") n!"write_class") (.arg (.attr (.name n!"self") n!"bird") (.arg (.name n!"version") .argNil))) (.bytes [])) .done) .done
      (.ite (.compare (.attr (.name n!"self") n!"type") (.cmp .ge (.attr (.name n!"UnitType") n!"Combatant") .cmpNil))
        (.assign n!"type_50" (.ifExp (.compare (.attr (.name n!"self") n!"type_50") (.cmp .isNot .none .cmpNil)) (.call (.attr (.name n!"self") n!"write_class") (.arg (.attr (.name n!"self") n!"type_50") (.arg (.name n!"version") .argNil))) (.bytes [])) .done) .done
      (.ite (.compare (.attr (.name n!"self") n!"type") (.cmp .eq (.attr (.name n!"UnitType") n!"Projectile") .cmpNil))
        (.assign n!"projectile" (.ifExp (.compare (.attr (.name n!"self") n!"projectile") (.cmp .isNot .none .cmpNil)) (.call (.attr (.name n!"self") n!"write_class") (.arg (.attr (.name n!"self") n!"projectile") (.arg (.name n!"version") .argNil))) (.bytes [])) .done) .done
      (.ite (.compare (.attr (.name n!"self") n!"type") (.cmp .ge (.attr (.name n!"UnitType") n!"Creatable") .cmpNil))
        (.assign n!"creatable" (.ifExp (.compare (.attr (.name n!"self") n!"creatable") (.cmp .isNot .none .cmpNil)) (.call (.attr (.name n!"self") n!"write_class") (.arg (.attr (.name n!"self") n!"creatable") (.arg (.name n!"version") .argNil))) (.bytes [])) .done) .done
      (.ite (.compare (.attr (.name n!"self") n!"type") (.cmp .eq (.attr (.name n!"UnitType") n!"Building") .cmpNil))
        (.assign n!"building" (.ifExp (.compare (.attr (.name n!"self") n!"building") (.cmp .isNot .none .cmpNil)) (.call (.attr (.name n!"self") n!"write_class") (.arg (.attr (.name n!"self") n!"building") (.arg (.name n!"version") .argNil))) (.bytes [])) .done) .done
      .done)))))))

/-- The part `dead_fish` — `/repo/src/genieutils/unit.py:1537-1549` and `:1647-1659`. -/
theorem Unit_part_dead_fish {r n : Nat} {rec : W.Rec} {self t : HVal} {ver : Version} {p : UnitParts} {rest : St} {ψ : α → Flow} {K : Bytes → Py α}
    (hr : Writes H s r rec) (hn : r + 1 ≤ n) (hi : IsA H self n!"Unit") (hg : IsGenie n!"Unit") (ht : W.attr H self (lit "type") = .ok t)
    (hp : p.dead_fish = []) (hrest : ∀ b, Wr H s ψ (Src.exec (callN n) n!"unit" rest (unitEnv self ver { p with dead_fish := b })) (K b)) :
    Wr H s ψ (Src.exec (callN n) n!"unit"
      (.ite (.compare (.attr (.name n!"self") n!"type") (.cmp .ge (.attr (.name n!"UnitType") n!"DeadFish") .cmpNil))
        (.assign n!"dead_fish" (.ifExp (.compare (.attr (.name n!"self") n!"dead_fish") (.cmp .isNot .none .cmpNil)) (.call (.attr (.name n!"self") n!"write_class") (.arg (.attr (.name n!"self") n!"dead_fish") (.arg (.name n!"version") .argNil))) (.bytes [])) .done) .done
      rest) (unitEnv self ver p))
      (W.when [W.geInt (.ok t) UnitType.DeadFish] (W.ifNotNone (W.attr H self (lit "dead_fish")) (W.cls rec (W.attr H self (lit "dead_fish")) ver)) >>= K) := by
  peel
  refine Wr.pureBind (φ := PVal.h) (a := t) (by rw [← ht]; exact Wr.attr rfl rfl) ?_
  peel
  refine Wr.ifPart (op := .ge) ?_ ?_
  · peel
    refine Wr.assoc ?_
    refine Wr.argBind (w := fun o => W.ifNotNone o (W.cls rec (W.attr H self (lit "dead_fish")) ver)) (fun o => by cases o <;> rfl) (Wr.attr rfl rfl) fun v => ?_
    by_cases hv : v = .none
    · subst hv
      peel
      exact hrest []
    · peel
      rw [ifNotNone_ok hv]
      refine Wr.assoc ?_
      refine Wr.thenT (by simpa using hv) ?_
      peel
      refine Wr.assoc ?_
      refine Wr.argBind (w := fun o => W.cls rec o ver) (strict_cls _ _) (Wr.attr rfl rfl) fun u => ?_
      peel
      refine Wr.assoc ?_
      refine Wr.bind (Wr.base hi hg (by decide) (write_class hr (by omega) _ _ _)) fun b => ?_
      peel
      exact hrest b
  · peel
    have e := hrest []
    rw [show ({ p with dead_fish := [] } : UnitParts) = p by rw [← hp]] at e
    exact e

/-- The part `bird` — `/repo/src/genieutils/unit.py:1537-1549` and `:1647-1659`. -/
theorem Unit_part_bird {r n : Nat} {rec : W.Rec} {self t : HVal} {ver : Version} {p : UnitParts} {rest : St} {ψ : α → Flow} {K : Bytes → Py α}
    (hr : Writes H s r rec) (hn : r + 1 ≤ n) (hi : IsA H self n!"Unit") (hg : IsGenie n!"Unit") (ht : W.attr H self (lit "type") = .ok t)
    (hp : p.bird = []) (hrest : ∀ b, Wr H s ψ (Src.exec (callN n) n!"unit" rest (unitEnv self ver { p with bird := b })) (K b)) :
    Wr H s ψ (Src.exec (callN n) n!"unit"
      (.ite (.compare (.attr (.name n!"self") n!"type") (.cmp .ge (.attr (.name n!"UnitType") n!"Bird") .cmpNil))
        (.assign n!"bird" (.ifExp (.compare (.attr (.name n!"self") n!"bird") (.cmp .isNot .none .cmpNil)) (.call (.attr (.name n!"self") n!"write_class") (.arg (.attr (.name n!"self") n!"bird") (.arg (.name n!"version") .argNil))) (.bytes [])) .done) .done
      rest) (unitEnv self ver p))
      (W.when [W.geInt (.ok t) UnitType.Bird] (W.ifNotNone (W.attr H self (lit "bird")) (W.cls rec (W.attr H self (lit "bird")) ver)) >>= K) := by
  peel
  refine Wr.pureBind (φ := PVal.h) (a := t) (by rw [← ht]; exact Wr.attr rfl rfl) ?_
  peel
  refine Wr.ifPart (op := .ge) ?_ ?_
  · peel
    refine Wr.assoc ?_
    refine Wr.argBind (w := fun o => W.ifNotNone o (W.cls rec (W.attr H self (lit "bird")) ver)) (fun o => by cases o <;> rfl) (Wr.attr rfl rfl) fun v => ?_
    by_cases hv : v = .none
    · subst hv
      peel
      exact hrest []
    · peel
      rw [ifNotNone_ok hv]
      refine Wr.assoc ?_
      refine Wr.thenT (by simpa using hv) ?_
      peel
      refine Wr.assoc ?_
      refine Wr.argBind (w := fun o => W.cls rec o ver) (strict_cls _ _) (Wr.attr rfl rfl) fun u => ?_
      peel
      refine Wr.assoc ?_
      refine Wr.bind (Wr.base hi hg (by decide) (write_class hr (by omega) _ _ _)) fun b => ?_
      peel
      exact hrest b
  · peel
    have e := hrest []
    rw [show ({ p with bird := [] } : UnitParts) = p by rw [← hp]] at e
    exact e

/-- The part `type_50` — `/repo/src/genieutils/unit.py:1537-1549` and `:1647-1659`. -/
theorem Unit_part_type_50 {r n : Nat} {rec : W.Rec} {self t : HVal} {ver : Version} {p : UnitParts} {rest : St} {ψ : α → Flow} {K : Bytes → Py α}
    (hr : Writes H s r rec) (hn : r + 1 ≤ n) (hi : IsA H self n!"Unit") (hg : IsGenie n!"Unit") (ht : W.attr H self (lit "type") = .ok t)
    (hp : p.type_50 = []) (hrest : ∀ b, Wr H s ψ (Src.exec (callN n) n!"unit" rest (unitEnv self ver { p with type_50 := b })) (K b)) :
    Wr H s ψ (Src.exec (callN n) n!"unit"
      (.ite (.compare (.attr (.name n!"self") n!"type") (.cmp .ge (.attr (.name n!"UnitType") n!"Combatant") .cmpNil))
        (.assign n!"type_50" (.ifExp (.compare (.attr (.name n!"self") n!"type_50") (.cmp .isNot .none .cmpNil)) (.call (.attr (.name n!"self") n!"write_class") (.arg (.attr (.name n!"self") n!"type_50") (.arg (.name n!"version") .argNil))) (.bytes [])) .done) .done
      rest) (unitEnv self ver p))
      (W.when [W.geInt (.ok t) UnitType.Combatant] (W.ifNotNone (W.attr H self (lit "type_50")) (W.cls rec (W.attr H self (lit "type_50")) ver)) >>= K) := by
  peel
  refine Wr.pureBind (φ := PVal.h) (a := t) (by rw [← ht]; exact Wr.attr rfl rfl) ?_
  peel
  refine Wr.ifPart (op := .ge) ?_ ?_
  · peel
    refine Wr.assoc ?_
    refine Wr.argBind (w := fun o => W.ifNotNone o (W.cls rec (W.attr H self (lit "type_50")) ver)) (fun o => by cases o <;> rfl) (Wr.attr rfl rfl) fun v => ?_
    by_cases hv : v = .none
    · subst hv
      peel
      exact hrest []
    · peel
      rw [ifNotNone_ok hv]
      refine Wr.assoc ?_
      refine Wr.thenT (by simpa using hv) ?_
      peel
      refine Wr.assoc ?_
      refine Wr.argBind (w := fun o => W.cls rec o ver) (strict_cls _ _) (Wr.attr rfl rfl) fun u => ?_
      peel
      refine Wr.assoc ?_
      refine Wr.bind (Wr.base hi hg (by decide) (write_class hr (by omega) _ _ _)) fun b => ?_
      peel
      exact hrest b
  · peel
    have e := hrest []
    rw [show ({ p with type_50 := [] } : UnitParts) = p by rw [← hp]] at e
    exact e

/-- The part `projectile` — `/repo/src/genieutils/unit.py:1537-1549` and `:1647-1659`. -/
theorem Unit_part_projectile {r n : Nat} {rec : W.Rec} {self t : HVal} {ver : Version} {p : UnitParts} {rest : St} {ψ : α → Flow} {K : Bytes → Py α}
    (hr : Writes H s r rec) (hn : r + 1 ≤ n) (hi : IsA H self n!"Unit") (hg : IsGenie n!"Unit") (ht : W.attr H self (lit "type") = .ok t)
    (hp : p.projectile = []) (hrest : ∀ b, Wr H s ψ (Src.exec (callN n) n!"unit" rest (unitEnv self ver { p with projectile := b })) (K b)) :
    Wr H s ψ (Src.exec (callN n) n!"unit"
      (.ite (.compare (.attr (.name n!"self") n!"type") (.cmp .eq (.attr (.name n!"UnitType") n!"Projectile") .cmpNil))
        (.assign n!"projectile" (.ifExp (.compare (.attr (.name n!"self") n!"projectile") (.cmp .isNot .none .cmpNil)) (.call (.attr (.name n!"self") n!"write_class") (.arg (.attr (.name n!"self") n!"projectile") (.arg (.name n!"version") .argNil))) (.bytes [])) .done) .done
      rest) (unitEnv self ver p))
      (W.when [W.eqInt (.ok t) UnitType.Projectile] (W.ifNotNone (W.attr H self (lit "projectile")) (W.cls rec (W.attr H self (lit "projectile")) ver)) >>= K) := by
  peel
  refine Wr.pureBind (φ := PVal.h) (a := t) (by rw [← ht]; exact Wr.attr rfl rfl) ?_
  peel
  refine Wr.ifPart (op := .eq) ?_ ?_
  · peel
    refine Wr.assoc ?_
    refine Wr.argBind (w := fun o => W.ifNotNone o (W.cls rec (W.attr H self (lit "projectile")) ver)) (fun o => by cases o <;> rfl) (Wr.attr rfl rfl) fun v => ?_
    by_cases hv : v = .none
    · subst hv
      peel
      exact hrest []
    · peel
      rw [ifNotNone_ok hv]
      refine Wr.assoc ?_
      refine Wr.thenT (by simpa using hv) ?_
      peel
      refine Wr.assoc ?_
      refine Wr.argBind (w := fun o => W.cls rec o ver) (strict_cls _ _) (Wr.attr rfl rfl) fun u => ?_
      peel
      refine Wr.assoc ?_
      refine Wr.bind (Wr.base hi hg (by decide) (write_class hr (by omega) _ _ _)) fun b => ?_
      peel
      exact hrest b
  · peel
    have e := hrest []
    rw [show ({ p with projectile := [] } : UnitParts) = p by rw [← hp]] at e
    exact e

/-- The part `creatable` — `/repo/src/genieutils/unit.py:1537-1549` and `:1647-1659`. -/
theorem Unit_part_creatable {r n : Nat} {rec : W.Rec} {self t : HVal} {ver : Version} {p : UnitParts} {rest : St} {ψ : α → Flow} {K : Bytes → Py α}
    (hr : Writes H s r rec) (hn : r + 1 ≤ n) (hi : IsA H self n!"Unit") (hg : IsGenie n!"Unit") (ht : W.attr H self (lit "type") = .ok t)
    (hp : p.creatable = []) (hrest : ∀ b, Wr H s ψ (Src.exec (callN n) n!"unit" rest (unitEnv self ver { p with creatable := b })) (K b)) :
    Wr H s ψ (Src.exec (callN n) n!"unit"
      (.ite (.compare (.attr (.name n!"self") n!"type") (.cmp .ge (.attr (.name n!"UnitType") n!"Creatable") .cmpNil))
        (.assign n!"creatable" (.ifExp (.compare (.attr (.name n!"self") n!"creatable") (.cmp .isNot .none .cmpNil)) (.call (.attr (.name n!"self") n!"write_class") (.arg (.attr (.name n!"self") n!"creatable") (.arg (.name n!"version") .argNil))) (.bytes [])) .done) .done
      rest) (unitEnv self ver p))
      (W.when [W.geInt (.ok t) UnitType.Creatable] (W.ifNotNone (W.attr H self (lit "creatable")) (W.cls rec (W.attr H self (lit "creatable")) ver)) >>= K) := by
  peel
  refine Wr.pureBind (φ := PVal.h) (a := t) (by rw [← ht]; exact Wr.attr rfl rfl) ?_
  peel
  refine Wr.ifPart (op := .ge) ?_ ?_
  · peel
    refine Wr.assoc ?_
    refine Wr.argBind (w := fun o => W.ifNotNone o (W.cls rec (W.attr H self (lit "creatable")) ver)) (fun o => by cases o <;> rfl) (Wr.attr rfl rfl) fun v => ?_
    by_cases hv : v = .none
    · subst hv
      peel
      exact hrest []
    · peel
      rw [ifNotNone_ok hv]
      refine Wr.assoc ?_
      refine Wr.thenT (by simpa using hv) ?_
      peel
      refine Wr.assoc ?_
      refine Wr.argBind (w := fun o => W.cls rec o ver) (strict_cls _ _) (Wr.attr rfl rfl) fun u => ?_
      peel
      refine Wr.assoc ?_
      refine Wr.bind (Wr.base hi hg (by decide) (write_class hr (by omega) _ _ _)) fun b => ?_
      peel
      exact hrest b
  · peel
    have e := hrest []
    rw [show ({ p with creatable := [] } : UnitParts) = p by rw [← hp]] at e
    exact e

/-- The part `building` — `/repo/src/genieutils/unit.py:1537-1549` and `:1647-1659`. -/
theorem Unit_part_building {r n : Nat} {rec : W.Rec} {self t : HVal} {ver : Version} {p : UnitParts} {rest : St} {ψ : α → Flow} {K : Bytes → Py α}
    (hr : Writes H s r rec) (hn : r + 1 ≤ n) (hi : IsA H self n!"Unit") (hg : IsGenie n!"Unit") (ht : W.attr H self (lit "type") = .ok t)
    (hp : p.building = []) (hrest : ∀ b, Wr H s ψ (Src.exec (callN n) n!"unit" rest (unitEnv self ver { p with building := b })) (K b)) :
    Wr H s ψ (Src.exec (callN n) n!"unit"
      (.ite (.compare (.attr (.name n!"self") n!"type") (.cmp .eq (.attr (.name n!"UnitType") n!"Building") .cmpNil))
        (.assign n!"building" (.ifExp (.compare (.attr (.name n!"self") n!"building") (.cmp .isNot .none .cmpNil)) (.call (.attr (.name n!"self") n!"write_class") (.arg (.attr (.name n!"self") n!"building") (.arg (.name n!"version") .argNil))) (.bytes [])) .done) .done
      rest) (unitEnv self ver p))
      (W.when [W.eqInt (.ok t) UnitType.Building] (W.ifNotNone (W.attr H self (lit "building")) (W.cls rec (W.attr H self (lit "building")) ver)) >>= K) := by
  peel
  refine Wr.pureBind (φ := PVal.h) (a := t) (by rw [← ht]; exact Wr.attr rfl rfl) ?_
  peel
  refine Wr.ifPart (op := .eq) ?_ ?_
  · peel
    refine Wr.assoc ?_
    refine Wr.argBind (w := fun o => W.ifNotNone o (W.cls rec (W.attr H self (lit "building")) ver)) (fun o => by cases o <;> rfl) (Wr.attr rfl rfl) fun v => ?_
    by_cases hv : v = .none
    · subst hv
      peel
      exact hrest []
    · peel
      rw [ifNotNone_ok hv]
      refine Wr.assoc ?_
      refine Wr.thenT (by simpa using hv) ?_
      peel
      refine Wr.assoc ?_
      refine Wr.argBind (w := fun o => W.cls rec o ver) (strict_cls _ _) (Wr.attr rfl rfl) fun u => ?_
      peel
      refine Wr.assoc ?_
      refine Wr.bind (Wr.base hi hg (by decide) (write_class hr (by omega) _ _ _)) fun b => ?_
      peel
      exact hrest b
  · peel
    have e := hrest []
    rw [show ({ p with building := [] } : UnitParts) = p by rw [← hp]] at e
    exact e

/-- All parts of a unit whose type has parts. -/
theorem Unit_block {r n : Nat} {rec : W.Rec} {self t : HVal} {ver : Version} (hr : Writes H s r rec) (h2 : 2 ≤ r) (hn : r + 1 ≤ n)
    (hi : IsA H self n!"Unit") (hg : IsGenie n!"Unit") (ht : W.attr H self (lit "type") = .ok t) :
    Wr H s (fun p => Flow.next (unitEnv self ver p)) (Src.exec (callN n) n!"unit" unitBlock (unitEnv self ver UnitParts.none)) (do
  let speed ← W.ifNotNone (W.attr H self (lit "speed")) (W.float (W.attr H self (lit "speed")))
  let dead_fish ← W.when [W.geInt (.ok t) UnitType.DeadFish] (W.ifNotNone (W.attr H self (lit "dead_fish")) (W.cls rec (W.attr H self (lit "dead_fish")) ver))
  let bird ← W.when [W.geInt (.ok t) UnitType.Bird] (W.ifNotNone (W.attr H self (lit "bird")) (W.cls rec (W.attr H self (lit "bird")) ver))
  let type_50 ← W.when [W.geInt (.ok t) UnitType.Combatant] (W.ifNotNone (W.attr H self (lit "type_50")) (W.cls rec (W.attr H self (lit "type_50")) ver))
  let projectile ← W.when [W.eqInt (.ok t) UnitType.Projectile] (W.ifNotNone (W.attr H self (lit "projectile")) (W.cls rec (W.attr H self (lit "projectile")) ver))
  let creatable ← W.when [W.geInt (.ok t) UnitType.Creatable] (W.ifNotNone (W.attr H self (lit "creatable")) (W.cls rec (W.attr H self (lit "creatable")) ver))
  let building ← W.when [W.eqInt (.ok t) UnitType.Building] (W.ifNotNone (W.attr H self (lit "building")) (W.cls rec (W.attr H self (lit "building")) ver))
  Except.ok (UnitParts.mk speed dead_fish bird type_50 projectile creatable building)) := by
  unfold unitBlock
  have rest : ∀ b, Wr H s (fun p => Flow.next (unitEnv self ver p)) (Src.exec (callN n) n!"unit"
      (.ite (.compare (.attr (.name n!"self") n!"type") (.cmp .ge (.attr (.name n!"UnitType") n!"DeadFish") .cmpNil))
        (.assign n!"dead_fish" (.ifExp (.compare (.attr (.name n!"self") n!"dead_fish") (.cmp .isNot .none .cmpNil)) (.call (.attr (.name n!"self") n!"write_class") (.arg (.attr (.name n!"self") n!"dead_fish") (.arg (.name n!"version") .argNil))) (.bytes [])) .done) .done
      (.ite (.compare (.attr (.name n!"self") n!"type") (.cmp .ge (.attr (.name n!"UnitType") n!"Bird") .cmpNil))
        (.assign n!"bird" (.ifExp (.compare (.attr (.name n!"self") n!"bird") (.cmp .isNot .none .cmpNil)) (.call (.attr (.name n!"self") n!"write_class") (.arg (.attr (.name n!"self") n!"bird") (.arg (.name n!"version") .argNil))) (.bytes [])) .done) .done
      (.ite (.compare (.attr (.name n!"self") n!"type") (.cmp .ge (.attr (.name n!"UnitType") n!"Combatant") .cmpNil))
        (.assign n!"type_50" (.ifExp (.compare (.attr (.name n!"self") n!"type_50") (.cmp .isNot .none .cmpNil)) (.call (.attr (.name n!"self") n!"write_class") (.arg (.attr (.name n!"self") n!"type_50") (.arg (.name n!"version") .argNil))) (.bytes [])) .done) .done
      (.ite (.compare (.attr (.name n!"self") n!"type") (.cmp .eq (.attr (.name n!"UnitType") n!"Projectile") .cmpNil))
        (.assign n!"projectile" (.ifExp (.compare (.attr (.name n!"self") n!"projectile") (.cmp .isNot .none .cmpNil)) (.call (.attr (.name n!"self") n!"write_class") (.arg (.attr (.name n!"self") n!"projectile") (.arg (.name n!"version") .argNil))) (.bytes [])) .done) .done
      (.ite (.compare (.attr (.name n!"self") n!"type") (.cmp .ge (.attr (.name n!"UnitType") n!"Creatable") .cmpNil))
        (.assign n!"creatable" (.ifExp (.compare (.attr (.name n!"self") n!"creatable") (.cmp .isNot .none .cmpNil)) (.call (.attr (.name n!"self") n!"write_class") (.arg (.attr (.name n!"self") n!"creatable") (.arg (.name n!"version") .argNil))) (.bytes [])) .done) .done
      (.ite (.compare (.attr (.name n!"self") n!"type") (.cmp .eq (.attr (.name n!"UnitType") n!"Building") .cmpNil))
        (.assign n!"building" (.ifExp (.compare (.attr (.name n!"self") n!"building") (.cmp .isNot .none .cmpNil)) (.call (.attr (.name n!"self") n!"write_class") (.arg (.attr (.name n!"self") n!"building") (.arg (.name n!"version") .argNil))) (.bytes [])) .done) .done
      .done)))))) (unitEnv self ver { UnitParts.none with speed := b })) (do
  let dead_fish ← W.when [W.geInt (.ok t) UnitType.DeadFish] (W.ifNotNone (W.attr H self (lit "dead_fish")) (W.cls rec (W.attr H self (lit "dead_fish")) ver))
  let bird ← W.when [W.geInt (.ok t) UnitType.Bird] (W.ifNotNone (W.attr H self (lit "bird")) (W.cls rec (W.attr H self (lit "bird")) ver))
  let type_50 ← W.when [W.geInt (.ok t) UnitType.Combatant] (W.ifNotNone (W.attr H self (lit "type_50")) (W.cls rec (W.attr H self (lit "type_50")) ver))
  let projectile ← W.when [W.eqInt (.ok t) UnitType.Projectile] (W.ifNotNone (W.attr H self (lit "projectile")) (W.cls rec (W.attr H self (lit "projectile")) ver))
  let creatable ← W.when [W.geInt (.ok t) UnitType.Creatable] (W.ifNotNone (W.attr H self (lit "creatable")) (W.cls rec (W.attr H self (lit "creatable")) ver))
  let building ← W.when [W.eqInt (.ok t) UnitType.Building] (W.ifNotNone (W.attr H self (lit "building")) (W.cls rec (W.attr H self (lit "building")) ver))
  Except.ok (UnitParts.mk b dead_fish bird type_50 projectile creatable building)) := by
    intro b0
    refine Unit_part_dead_fish hr hn hi hg ht rfl fun b1 => ?_
    refine Unit_part_bird hr hn hi hg ht rfl fun b2 => ?_
    refine Unit_part_type_50 hr hn hi hg ht rfl fun b3 => ?_
    refine Unit_part_projectile hr hn hi hg ht rfl fun b4 => ?_
    refine Unit_part_creatable hr hn hi hg ht rfl fun b5 => ?_
    refine Unit_part_building hr hn hi hg ht rfl fun b6 => ?_
    exact Wr.done' rfl
  refine Wr.argBind (w := fun o => W.ifNotNone o (W.float (W.attr H self (lit "speed")))) (fun o => by cases o <;> rfl) (Wr.attr rfl rfl) fun v => ?_
  by_cases hv : v = .none
  · subst hv
    exact rest []
  · rw [ifNotNone_ok hv]
    peel
    refine Wr.thenT (by simpa using hv) ?_
    peel
    refine Wr.assoc ?_
    refine Wr.argBind (w := W.float) strict_float (Wr.attr rfl rfl) fun u => ?_
    peel
    refine Wr.assoc ?_
    refine Wr.bind (Wr.base hi hg (by decide) (write_float (by omega) _ _)) fun b => ?_
    exact rest b

/-- The parts of a unit. -/
def unitPartsOf (H : Heap) (rec : W.Rec) (self : HVal) (ver : Version) (o : Py HVal) : Py UnitParts := do
  let speed ← W.when [W.neInt o UnitType.AoeTrees, W.geInt o UnitType.Flag] (W.ifNotNone (W.attr H self (lit "speed")) (W.float (W.attr H self (lit "speed"))))
  let dead_fish ← W.when [W.neInt o UnitType.AoeTrees, W.geInt o UnitType.Flag, W.geInt o UnitType.DeadFish] (W.ifNotNone (W.attr H self (lit "dead_fish")) (W.cls rec (W.attr H self (lit "dead_fish")) ver))
  let bird ← W.when [W.neInt o UnitType.AoeTrees, W.geInt o UnitType.Flag, W.geInt o UnitType.Bird] (W.ifNotNone (W.attr H self (lit "bird")) (W.cls rec (W.attr H self (lit "bird")) ver))
  let type_50 ← W.when [W.neInt o UnitType.AoeTrees, W.geInt o UnitType.Flag, W.geInt o UnitType.Combatant] (W.ifNotNone (W.attr H self (lit "type_50")) (W.cls rec (W.attr H self (lit "type_50")) ver))
  let projectile ← W.when [W.neInt o UnitType.AoeTrees, W.geInt o UnitType.Flag, W.eqInt o UnitType.Projectile] (W.ifNotNone (W.attr H self (lit "projectile")) (W.cls rec (W.attr H self (lit "projectile")) ver))
  let creatable ← W.when [W.neInt o UnitType.AoeTrees, W.geInt o UnitType.Flag, W.geInt o UnitType.Creatable] (W.ifNotNone (W.attr H self (lit "creatable")) (W.cls rec (W.attr H self (lit "creatable")) ver))
  let building ← W.when [W.neInt o UnitType.AoeTrees, W.geInt o UnitType.Flag, W.eqInt o UnitType.Building] (W.ifNotNone (W.attr H self (lit "building")) (W.cls rec (W.attr H self (lit "building")) ver))
  Except.ok (UnitParts.mk speed dead_fish bird type_50 projectile creatable building)

/-- The statements before the `return` — `/repo/src/genieutils/unit.py:1535-1549` and `:1645-1659`. -/
theorem Unit_parts {r n : Nat} {rec : W.Rec} {self : HVal} {ver : Version} {rest : St} {ψ : α → Flow} {K : UnitParts → Py α} (hr : Writes H s r rec)
    (h2 : 2 ≤ r) (hn : r + 1 ≤ n) (hi : IsA H self n!"Unit") (hg : IsGenie n!"Unit")
    (hrest : ∀ p, Wr H s ψ (Src.exec (callN n) n!"unit" rest (unitEnv self ver p)) (K p)) :
    Wr H s ψ (Src.exec (callN n) n!"unit"
      (.ite (.compare (.attr (.name n!"self") n!"type") (.cmp .ne (.attr (.name n!"UnitType") n!"AoeTrees") .cmpNil))
        (.ite (.compare (.attr (.name n!"self") n!"type") (.cmp .ge (.attr (.name n!"UnitType") n!"Flag") .cmpNil)) unitBlock .done .done) .done rest)
      (unitEnv self ver UnitParts.none))
      (unitPartsOf H rec self ver (W.attr H self (lit "type")) >>= K) := by
  peel
  cases ht : W.attr H self (lit "type") with
  | error e =>
    have h := Wr.attr (H := H) (s := s) (call := callN n) (v := self) (a := n!"type") (n := lit "type") rfl rfl
    rw [ht] at h
    exact Wr.errBind h
  | ok t =>
    refine Wr.pureBind (φ := PVal.h) (a := t) (by rw [← ht]; exact Wr.attr rfl rfl) ?_
    peel
    have e : unitPartsOf H rec self ver (.ok t) >>= K = Src.intCmp .ne t UnitType.AoeTrees >>= fun b =>
        if b then (Src.intCmp .ge t UnitType.Flag >>= fun b => if b then ((do
  let speed ← W.ifNotNone (W.attr H self (lit "speed")) (W.float (W.attr H self (lit "speed")))
  let dead_fish ← W.when [W.geInt (.ok t) UnitType.DeadFish] (W.ifNotNone (W.attr H self (lit "dead_fish")) (W.cls rec (W.attr H self (lit "dead_fish")) ver))
  let bird ← W.when [W.geInt (.ok t) UnitType.Bird] (W.ifNotNone (W.attr H self (lit "bird")) (W.cls rec (W.attr H self (lit "bird")) ver))
  let type_50 ← W.when [W.geInt (.ok t) UnitType.Combatant] (W.ifNotNone (W.attr H self (lit "type_50")) (W.cls rec (W.attr H self (lit "type_50")) ver))
  let projectile ← W.when [W.eqInt (.ok t) UnitType.Projectile] (W.ifNotNone (W.attr H self (lit "projectile")) (W.cls rec (W.attr H self (lit "projectile")) ver))
  let creatable ← W.when [W.geInt (.ok t) UnitType.Creatable] (W.ifNotNone (W.attr H self (lit "creatable")) (W.cls rec (W.attr H self (lit "creatable")) ver))
  let building ← W.when [W.eqInt (.ok t) UnitType.Building] (W.ifNotNone (W.attr H self (lit "building")) (W.cls rec (W.attr H self (lit "building")) ver))
  Except.ok (UnitParts.mk speed dead_fish bird type_50 projectile creatable building)) : Py UnitParts) >>= K else K UnitParts.none) else K UnitParts.none := by
      have e1 : Src.intCmp .ne t UnitType.AoeTrees = W.neInt (.ok t) UnitType.AoeTrees := rfl
      have e2 : Src.intCmp .ge t UnitType.Flag = W.geInt (.ok t) UnitType.Flag := rfl
      rw [e1, e2]
      unfold unitPartsOf
      cases W.neInt (.ok t) UnitType.AoeTrees with
      | error e => rfl
      | ok b =>
        cases b with
        | false => rfl
        | true =>
          cases W.geInt (.ok t) UnitType.Flag with
          | error e => rfl
          | ok b => cases b <;> rfl
    rw [e]
    refine Wr.assoc ?_
    refine Wr.bind (Wr.py _) fun b => ?_
    cases b with
    | false => exact hrest _
    | true =>
      peel
      refine Wr.assoc ?_
      refine Wr.pureBind (φ := PVal.h) (a := t) (by rw [← ht]; exact Wr.attr rfl rfl) ?_
      peel
      refine Wr.assoc ?_
      refine Wr.assoc ?_
      refine Wr.bind (Wr.py _) fun b => ?_
      cases b with
      | false => exact hrest _
      | true =>
        show Wr H s ψ (Src.andThen (Src.andThen (Src.exec (callN n) n!"unit" unitBlock (unitEnv self ver UnitParts.none)) fun fl =>
          Src.after fl (Src.exec (callN n) n!"unit" .done)) fun fl => Src.after fl (Src.exec (callN n) n!"unit" rest)) _
        refine Wr.assoc ?_
        refine Wr.bind (Unit_block hr h2 hn hi hg ht) fun p => ?_
        exact hrest p

/-- The model of `Unit.to_bytes_84`, with the parts first. -/
theorem Unit_write84_parts (H : Heap) (rec : W.Rec) (self : HVal) (ver : Version) : Unit.write84 H rec self ver =
    unitPartsOf H rec self ver (W.attr H self (lit "type")) >>= fun p => 
  joinB [
    W.pack UNIT_FORMAT [
      W.arg (W.attr H self (lit "type")),
      W.arg (W.attr H self (lit "id")),
      W.arg (W.attr H self (lit "language_dll_name")),
      W.arg (W.attr H self (lit "language_dll_creation")),
      W.arg (W.attr H self (lit "class_")),
      W.iter H (W.attr H self (lit "standing_graphic")),
      W.arg (W.attr H self (lit "dying_graphic")),
      W.arg (W.attr H self (lit "undead_graphic")),
      W.arg (W.attr H self (lit "undead_mode")),
      W.arg (W.attr H self (lit "hit_points")),
      W.arg (W.attr H self (lit "line_of_sight")),
      W.arg (W.attr H self (lit "garrison_capacity")),
      W.arg (W.attr H self (lit "collision_size_x")),
      W.arg (W.attr H self (lit "collision_size_y")),
      W.arg (W.attr H self (lit "collision_size_z")),
      W.arg (W.attr H self (lit "train_sound")),
      W.arg (W.attr H self (lit "damage_sound")),
      W.arg (W.attr H self (lit "dead_unit_id")),
      W.arg (W.attr H self (lit "blood_unit_id")),
      W.arg (W.attr H self (lit "sort_number")),
      W.arg (W.attr H self (lit "can_be_built_on")),
      W.arg (W.attr H self (lit "icon_id")),
      W.arg (W.attr H self (lit "hide_in_editor")),
      W.arg (W.attr H self (lit "old_portrait_pict")),
      W.arg (W.attr H self (lit "enabled")),
      W.arg (W.attr H self (lit "disabled")),
      W.iter H (W.attr H self (lit "placement_side_terrain")),
      W.iter H (W.attr H self (lit "placement_terrain")),
      W.iter H (W.attr H self (lit "clearance_size")),
      W.arg (W.attr H self (lit "hill_mode")),
      W.arg (W.attr H self (lit "fog_visibility")),
      W.arg (W.attr H self (lit "terrain_restriction")),
      W.arg (W.attr H self (lit "fly_mode")),
      W.arg (W.attr H self (lit "resource_capacity")),
      W.arg (W.attr H self (lit "resource_decay")),
      W.arg (W.attr H self (lit "blast_defense_level")),
      W.arg (W.attr H self (lit "combat_level")),
      W.arg (W.attr H self (lit "interaction_mode")),
      W.arg (W.attr H self (lit "minimap_mode")),
      W.arg (W.attr H self (lit "interface_kind")),
      W.arg (W.attr H self (lit "multiple_attribute_mode")),
      W.arg (W.attr H self (lit "minimap_color")),
      W.arg (W.attr H self (lit "language_dll_help")),
      W.arg (W.attr H self (lit "language_dll_hotkey_text")),
      W.arg (W.attr H self (lit "hot_key")),
      W.arg (W.attr H self (lit "recyclable")),
      W.arg (W.attr H self (lit "enable_auto_gather")),
      W.arg (W.attr H self (lit "create_doppelganger_on_death")),
      W.arg (W.attr H self (lit "resource_gather_group")),
      W.arg (W.attr H self (lit "occlusion_mode")),
      W.arg (W.attr H self (lit "obstruction_type")),
      W.arg (W.attr H self (lit "obstruction_class")),
      W.arg (W.attr H self (lit "trait")),
      W.arg (W.attr H self (lit "civilization")),
      W.arg (W.attr H self (lit "nothing")),
      W.arg (W.attr H self (lit "selection_effect")),
      W.arg (W.attr H self (lit "editor_selection_colour")),
      W.arg (W.attr H self (lit "outline_size_x")),
      W.arg (W.attr H self (lit "outline_size_y")),
      W.arg (W.attr H self (lit "outline_size_z")),
      W.arg (W.attr H self (lit "scenario_triggers_1")),
      W.arg (W.attr H self (lit "scenario_triggers_2"))],
    joinB [
      W.classArray H rec (W.attr H self (lit "resource_storages")) ver,
      W.int8 H (W.nat (W.len H (W.attr H self (lit "damage_graphics")))),
      W.classArray H rec (W.attr H self (lit "damage_graphics")) ver,
      W.int16 H (W.attr H self (lit "selection_sound")),
      W.int16 H (W.attr H self (lit "dying_sound")),
      W.int32 H (W.attr H self (lit "wwise_train_sound_id")),
      W.int32 H (W.attr H self (lit "wwise_damage_sound_id")),
      W.int32 H (W.attr H self (lit "wwise_selection_sound_id")),
      W.int32 H (W.attr H self (lit "wwise_dying_sound_id")),
      W.int8 H (W.attr H self (lit "old_attack_reaction")),
      W.int8 H (W.attr H self (lit "convert_terrain")),
      W.debugString (W.attr H self (lit "name")),
      W.int16 H (W.attr H self (lit "copy_id")),
      W.int16 H (W.attr H self (lit "base_id")),
      .ok p.speed,
      .ok p.dead_fish,
      .ok p.bird,
      .ok p.type_50,
      .ok p.projectile,
      .ok p.creatable,
      .ok p.building]] := by
  unfold Unit.write84 unitPartsOf
  simp only [bind_assoc]
  rfl

/-- `Unit.to_bytes_84` — `/repo/src/genieutils/unit.py:1527-1635`. -/
theorem Unit_to_bytes_84 : WritesAs' n!"Unit" n!"to_bytes_84" Unit.write84 := by
  intro H s r n rec self ver hk hr h2 hn hi
  have hg : IsGenie n!"Unit" := IsGenie.of (by decide +kernel)
  write_fun
  rw [Unit_write84_parts]
  refine Unit_parts hr h2 (by omega) hi hg fun p => ?_
  peel
  refine Wr.join ?_
  refine Wr.packElem ?_
  refine Wr.pArg (Wr.attr rfl rfl) fun _ => ?_
  peel
  refine Wr.pArg (Wr.attr rfl rfl) fun _ => ?_
  peel
  refine Wr.pArg (Wr.attr rfl rfl) fun _ => ?_
  peel
  refine Wr.pArg (Wr.attr rfl rfl) fun _ => ?_
  peel
  refine Wr.pArg (Wr.attr rfl rfl) fun _ => ?_
  peel
  refine Wr.pStar (Wr.attr rfl rfl) fun _ => ?_
  peel
  refine Wr.pIter fun _ => ?_
  peel
  refine Wr.pArg (Wr.attr rfl rfl) fun _ => ?_
  peel
  refine Wr.pArg (Wr.attr rfl rfl) fun _ => ?_
  peel
  refine Wr.pArg (Wr.attr rfl rfl) fun _ => ?_
  peel
  refine Wr.pArg (Wr.attr rfl rfl) fun _ => ?_
  peel
  refine Wr.pArg (Wr.attr rfl rfl) fun _ => ?_
  peel
  refine Wr.pArg (Wr.attr rfl rfl) fun _ => ?_
  peel
  refine Wr.pArg (Wr.attr rfl rfl) fun _ => ?_
  peel
  refine Wr.pArg (Wr.attr rfl rfl) fun _ => ?_
  peel
  refine Wr.pArg (Wr.attr rfl rfl) fun _ => ?_
  peel
  refine Wr.pArg (Wr.attr rfl rfl) fun _ => ?_
  peel
  refine Wr.pArg (Wr.attr rfl rfl) fun _ => ?_
  peel
  refine Wr.pArg (Wr.attr rfl rfl) fun _ => ?_
  peel
  refine Wr.pArg (Wr.attr rfl rfl) fun _ => ?_
  peel
  refine Wr.pArg (Wr.attr rfl rfl) fun _ => ?_
  peel
  refine Wr.pArg (Wr.attr rfl rfl) fun _ => ?_
  peel
  refine Wr.pArg (Wr.attr rfl rfl) fun _ => ?_
  peel
  refine Wr.pArg (Wr.attr rfl rfl) fun _ => ?_
  peel
  refine Wr.pArg (Wr.attr rfl rfl) fun _ => ?_
  peel
  refine Wr.pArg (Wr.attr rfl rfl) fun _ => ?_
  peel
  refine Wr.pArg (Wr.attr rfl rfl) fun _ => ?_
  peel
  refine Wr.pStar (Wr.attr rfl rfl) fun _ => ?_
  peel
  refine Wr.pIter fun _ => ?_
  peel
  refine Wr.pStar (Wr.attr rfl rfl) fun _ => ?_
  peel
  refine Wr.pIter fun _ => ?_
  peel
  refine Wr.pStar (Wr.attr rfl rfl) fun _ => ?_
  peel
  refine Wr.pIter fun _ => ?_
  peel
  refine Wr.pArg (Wr.attr rfl rfl) fun _ => ?_
  peel
  refine Wr.pArg (Wr.attr rfl rfl) fun _ => ?_
  peel
  refine Wr.pArg (Wr.attr rfl rfl) fun _ => ?_
  peel
  refine Wr.pArg (Wr.attr rfl rfl) fun _ => ?_
  peel
  refine Wr.pArg (Wr.attr rfl rfl) fun _ => ?_
  peel
  refine Wr.pArg (Wr.attr rfl rfl) fun _ => ?_
  peel
  refine Wr.pArg (Wr.attr rfl rfl) fun _ => ?_
  peel
  refine Wr.pArg (Wr.attr rfl rfl) fun _ => ?_
  peel
  refine Wr.pArg (Wr.attr rfl rfl) fun _ => ?_
  peel
  refine Wr.pArg (Wr.attr rfl rfl) fun _ => ?_
  peel
  refine Wr.pArg (Wr.attr rfl rfl) fun _ => ?_
  peel
  refine Wr.pArg (Wr.attr rfl rfl) fun _ => ?_
  peel
  refine Wr.pArg (Wr.attr rfl rfl) fun _ => ?_
  peel
  refine Wr.pArg (Wr.attr rfl rfl) fun _ => ?_
  peel
  refine Wr.pArg (Wr.attr rfl rfl) fun _ => ?_
  peel
  refine Wr.pArg (Wr.attr rfl rfl) fun _ => ?_
  peel
  refine Wr.pArg (Wr.attr rfl rfl) fun _ => ?_
  peel
  refine Wr.pArg (Wr.attr rfl rfl) fun _ => ?_
  peel
  refine Wr.pArg (Wr.attr rfl rfl) fun _ => ?_
  peel
  refine Wr.pArg (Wr.attr rfl rfl) fun _ => ?_
  peel
  refine Wr.pArg (Wr.attr rfl rfl) fun _ => ?_
  peel
  refine Wr.pArg (Wr.attr rfl rfl) fun _ => ?_
  peel
  refine Wr.pArg (Wr.attr rfl rfl) fun _ => ?_
  peel
  refine Wr.pArg (Wr.attr rfl rfl) fun _ => ?_
  peel
  refine Wr.pArg (Wr.attr rfl rfl) fun _ => ?_
  peel
  refine Wr.pArg (Wr.attr rfl rfl) fun _ => ?_
  peel
  refine Wr.pArg (Wr.attr rfl rfl) fun _ => ?_
  peel
  refine Wr.pArg (Wr.attr rfl rfl) fun _ => ?_
  peel
  refine Wr.pArg (Wr.attr rfl rfl) fun _ => ?_
  peel
  refine Wr.pArg (Wr.attr rfl rfl) fun _ => ?_
  peel
  refine Wr.pArg (Wr.attr rfl rfl) fun _ => ?_
  peel
  refine Wr.pArg (Wr.attr rfl rfl) fun _ => ?_
  peel
  refine Wr.pArg (Wr.attr rfl rfl) fun _ => ?_
  peel
  refine Wr.packEnd (by decide) (by pack_args) fun _ => ?_
  peel
  refine Wr.nested ?_
  refine Wr.eAttr (w := fun o => W.classArray H rec o ver) (strict_classArray _ _) rfl rfl fun _ => ?_
  peel
  refine Wr.elem (Wr.base hi hg (by decide) (write_class_array hr (by omega) hi hg _ _)) fun _ => ?_
  peel
  refine Wr.eLenAttr (w := W.int8 H) strict_int8 rfl rfl fun _ => ?_
  peel
  refine Wr.eLen (w := W.int8 H) strict_int8 fun _ => ?_
  peel
  refine Wr.elem (Wr.base hi hg (by decide) (write_int_8 hk (by omega) _ _)) fun _ => ?_
  peel
  refine Wr.eAttr (w := fun o => W.classArray H rec o ver) (strict_classArray _ _) rfl rfl fun _ => ?_
  peel
  refine Wr.elem (Wr.base hi hg (by decide) (write_class_array hr (by omega) hi hg _ _)) fun _ => ?_
  peel
  refine Wr.eAttr (w := W.int16 H) strict_int16 rfl rfl fun _ => ?_
  peel
  refine Wr.elem (Wr.base hi hg (by decide) (write_int_16 hk (by omega) _ _)) fun _ => ?_
  peel
  refine Wr.eAttr (w := W.int16 H) strict_int16 rfl rfl fun _ => ?_
  peel
  refine Wr.elem (Wr.base hi hg (by decide) (write_int_16 hk (by omega) _ _)) fun _ => ?_
  peel
  refine Wr.eAttr (w := W.int32 H) strict_int32 rfl rfl fun _ => ?_
  peel
  refine Wr.elem (Wr.base hi hg (by decide) (write_int_32 hk (by omega) _ _)) fun _ => ?_
  peel
  refine Wr.eAttr (w := W.int32 H) strict_int32 rfl rfl fun _ => ?_
  peel
  refine Wr.elem (Wr.base hi hg (by decide) (write_int_32 hk (by omega) _ _)) fun _ => ?_
  peel
  refine Wr.eAttr (w := W.int32 H) strict_int32 rfl rfl fun _ => ?_
  peel
  refine Wr.elem (Wr.base hi hg (by decide) (write_int_32 hk (by omega) _ _)) fun _ => ?_
  peel
  refine Wr.eAttr (w := W.int32 H) strict_int32 rfl rfl fun _ => ?_
  peel
  refine Wr.elem (Wr.base hi hg (by decide) (write_int_32 hk (by omega) _ _)) fun _ => ?_
  peel
  refine Wr.eAttr (w := W.int8 H) strict_int8 rfl rfl fun _ => ?_
  peel
  refine Wr.elem (Wr.base hi hg (by decide) (write_int_8 hk (by omega) _ _)) fun _ => ?_
  peel
  refine Wr.eAttr (w := W.int8 H) strict_int8 rfl rfl fun _ => ?_
  peel
  refine Wr.elem (Wr.base hi hg (by decide) (write_int_8 hk (by omega) _ _)) fun _ => ?_
  peel
  refine Wr.eAttr (w := W.debugString) strict_debugString rfl rfl fun _ => ?_
  peel
  refine Wr.elem (Wr.base hi hg (by decide) (write_debug_string hk (by omega) hi hg _)) fun _ => ?_
  peel
  refine Wr.eAttr (w := W.int16 H) strict_int16 rfl rfl fun _ => ?_
  peel
  refine Wr.elem (Wr.base hi hg (by decide) (write_int_16 hk (by omega) _ _)) fun _ => ?_
  peel
  refine Wr.eAttr (w := W.int16 H) strict_int16 rfl rfl fun _ => ?_
  peel
  refine Wr.elem (Wr.base hi hg (by decide) (write_int_16 hk (by omega) _ _)) fun _ => ?_
  peel
  refine Wr.known ?_
  refine Wr.known ?_
  refine Wr.known ?_
  refine Wr.known ?_
  refine Wr.known ?_
  refine Wr.known ?_
  refine Wr.known ?_
  exact Wr.done' (by join_end)

/-- The model of `Unit.to_bytes_88`, with the parts first. -/
theorem Unit_write88_parts (H : Heap) (rec : W.Rec) (self : HVal) (ver : Version) : Unit.write88 H rec self ver =
    unitPartsOf H rec self ver (W.attr H self (lit "type")) >>= fun p => 
  joinB [
    W.pack UNIT_FORMAT_88 [
      W.arg (W.attr H self (lit "type")),
      W.arg (W.attr H self (lit "id")),
      W.arg (W.attr H self (lit "language_dll_name")),
      W.arg (W.attr H self (lit "language_dll_creation")),
      W.arg (W.attr H self (lit "class_")),
      W.iter H (W.attr H self (lit "standing_graphic")),
      W.arg (W.attr H self (lit "dying_graphic")),
      W.arg (W.attr H self (lit "undead_graphic")),
      W.arg (W.attr H self (lit "undead_mode")),
      W.arg (W.attr H self (lit "hit_points")),
      W.arg (W.attr H self (lit "line_of_sight")),
      W.arg (W.attr H self (lit "garrison_capacity")),
      W.arg (W.attr H self (lit "collision_size_x")),
      W.arg (W.attr H self (lit "collision_size_y")),
      W.arg (W.attr H self (lit "collision_size_z")),
      W.arg (W.attr H self (lit "train_sound")),
      W.arg (W.attr H self (lit "damage_sound")),
      W.arg (W.attr H self (lit "dead_unit_id")),
      W.arg (W.attr H self (lit "blood_unit_id")),
      W.arg (W.attr H self (lit "sort_number")),
      W.arg (W.attr H self (lit "can_be_built_on")),
      W.arg (W.attr H self (lit "icon_id")),
      W.arg (W.attr H self (lit "hide_in_editor")),
      W.arg (W.attr H self (lit "old_portrait_pict")),
      W.arg (W.attr H self (lit "enabled")),
      W.arg (W.attr H self (lit "disabled")),
      W.iter H (W.attr H self (lit "placement_side_terrain")),
      W.iter H (W.attr H self (lit "placement_terrain")),
      W.iter H (W.attr H self (lit "clearance_size")),
      W.arg (W.attr H self (lit "hill_mode")),
      W.arg (W.attr H self (lit "fog_visibility")),
      W.arg (W.attr H self (lit "terrain_restriction")),
      W.arg (W.attr H self (lit "fly_mode")),
      W.arg (W.attr H self (lit "resource_capacity")),
      W.arg (W.attr H self (lit "resource_decay")),
      W.arg (W.attr H self (lit "blast_defense_level")),
      W.arg (W.attr H self (lit "combat_level")),
      W.arg (W.attr H self (lit "interaction_mode")),
      W.arg (W.attr H self (lit "minimap_mode")),
      W.arg (W.attr H self (lit "interface_kind")),
      W.arg (W.attr H self (lit "multiple_attribute_mode")),
      W.arg (W.attr H self (lit "minimap_color")),
      W.arg (W.attr H self (lit "language_dll_help")),
      W.arg (W.attr H self (lit "language_dll_hotkey_text")),
      W.arg (W.attr H self (lit "recyclable")),
      W.arg (W.attr H self (lit "enable_auto_gather")),
      W.arg (W.attr H self (lit "create_doppelganger_on_death")),
      W.arg (W.attr H self (lit "resource_gather_group")),
      W.arg (W.attr H self (lit "occlusion_mode")),
      W.arg (W.attr H self (lit "obstruction_type")),
      W.arg (W.attr H self (lit "obstruction_class")),
      W.arg (W.attr H self (lit "trait")),
      W.arg (W.attr H self (lit "civilization")),
      W.arg (W.attr H self (lit "nothing")),
      W.arg (W.attr H self (lit "selection_effect")),
      W.arg (W.attr H self (lit "editor_selection_colour")),
      W.arg (W.attr H self (lit "outline_size_x")),
      W.arg (W.attr H self (lit "outline_size_y")),
      W.arg (W.attr H self (lit "outline_size_z")),
      W.arg (W.attr H self (lit "scenario_triggers_1")),
      W.arg (W.attr H self (lit "scenario_triggers_2"))],
    joinB [
      W.classArray H rec (W.attr H self (lit "resource_storages")) ver,
      W.int8 H (W.nat (W.len H (W.attr H self (lit "damage_graphics")))),
      W.classArray H rec (W.attr H self (lit "damage_graphics")) ver,
      W.int16 H (W.attr H self (lit "selection_sound")),
      W.int16 H (W.attr H self (lit "dying_sound")),
      W.int32 H (W.attr H self (lit "wwise_train_sound_id")),
      W.int32 H (W.attr H self (lit "wwise_damage_sound_id")),
      W.int32 H (W.attr H self (lit "wwise_selection_sound_id")),
      W.int32 H (W.attr H self (lit "wwise_dying_sound_id")),
      W.int8 H (W.attr H self (lit "old_attack_reaction")),
      W.int8 H (W.attr H self (lit "convert_terrain")),
      W.debugString (W.attr H self (lit "name")),
      W.int16 H (W.attr H self (lit "copy_id")),
      W.int16 H (W.attr H self (lit "base_id")),
      .ok p.speed,
      .ok p.dead_fish,
      .ok p.bird,
      .ok p.type_50,
      .ok p.projectile,
      .ok p.creatable,
      .ok p.building]] := by
  unfold Unit.write88 unitPartsOf
  simp only [bind_assoc]
  rfl

/-- `Unit.to_bytes_88` — `/repo/src/genieutils/unit.py:1637-1744`. -/
theorem Unit_to_bytes_88 : WritesAs' n!"Unit" n!"to_bytes_88" Unit.write88 := by
  intro H s r n rec self ver hk hr h2 hn hi
  have hg : IsGenie n!"Unit" := IsGenie.of (by decide +kernel)
  write_fun
  rw [Unit_write88_parts]
  refine Unit_parts hr h2 (by omega) hi hg fun p => ?_
  peel
  refine Wr.join ?_
  refine Wr.packElem ?_
  refine Wr.pArg (Wr.attr rfl rfl) fun _ => ?_
  peel
  refine Wr.pArg (Wr.attr rfl rfl) fun _ => ?_
  peel
  refine Wr.pArg (Wr.attr rfl rfl) fun _ => ?_
  peel
  refine Wr.pArg (Wr.attr rfl rfl) fun _ => ?_
  peel
  refine Wr.pArg (Wr.attr rfl rfl) fun _ => ?_
  peel
  refine Wr.pStar (Wr.attr rfl rfl) fun _ => ?_
  peel
  refine Wr.pIter fun _ => ?_
  peel
  refine Wr.pArg (Wr.attr rfl rfl) fun _ => ?_
  peel
  refine Wr.pArg (Wr.attr rfl rfl) fun _ => ?_
  peel
  refine Wr.pArg (Wr.attr rfl rfl) fun _ => ?_
  peel
  refine Wr.pArg (Wr.attr rfl rfl) fun _ => ?_
  peel
  refine Wr.pArg (Wr.attr rfl rfl) fun _ => ?_
  peel
  refine Wr.pArg (Wr.attr rfl rfl) fun _ => ?_
  peel
  refine Wr.pArg (Wr.attr rfl rfl) fun _ => ?_
  peel
  refine Wr.pArg (Wr.attr rfl rfl) fun _ => ?_
  peel
  refine Wr.pArg (Wr.attr rfl rfl) fun _ => ?_
  peel
  refine Wr.pArg (Wr.attr rfl rfl) fun _ => ?_
  peel
  refine Wr.pArg (Wr.attr rfl rfl) fun _ => ?_
  peel
  refine Wr.pArg (Wr.attr rfl rfl) fun _ => ?_
  peel
  refine Wr.pArg (Wr.attr rfl rfl) fun _ => ?_
  peel
  refine Wr.pArg (Wr.attr rfl rfl) fun _ => ?_
  peel
  refine Wr.pArg (Wr.attr rfl rfl) fun _ => ?_
  peel
  refine Wr.pArg (Wr.attr rfl rfl) fun _ => ?_
  peel
  refine Wr.pArg (Wr.attr rfl rfl) fun _ => ?_
  peel
  refine Wr.pArg (Wr.attr rfl rfl) fun _ => ?_
  peel
  refine Wr.pArg (Wr.attr rfl rfl) fun _ => ?_
  peel
  refine Wr.pArg (Wr.attr rfl rfl) fun _ => ?_
  peel
  refine Wr.pStar (Wr.attr rfl rfl) fun _ => ?_
  peel
  refine Wr.pIter fun _ => ?_
  peel
  refine Wr.pStar (Wr.attr rfl rfl) fun _ => ?_
  peel
  refine Wr.pIter fun _ => ?_
  peel
  refine Wr.pStar (Wr.attr rfl rfl) fun _ => ?_
  peel
  refine Wr.pIter fun _ => ?_
  peel
  refine Wr.pArg (Wr.attr rfl rfl) fun _ => ?_
  peel
  refine Wr.pArg (Wr.attr rfl rfl) fun _ => ?_
  peel
  refine Wr.pArg (Wr.attr rfl rfl) fun _ => ?_
  peel
  refine Wr.pArg (Wr.attr rfl rfl) fun _ => ?_
  peel
  refine Wr.pArg (Wr.attr rfl rfl) fun _ => ?_
  peel
  refine Wr.pArg (Wr.attr rfl rfl) fun _ => ?_
  peel
  refine Wr.pArg (Wr.attr rfl rfl) fun _ => ?_
  peel
  refine Wr.pArg (Wr.attr rfl rfl) fun _ => ?_
  peel
  refine Wr.pArg (Wr.attr rfl rfl) fun _ => ?_
  peel
  refine Wr.pArg (Wr.attr rfl rfl) fun _ => ?_
  peel
  refine Wr.pArg (Wr.attr rfl rfl) fun _ => ?_
  peel
  refine Wr.pArg (Wr.attr rfl rfl) fun _ => ?_
  peel
  refine Wr.pArg (Wr.attr rfl rfl) fun _ => ?_
  peel
  refine Wr.pArg (Wr.attr rfl rfl) fun _ => ?_
  peel
  refine Wr.pArg (Wr.attr rfl rfl) fun _ => ?_
  peel
  refine Wr.pArg (Wr.attr rfl rfl) fun _ => ?_
  peel
  refine Wr.pArg (Wr.attr rfl rfl) fun _ => ?_
  peel
  refine Wr.pArg (Wr.attr rfl rfl) fun _ => ?_
  peel
  refine Wr.pArg (Wr.attr rfl rfl) fun _ => ?_
  peel
  refine Wr.pArg (Wr.attr rfl rfl) fun _ => ?_
  peel
  refine Wr.pArg (Wr.attr rfl rfl) fun _ => ?_
  peel
  refine Wr.pArg (Wr.attr rfl rfl) fun _ => ?_
  peel
  refine Wr.pArg (Wr.attr rfl rfl) fun _ => ?_
  peel
  refine Wr.pArg (Wr.attr rfl rfl) fun _ => ?_
  peel
  refine Wr.pArg (Wr.attr rfl rfl) fun _ => ?_
  peel
  refine Wr.pArg (Wr.attr rfl rfl) fun _ => ?_
  peel
  refine Wr.pArg (Wr.attr rfl rfl) fun _ => ?_
  peel
  refine Wr.pArg (Wr.attr rfl rfl) fun _ => ?_
  peel
  refine Wr.pArg (Wr.attr rfl rfl) fun _ => ?_
  peel
  refine Wr.pArg (Wr.attr rfl rfl) fun _ => ?_
  peel
  refine Wr.pArg (Wr.attr rfl rfl) fun _ => ?_
  peel
  refine Wr.pArg (Wr.attr rfl rfl) fun _ => ?_
  peel
  refine Wr.packEnd (by decide) (by pack_args) fun _ => ?_
  peel
  refine Wr.nested ?_
  refine Wr.eAttr (w := fun o => W.classArray H rec o ver) (strict_classArray _ _) rfl rfl fun _ => ?_
  peel
  refine Wr.elem (Wr.base hi hg (by decide) (write_class_array hr (by omega) hi hg _ _)) fun _ => ?_
  peel
  refine Wr.eLenAttr (w := W.int8 H) strict_int8 rfl rfl fun _ => ?_
  peel
  refine Wr.eLen (w := W.int8 H) strict_int8 fun _ => ?_
  peel
  refine Wr.elem (Wr.base hi hg (by decide) (write_int_8 hk (by omega) _ _)) fun _ => ?_
  peel
  refine Wr.eAttr (w := fun o => W.classArray H rec o ver) (strict_classArray _ _) rfl rfl fun _ => ?_
  peel
  refine Wr.elem (Wr.base hi hg (by decide) (write_class_array hr (by omega) hi hg _ _)) fun _ => ?_
  peel
  refine Wr.eAttr (w := W.int16 H) strict_int16 rfl rfl fun _ => ?_
  peel
  refine Wr.elem (Wr.base hi hg (by decide) (write_int_16 hk (by omega) _ _)) fun _ => ?_
  peel
  refine Wr.eAttr (w := W.int16 H) strict_int16 rfl rfl fun _ => ?_
  peel
  refine Wr.elem (Wr.base hi hg (by decide) (write_int_16 hk (by omega) _ _)) fun _ => ?_
  peel
  refine Wr.eAttr (w := W.int32 H) strict_int32 rfl rfl fun _ => ?_
  peel
  refine Wr.elem (Wr.base hi hg (by decide) (write_int_32 hk (by omega) _ _)) fun _ => ?_
  peel
  refine Wr.eAttr (w := W.int32 H) strict_int32 rfl rfl fun _ => ?_
  peel
  refine Wr.elem (Wr.base hi hg (by decide) (write_int_32 hk (by omega) _ _)) fun _ => ?_
  peel
  refine Wr.eAttr (w := W.int32 H) strict_int32 rfl rfl fun _ => ?_
  peel
  refine Wr.elem (Wr.base hi hg (by decide) (write_int_32 hk (by omega) _ _)) fun _ => ?_
  peel
  refine Wr.eAttr (w := W.int32 H) strict_int32 rfl rfl fun _ => ?_
  peel
  refine Wr.elem (Wr.base hi hg (by decide) (write_int_32 hk (by omega) _ _)) fun _ => ?_
  peel
  refine Wr.eAttr (w := W.int8 H) strict_int8 rfl rfl fun _ => ?_
  peel
  refine Wr.elem (Wr.base hi hg (by decide) (write_int_8 hk (by omega) _ _)) fun _ => ?_
  peel
  refine Wr.eAttr (w := W.int8 H) strict_int8 rfl rfl fun _ => ?_
  peel
  refine Wr.elem (Wr.base hi hg (by decide) (write_int_8 hk (by omega) _ _)) fun _ => ?_
  peel
  refine Wr.eAttr (w := W.debugString) strict_debugString rfl rfl fun _ => ?_
  peel
  refine Wr.elem (Wr.base hi hg (by decide) (write_debug_string hk (by omega) hi hg _)) fun _ => ?_
  peel
  refine Wr.eAttr (w := W.int16 H) strict_int16 rfl rfl fun _ => ?_
  peel
  refine Wr.elem (Wr.base hi hg (by decide) (write_int_16 hk (by omega) _ _)) fun _ => ?_
  peel
  refine Wr.eAttr (w := W.int16 H) strict_int16 rfl rfl fun _ => ?_
  peel
  refine Wr.elem (Wr.base hi hg (by decide) (write_int_16 hk (by omega) _ _)) fun _ => ?_
  peel
  refine Wr.known ?_
  refine Wr.known ?_
  refine Wr.known ?_
  refine Wr.known ?_
  refine Wr.known ?_
  refine Wr.known ?_
  refine Wr.known ?_
  exact Wr.done' (by join_end)

/-- `Unit.to_bytes` — `/repo/src/genieutils/unit.py:1522-1525`. -/
theorem Unit_to_bytes : WritesAs n!"Unit" Unit.write := by
  intro H s r n rec self ver hk hr h2 hn hi
  write_fun
  unfold Unit.write
  refine Wr.ifVersion (by omega) (fun _ => ?_) (fun _ => ?_)
  · peel
    refine Wr.assoc ?_
    refine Wr.mapOk (φ := PVal.bytes) (Wr.method hi (Unit_to_bytes_88 ver hk hr h2 (by omega) hi)) fun _ => ?_
    peel
    exact Wr.done' rfl
  · peel
    refine Wr.mapOk (φ := PVal.bytes) (Wr.method hi (Unit_to_bytes_84 ver hk hr h2 (by omega) hi)) fun _ => ?_
    peel
    exact Wr.done' rfl

end Genie.Src
