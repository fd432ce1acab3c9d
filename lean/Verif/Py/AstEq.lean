import Verif.Py.Ast
/-!
# Comparing syntax trees

Boolean functions that say whether two syntax trees are the same, and that they are right.
-/

namespace Genie.Src

/-- Are these the same lists of numbers? -/
def natsEq : List Nat → List Nat → Bool
  | [], [] => true
  | a :: as, b :: bs => Nat.beq a b && natsEq as bs
  | _, _ => false

theorem natsEq_eq : ∀ {as bs : List Nat}, natsEq as bs = true → as = bs
  | [], [], _ => rfl
  | a :: as, b :: bs, h => by
    have h : (Nat.beq a b && natsEq as bs) = true := h
    rw [Bool.and_eq_true] at h
    rw [Nat.eq_of_beq_eq_true h.1, natsEq_eq h.2]
  | [], _ :: _, h => by cases h
  | _ :: _, [], h => by cases h

/-- Are these the same expression? -/
def Ex.same : Ex → Ex → Bool
  | .name a0, .name b0 => Nat.beq a0 b0
  | .int a0, .int b0 => decide (a0 = b0)
  | .float a0, .float b0 => Nat.beq a0 b0
  | .str a0, .str b0 => decide (a0 = b0)
  | .bytes a0, .bytes b0 => natsEq a0 b0
  | .none, .none => true
  | .bool a0, .bool b0 => decide (a0 = b0)
  | .attr a0 a1, .attr b0 b1 => Ex.same a0 b0 && Nat.beq a1 b1
  | .call a0 a1, .call b0 b1 => Ex.same a0 b0 && Ex.same a1 b1
  | .tuple a0, .tuple b0 => Ex.same a0 b0
  | .list a0, .list b0 => Ex.same a0 b0
  | .compare a0 a1, .compare b0 b1 => Ex.same a0 b0 && Ex.same a1 b1
  | .cmpNil, .cmpNil => true
  | .cmp a0 a1 a2, .cmp b0 b1 b2 => decide (a0 = b0) && Ex.same a1 b1 && Ex.same a2 b2
  | .bin a0 a1 a2, .bin b0 b1 b2 => decide (a0 = b0) && Ex.same a1 b1 && Ex.same a2 b2
  | .neg a0, .neg b0 => Ex.same a0 b0
  | .not a0, .not b0 => Ex.same a0 b0
  | .and a0 a1, .and b0 b1 => Ex.same a0 b0 && Ex.same a1 b1
  | .ifExp a0 a1 a2, .ifExp b0 b1 b2 => Ex.same a0 b0 && Ex.same a1 b1 && Ex.same a2 b2
  | .index a0 a1, .index b0 b1 => Ex.same a0 b0 && Ex.same a1 b1
  | .slice a0 a1 a2, .slice b0 b1 b2 => Ex.same a0 b0 && Ex.same a1 b1 && Ex.same a2 b2
  | .comp a0 a1 a2, .comp b0 b1 b2 => Ex.same a0 b0 && Nat.beq a1 b1 && Ex.same a2 b2
  | .compIf a0 a1 a2 a3, .compIf b0 b1 b2 b3 => Ex.same a0 b0 && Nat.beq a1 b1 && Ex.same a2 b2 && Ex.same a3 b3
  | .argNil, .argNil => true
  | .arg a0 a1, .arg b0 b1 => Ex.same a0 b0 && Ex.same a1 b1
  | .kw a0 a1 a2, .kw b0 b1 b2 => Nat.beq a0 b0 && Ex.same a1 b1 && Ex.same a2 b2
  | .star a0 a1, .star b0 b1 => Ex.same a0 b0 && Ex.same a1 b1
  | _, _ => false

theorem Ex.same_eq : ∀ {a b : Ex}, Ex.same a b = true → a = b := by
  intro a
  induction a with
  | name a0 =>
    intro b h
    cases b <;> first | cases h | skip
    rename_i b0
    have h : (Nat.beq a0 b0) = true := h
    have e0 := Nat.eq_of_beq_eq_true h
    rw [e0]
  | int a0 =>
    intro b h
    cases b <;> first | cases h | skip
    rename_i b0
    have h : (decide (a0 = b0)) = true := h
    have e0 := of_decide_eq_true h
    rw [e0]
  | float a0 =>
    intro b h
    cases b <;> first | cases h | skip
    rename_i b0
    have h : (Nat.beq a0 b0) = true := h
    have e0 := Nat.eq_of_beq_eq_true h
    rw [e0]
  | str a0 =>
    intro b h
    cases b <;> first | cases h | skip
    rename_i b0
    have h : (decide (a0 = b0)) = true := h
    have e0 := of_decide_eq_true h
    rw [e0]
  | bytes a0 =>
    intro b h
    cases b <;> first | cases h | skip
    rename_i b0
    have h : (natsEq a0 b0) = true := h
    have e0 := natsEq_eq h
    rw [e0]
  | none =>
    intro b h
    cases b <;> first | cases h | skip
    rfl
  | bool a0 =>
    intro b h
    cases b <;> first | cases h | skip
    rename_i b0
    have h : (decide (a0 = b0)) = true := h
    have e0 := of_decide_eq_true h
    rw [e0]
  | attr a0 a1 ih0 =>
    intro b h
    cases b <;> first | cases h | skip
    rename_i b0 b1
    have h : (Ex.same a0 b0 && Nat.beq a1 b1) = true := h
    simp only [Bool.and_eq_true] at h
    have e0 := ih0 h.1
    have e1 := Nat.eq_of_beq_eq_true h.2
    rw [e0, e1]
  | call a0 a1 ih0 ih1 =>
    intro b h
    cases b <;> first | cases h | skip
    rename_i b0 b1
    have h : (Ex.same a0 b0 && Ex.same a1 b1) = true := h
    simp only [Bool.and_eq_true] at h
    have e0 := ih0 h.1
    have e1 := ih1 h.2
    rw [e0, e1]
  | tuple a0 ih0 =>
    intro b h
    cases b <;> first | cases h | skip
    rename_i b0
    have h : (Ex.same a0 b0) = true := h
    have e0 := ih0 h
    rw [e0]
  | list a0 ih0 =>
    intro b h
    cases b <;> first | cases h | skip
    rename_i b0
    have h : (Ex.same a0 b0) = true := h
    have e0 := ih0 h
    rw [e0]
  | compare a0 a1 ih0 ih1 =>
    intro b h
    cases b <;> first | cases h | skip
    rename_i b0 b1
    have h : (Ex.same a0 b0 && Ex.same a1 b1) = true := h
    simp only [Bool.and_eq_true] at h
    have e0 := ih0 h.1
    have e1 := ih1 h.2
    rw [e0, e1]
  | cmpNil =>
    intro b h
    cases b <;> first | cases h | skip
    rfl
  | cmp a0 a1 a2 ih1 ih2 =>
    intro b h
    cases b <;> first | cases h | skip
    rename_i b0 b1 b2
    have h : (decide (a0 = b0) && Ex.same a1 b1 && Ex.same a2 b2) = true := h
    simp only [Bool.and_eq_true] at h
    have e0 := of_decide_eq_true h.1.1
    have e1 := ih1 h.1.2
    have e2 := ih2 h.2
    rw [e0, e1, e2]
  | bin a0 a1 a2 ih1 ih2 =>
    intro b h
    cases b <;> first | cases h | skip
    rename_i b0 b1 b2
    have h : (decide (a0 = b0) && Ex.same a1 b1 && Ex.same a2 b2) = true := h
    simp only [Bool.and_eq_true] at h
    have e0 := of_decide_eq_true h.1.1
    have e1 := ih1 h.1.2
    have e2 := ih2 h.2
    rw [e0, e1, e2]
  | neg a0 ih0 =>
    intro b h
    cases b <;> first | cases h | skip
    rename_i b0
    have h : (Ex.same a0 b0) = true := h
    have e0 := ih0 h
    rw [e0]
  | not a0 ih0 =>
    intro b h
    cases b <;> first | cases h | skip
    rename_i b0
    have h : (Ex.same a0 b0) = true := h
    have e0 := ih0 h
    rw [e0]
  | and a0 a1 ih0 ih1 =>
    intro b h
    cases b <;> first | cases h | skip
    rename_i b0 b1
    have h : (Ex.same a0 b0 && Ex.same a1 b1) = true := h
    simp only [Bool.and_eq_true] at h
    have e0 := ih0 h.1
    have e1 := ih1 h.2
    rw [e0, e1]
  | ifExp a0 a1 a2 ih0 ih1 ih2 =>
    intro b h
    cases b <;> first | cases h | skip
    rename_i b0 b1 b2
    have h : (Ex.same a0 b0 && Ex.same a1 b1 && Ex.same a2 b2) = true := h
    simp only [Bool.and_eq_true] at h
    have e0 := ih0 h.1.1
    have e1 := ih1 h.1.2
    have e2 := ih2 h.2
    rw [e0, e1, e2]
  | index a0 a1 ih0 ih1 =>
    intro b h
    cases b <;> first | cases h | skip
    rename_i b0 b1
    have h : (Ex.same a0 b0 && Ex.same a1 b1) = true := h
    simp only [Bool.and_eq_true] at h
    have e0 := ih0 h.1
    have e1 := ih1 h.2
    rw [e0, e1]
  | slice a0 a1 a2 ih0 ih1 ih2 =>
    intro b h
    cases b <;> first | cases h | skip
    rename_i b0 b1 b2
    have h : (Ex.same a0 b0 && Ex.same a1 b1 && Ex.same a2 b2) = true := h
    simp only [Bool.and_eq_true] at h
    have e0 := ih0 h.1.1
    have e1 := ih1 h.1.2
    have e2 := ih2 h.2
    rw [e0, e1, e2]
  | comp a0 a1 a2 ih0 ih2 =>
    intro b h
    cases b <;> first | cases h | skip
    rename_i b0 b1 b2
    have h : (Ex.same a0 b0 && Nat.beq a1 b1 && Ex.same a2 b2) = true := h
    simp only [Bool.and_eq_true] at h
    have e0 := ih0 h.1.1
    have e1 := Nat.eq_of_beq_eq_true h.1.2
    have e2 := ih2 h.2
    rw [e0, e1, e2]
  | compIf a0 a1 a2 a3 ih0 ih2 ih3 =>
    intro b h
    cases b <;> first | cases h | skip
    rename_i b0 b1 b2 b3
    have h : (Ex.same a0 b0 && Nat.beq a1 b1 && Ex.same a2 b2 && Ex.same a3 b3) = true := h
    simp only [Bool.and_eq_true] at h
    have e0 := ih0 h.1.1.1
    have e1 := Nat.eq_of_beq_eq_true h.1.1.2
    have e2 := ih2 h.1.2
    have e3 := ih3 h.2
    rw [e0, e1, e2, e3]
  | argNil =>
    intro b h
    cases b <;> first | cases h | skip
    rfl
  | arg a0 a1 ih0 ih1 =>
    intro b h
    cases b <;> first | cases h | skip
    rename_i b0 b1
    have h : (Ex.same a0 b0 && Ex.same a1 b1) = true := h
    simp only [Bool.and_eq_true] at h
    have e0 := ih0 h.1
    have e1 := ih1 h.2
    rw [e0, e1]
  | kw a0 a1 a2 ih1 ih2 =>
    intro b h
    cases b <;> first | cases h | skip
    rename_i b0 b1 b2
    have h : (Nat.beq a0 b0 && Ex.same a1 b1 && Ex.same a2 b2) = true := h
    simp only [Bool.and_eq_true] at h
    have e0 := Nat.eq_of_beq_eq_true h.1.1
    have e1 := ih1 h.1.2
    have e2 := ih2 h.2
    rw [e0, e1, e2]
  | star a0 a1 ih0 ih1 =>
    intro b h
    cases b <;> first | cases h | skip
    rename_i b0 b1
    have h : (Ex.same a0 b0 && Ex.same a1 b1) = true := h
    simp only [Bool.and_eq_true] at h
    have e0 := ih0 h.1
    have e1 := ih1 h.2
    rw [e0, e1]

/-- Are these the same block? -/
def St.same : St → St → Bool
  | .done, .done => true
  | .assign a0 a1 a2, .assign b0 b1 b2 => Nat.beq a0 b0 && Ex.same a1 b1 && St.same a2 b2
  | .aug a0 a1 a2 a3, .aug b0 b1 b2 b3 => Nat.beq a0 b0 && decide (a1 = b1) && Ex.same a2 b2 && St.same a3 b3
  | .unpack a0 a1 a2, .unpack b0 b1 b2 => natsEq a0 b0 && Ex.same a1 b1 && St.same a2 b2
  | .setAttr a0 a1 a2 a3, .setAttr b0 b1 b2 b3 => Ex.same a0 b0 && Nat.beq a1 b1 && Ex.same a2 b2 && St.same a3 b3
  | .expr a0 a1, .expr b0 b1 => Ex.same a0 b0 && St.same a1 b1
  | .assert a0 a1, .assert b0 b1 => Ex.same a0 b0 && St.same a1 b1
  | .ite a0 a1 a2 a3, .ite b0 b1 b2 b3 => Ex.same a0 b0 && St.same a1 b1 && St.same a2 b2 && St.same a3 b3
  | .forIn a0 a1 a2 a3, .forIn b0 b1 b2 b3 => Nat.beq a0 b0 && Ex.same a1 b1 && St.same a2 b2 && St.same a3 b3
  | .ret a0, .ret b0 => Ex.same a0 b0
  | .raise a0, .raise b0 => Ex.same a0 b0
  | _, _ => false

theorem St.same_eq : ∀ {a b : St}, St.same a b = true → a = b := by
  intro a
  induction a with
  | done =>
    intro b h
    cases b <;> first | cases h | skip
    rfl
  | assign a0 a1 a2 ih2 =>
    intro b h
    cases b <;> first | cases h | skip
    rename_i b0 b1 b2
    have h : (Nat.beq a0 b0 && Ex.same a1 b1 && St.same a2 b2) = true := h
    simp only [Bool.and_eq_true] at h
    have e0 := Nat.eq_of_beq_eq_true h.1.1
    have e1 := Ex.same_eq h.1.2
    have e2 := ih2 h.2
    rw [e0, e1, e2]
  | aug a0 a1 a2 a3 ih3 =>
    intro b h
    cases b <;> first | cases h | skip
    rename_i b0 b1 b2 b3
    have h : (Nat.beq a0 b0 && decide (a1 = b1) && Ex.same a2 b2 && St.same a3 b3) = true := h
    simp only [Bool.and_eq_true] at h
    have e0 := Nat.eq_of_beq_eq_true h.1.1.1
    have e1 := of_decide_eq_true h.1.1.2
    have e2 := Ex.same_eq h.1.2
    have e3 := ih3 h.2
    rw [e0, e1, e2, e3]
  | unpack a0 a1 a2 ih2 =>
    intro b h
    cases b <;> first | cases h | skip
    rename_i b0 b1 b2
    have h : (natsEq a0 b0 && Ex.same a1 b1 && St.same a2 b2) = true := h
    simp only [Bool.and_eq_true] at h
    have e0 := natsEq_eq h.1.1
    have e1 := Ex.same_eq h.1.2
    have e2 := ih2 h.2
    rw [e0, e1, e2]
  | setAttr a0 a1 a2 a3 ih3 =>
    intro b h
    cases b <;> first | cases h | skip
    rename_i b0 b1 b2 b3
    have h : (Ex.same a0 b0 && Nat.beq a1 b1 && Ex.same a2 b2 && St.same a3 b3) = true := h
    simp only [Bool.and_eq_true] at h
    have e0 := Ex.same_eq h.1.1.1
    have e1 := Nat.eq_of_beq_eq_true h.1.1.2
    have e2 := Ex.same_eq h.1.2
    have e3 := ih3 h.2
    rw [e0, e1, e2, e3]
  | expr a0 a1 ih1 =>
    intro b h
    cases b <;> first | cases h | skip
    rename_i b0 b1
    have h : (Ex.same a0 b0 && St.same a1 b1) = true := h
    simp only [Bool.and_eq_true] at h
    have e0 := Ex.same_eq h.1
    have e1 := ih1 h.2
    rw [e0, e1]
  | assert a0 a1 ih1 =>
    intro b h
    cases b <;> first | cases h | skip
    rename_i b0 b1
    have h : (Ex.same a0 b0 && St.same a1 b1) = true := h
    simp only [Bool.and_eq_true] at h
    have e0 := Ex.same_eq h.1
    have e1 := ih1 h.2
    rw [e0, e1]
  | ite a0 a1 a2 a3 ih1 ih2 ih3 =>
    intro b h
    cases b <;> first | cases h | skip
    rename_i b0 b1 b2 b3
    have h : (Ex.same a0 b0 && St.same a1 b1 && St.same a2 b2 && St.same a3 b3) = true := h
    simp only [Bool.and_eq_true] at h
    have e0 := Ex.same_eq h.1.1.1
    have e1 := ih1 h.1.1.2
    have e2 := ih2 h.1.2
    have e3 := ih3 h.2
    rw [e0, e1, e2, e3]
  | forIn a0 a1 a2 a3 ih2 ih3 =>
    intro b h
    cases b <;> first | cases h | skip
    rename_i b0 b1 b2 b3
    have h : (Nat.beq a0 b0 && Ex.same a1 b1 && St.same a2 b2 && St.same a3 b3) = true := h
    simp only [Bool.and_eq_true] at h
    have e0 := Nat.eq_of_beq_eq_true h.1.1.1
    have e1 := Ex.same_eq h.1.1.2
    have e2 := ih2 h.1.2
    have e3 := ih3 h.2
    rw [e0, e1, e2, e3]
  | ret a0 =>
    intro b h
    cases b <;> first | cases h | skip
    rename_i b0
    have h : (Ex.same a0 b0) = true := h
    have e0 := Ex.same_eq h
    rw [e0]
  | raise a0 =>
    intro b h
    cases b <;> first | cases h | skip
    rename_i b0
    have h : (Ex.same a0 b0) = true := h
    have e0 := Ex.same_eq h
    rw [e0]

/-- Are these the same lists, by a comparison of their elements? -/
def listEq (f : α → α → Bool) : List α → List α → Bool
  | [], [] => true
  | a :: as, b :: bs => f a b && listEq f as bs
  | _, _ => false

theorem listEq_eq {f : α → α → Bool} (hf : ∀ {a b}, f a b = true → a = b) : ∀ {as bs : List α}, listEq f as bs = true → as = bs
  | [], [], _ => rfl
  | a :: as, b :: bs, h => by
    have h : (f a b && listEq f as bs) = true := h
    rw [Bool.and_eq_true] at h
    rw [hf h.1, listEq_eq hf h.2]
  | [], _ :: _, h => by cases h
  | _ :: _, [], h => by cases h

/-- Are these the same name with the same expression? -/
def namedEq (a b : Name × Ex) : Bool := Nat.beq a.1 b.1 && Ex.same a.2 b.2

theorem namedEq_eq {a b : Name × Ex} (h : namedEq a b = true) : a = b := by
  unfold namedEq at h
  rw [Bool.and_eq_true] at h
  exact Prod.ext (Nat.eq_of_beq_eq_true h.1) (Ex.same_eq h.2)

/-- Are these the same function? -/
def Fun.same (a b : Fun) : Bool := Nat.beq a.name b.name && decide (a.kind = b.kind) && listEq namedEq a.params b.params && St.same a.body b.body

theorem Fun.same_eq {a b : Fun} (h : Fun.same a b = true) : a = b := by
  unfold Fun.same at h
  simp only [Bool.and_eq_true] at h
  obtain ⟨⟨⟨h1, h2⟩, h3⟩, h4⟩ := h
  cases a; cases b
  simp only [Fun.mk.injEq]
  exact ⟨Nat.eq_of_beq_eq_true h1, of_decide_eq_true h2, listEq_eq namedEq_eq h3, St.same_eq h4⟩

/-- Are these the same class? -/
def Cls.same (a b : Cls) : Bool :=
  Nat.beq a.name b.name && Nat.beq a.module b.module && Nat.beq a.base b.base && decide (a.dataclass = b.dataclass) &&
    listEq namedEq a.fields b.fields && listEq namedEq a.vars b.vars && listEq Fun.same a.funs b.funs

theorem Cls.same_eq {a b : Cls} (h : Cls.same a b = true) : a = b := by
  unfold Cls.same at h
  simp only [Bool.and_eq_true] at h
  obtain ⟨⟨⟨⟨⟨⟨h1, h2⟩, h3⟩, h4⟩, h5⟩, h6⟩, h7⟩ := h
  cases a; cases b
  simp only [Cls.mk.injEq]
  exact ⟨Nat.eq_of_beq_eq_true h1, Nat.eq_of_beq_eq_true h2, Nat.eq_of_beq_eq_true h3, of_decide_eq_true h4, listEq_eq namedEq_eq h5,
    listEq_eq namedEq_eq h6, listEq_eq Fun.same_eq h7⟩

/-- Are these the same meaning of a name? -/
def Glob.same : Glob → Glob → Bool
  | .const e, .const e' => Ex.same e e'
  | .cls, .cls => true
  | .lib, .lib => true
  | .from_ m, .from_ m' => Nat.beq m m'
  | _, _ => false

theorem Glob.same_eq {a b : Glob} (h : Glob.same a b = true) : a = b := by
  cases a <;> cases b <;> first | cases h | skip
  · exact congrArg Glob.const (Ex.same_eq h)
  · rfl
  · rfl
  · exact congrArg Glob.from_ (Nat.eq_of_beq_eq_true h)

/-- Are these the same name with the same meaning? -/
def globEq (a b : Name × Glob) : Bool := Nat.beq a.1 b.1 && Glob.same a.2 b.2

theorem globEq_eq {a b : Name × Glob} (h : globEq a b = true) : a = b := by
  unfold globEq at h
  rw [Bool.and_eq_true] at h
  exact Prod.ext (Nat.eq_of_beq_eq_true h.1) (Glob.same_eq h.2)

end Genie.Src
