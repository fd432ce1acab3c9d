import Verif.Proof.Source.Writes
/-!
# What executing source can do to the objects that exist

Whatever is executed: no object disappears, no object becomes one of another class, tuples stay as they are, and the new instances are of
dataclasses of the package.
-/

namespace Genie.Src

/-- The same kind of object: instances of one class; two lists; the same tuple. -/
def SameKind : Cell → Cell → Prop
  | .record c _, .record d _ => c = d
  | .list _, .list _ => True
  | .tuple v, .tuple w => v = w
  | _, _ => False

/-- The dataclasses of the package. -/
def dataclassNames : List PyStr := (classes.filter (·.dataclass)).map fun d => Name.str d.name

/-- `H'` may come after `H`. -/
structure Grows (H H' : Heap) : Prop where
  old : ∀ (a : Nat) c, H[a]? = some c → ∃ c', H'[a]? = some c' ∧ SameKind c c'
  new : ∀ (a : Nat) c attrs, H[a]? = none → H'[a]? = some (Cell.record c attrs) → c ∈ dataclassNames

theorem SameKind.refl (c : Cell) : SameKind c c := by cases c <;> trivial

theorem SameKind.trans {a b c : Cell} (h : SameKind a b) (h' : SameKind b c) : SameKind a c := by
  cases a <;> cases b <;> cases c <;> first | exact h.elim | exact h'.elim | exact Eq.trans h h' | trivial

theorem Grows.refl (H : Heap) : Grows H H := ⟨fun _ c h => ⟨c, h, .refl c⟩, fun _ _ _ h h' => by rw [h] at h'; cases h'⟩

theorem Grows.trans {A B C : Heap} (h : Grows A B) (h' : Grows B C) : Grows A C := by
  refine ⟨fun a c hc => ?_, fun a c attrs hn hs => ?_⟩
  · obtain ⟨d, h1, h2⟩ := h.old a c hc
    obtain ⟨e, h3, h4⟩ := h'.old a d h1
    exact ⟨e, h3, h2.trans h4⟩
  · cases hb : B[a]? with
    | none => exact h'.new a c attrs hb hs
    | some d =>
      obtain ⟨e, h3, h4⟩ := h'.old a d hb
      rw [hs] at h3
      cases h3
      cases d with
      | record c' at' =>
        cases h4
        exact h.new a c at' hn hb
      | _ => exact h4.elim

theorem Grows.alloc (H : Heap) (c : Cell) (hc : ∀ n at', c = .record n at' → n ∈ dataclassNames) : Grows H (H ++ [c]) := by
  refine ⟨fun a d h => ⟨d, ?_, .refl d⟩, fun a n attrs hn hs => ?_⟩
  · have hl : a < H.length := by
      rw [List.getElem?_eq_some_iff] at h
      exact h.1
    rw [List.getElem?_append_left hl]; exact h
  · have hl : H.length ≤ a := List.getElem?_eq_none_iff.mp hn
    rw [List.getElem?_append_right hl] at hs
    cases hi : a - H.length with
    | zero => rw [hi] at hs; simp at hs; exact hc n attrs hs
    | succ i => rw [hi] at hs; simp at hs

theorem Grows.set (H : Heap) (a : Nat) (c d : Cell) (hc : H[a]? = some c) (hk : SameKind c d) : Grows H (H.set a d) := by
  refine ⟨fun b e h => ?_, fun b n attrs hn hs => ?_⟩
  · by_cases hab : a = b
    · subst hab
      rw [hc] at h
      cases h
      refine ⟨d, ?_, hk⟩
      rw [List.getElem?_set_self]
      rw [List.getElem?_eq_some_iff] at hc
      exact hc.1
    · exact ⟨e, by rw [List.getElem?_set_ne hab]; exact h, .refl e⟩
  · by_cases hab : a = b
    · subst hab
      rw [hc] at hn
      cases hn
    · rw [List.getElem?_set_ne hab, hn] at hs
      cases hs

/-- Nothing else happens to the objects that exist. -/
def Keeps (f : M α) : Prop := ∀ H s v H' s', f H s = .ok (v, H', s') → Grows H H'

theorem Keeps.done (a : α) : Keeps (Src.done a) := by
  intro H s v H' s' h
  cases h
  exact .refl H

theorem Keeps.fail (e : PyErr) : Keeps (Src.fail e : M α) := by
  intro H s v H' s' h
  cases h

theorem Keeps.andThen {f : M α} {k : α → M β} (hf : Keeps f) (hk : ∀ a, Keeps (k a)) : Keeps (Src.andThen f k) := by
  intro H s v H' s' h
  unfold Src.andThen at h
  cases hx : f H s with
  | error e => rw [hx] at h; cases h
  | ok r =>
    obtain ⟨a, H1, s1⟩ := r
    rw [hx] at h
    exact (hf _ _ _ _ _ hx).trans (hk a _ _ _ _ _ h)

theorem Keeps.pyM (x : Py α) : Keeps (Src.pyM x) := by
  unfold Src.pyM
  cases x
  · exact .fail _
  · exact .done _

theorem Keeps.heapM (f : Heap → Py α) : Keeps (Src.heapM f) := by
  intro H s v H' s' h
  unfold Src.heapM at h
  split at h
  · cases h; exact .refl H
  · cases h

theorem Keeps.branch {c : Bool} {a b : M α} (ha : Keeps a) (hb : Keeps b) : Keeps (Src.branch c a b) := by
  cases c
  · exact hb
  · exact ha

theorem Keeps.alloc (c : Cell) (hc : ∀ n at', c = .record n at' → n ∈ dataclassNames) : Keeps (HReader.alloc c) := by
  intro H s v H' s' h
  cases h
  exact .alloc H c hc

theorem Keeps.nameK {m x : Name} {k : PVal → M β} (hk : ∀ v, Keeps (k v)) : ∀ ρ, Keeps (Src.nameK m x ρ k)
  | [] => by
    unfold Src.nameK
    split
    · exact hk _
    · exact .fail _
  | (y, v) :: ρ => by
    unfold Src.nameK
    split
    · exact hk _
    · exact Keeps.nameK hk ρ

theorem Keeps.setK {x : Name} {v : PVal} : ∀ (ρ : Env) {k : Env → M β}, (∀ ρ, Keeps (k ρ)) → Keeps (Src.setK x v ρ k)
  | [], k, hk => hk _
  | (y, w) :: ρ, k, hk => by
    unfold Src.setK
    split
    · exact hk _
    · exact Keeps.setK ρ fun _ => hk _

theorem Keeps.unpackK : ∀ (xs : List Name) (vs : List HVal) (ρ : Env) {k : Env → M β}, (∀ ρ, Keeps (k ρ)) → Keeps (Src.unpackK xs vs ρ k)
  | [], [], _, _, hk => hk _
  | [], _ :: _, _, _, _ => .fail _
  | _ :: _, [], _, _, _ => .fail _
  | _ :: xs, _ :: vs, ρ, _, hk => Keeps.setK ρ fun ρ' => Keeps.unpackK xs vs ρ' hk

/-- Close what is left after the cases. -/
macro "keeps" : tactic => `(tactic| repeat' (first
  | exact Keeps.done _
  | exact Keeps.fail _
  | exact Keeps.pyM _
  | exact Keeps.heapM _
  | assumption
  | refine Keeps.andThen ?_ fun _ => ?_
  | split))

theorem Keeps.truth (v : PVal) : Keeps (Src.truth v) := by unfold Src.truth; keeps

section
variable {call : Call} (hc : ∀ r c f as, Keeps (call r c f as))
include hc

theorem Keeps.cmpM (op : Cmp) (l r : PVal) : Keeps (Src.cmpM call op l r) := by
  unfold Src.cmpM
  keeps
  exact hc _ _ _ _

theorem Keeps.objAttr (v : HVal) (a : Name) : Keeps (Src.objAttr call v a) := by
  intro H s w H' s' h
  unfold Src.objAttr at h
  split at h
  · exact hc _ _ _ _ _ _ _ _ _ h
  · split at h
    · cases h; exact .refl H
    · cases h

omit hc in
theorem Keeps.handlerAttr (a : Name) : Keeps (Src.handlerAttr a) := by
  intro H s w H' s' h
  unfold Src.handlerAttr at h
  split at h <;> cases h <;> exact .refl H

theorem Keeps.attrM (v : PVal) (a : Name) : Keeps (Src.attrM call v a) := by
  unfold Src.attrM
  split
  · exact Keeps.handlerAttr _
  · keeps
  · keeps
  · exact Keeps.objAttr hc _ _
  · keeps

end

theorem Keeps.binV (op : Bin) (l r : PVal) : Keeps (Src.binV op l r) := by unfold Src.binV; keeps
theorem Keeps.indexM (v i : PVal) : Keeps (Src.indexM v i) := by unfold Src.indexM; keeps
theorem Keeps.sliceM (v i j : PVal) : Keeps (Src.sliceM v i j) := by unfold Src.sliceM; keeps
theorem Keeps.iterM (v : PVal) : Keeps (Src.iterM v) := by unfold Src.iterM; keeps
theorem Keeps.collect (vs : List PVal) : Keeps (Src.collect vs) := by unfold Src.collect; keeps
theorem Keeps.libCall (f : Name) (as : Args) : Keeps (Src.libCall f as) := by unfold Src.libCall; keeps
theorem Keeps.libMethod (l f : Name) (as : Args) : Keeps (Src.libMethod l f as) := by
  unfold Src.libMethod Src.structUnpackM Src.structPackM; keeps
theorem Keeps.bytesMethod (b : Bytes) (f : Name) (as : Args) : Keeps (Src.bytesMethod b f as) := by unfold Src.bytesMethod; keeps

theorem Keeps.listM (vs : List PVal) : Keeps (Src.listM vs) := by
  unfold Src.listM
  split
  · exact Keeps.andThen (Keeps.alloc _ nofun) fun _ => .done _
  · exact Keeps.collect _

theorem Keeps.tupleM (vs : List PVal) : Keeps (Src.tupleM vs) := by
  unfold Src.tupleM
  split
  · exact Keeps.andThen (Keeps.alloc _ nofun) fun _ => .done _
  · exact .fail _

theorem findCls_named {c : Name} : ∀ {ds : List Cls} {d : Cls}, findCls c ds = some d → d ∈ ds ∧ d.name = c
  | [], d, h => by cases h
  | e :: ds, d, h => by
    unfold findCls at h
    split at h
    · rename_i hb
      cases h
      exact ⟨List.mem_cons_self .., by simpa [Nat.beq_eq] using (Nat.eq_of_beq_eq_true hb).symm⟩
    · obtain ⟨h1, h2⟩ := findCls_named h
      exact ⟨List.mem_cons_of_mem _ h1, h2⟩

theorem Keeps.construct (c : Name) (as : Args) : Keeps (Src.construct c as) := by
  unfold Src.construct
  split
  · exact .fail _
  · rename_i d hd
    split
    · rename_i hdc
      split
      · refine Keeps.andThen (Keeps.alloc _ ?_) fun _ => .done _
        intro n at' e
        cases e
        obtain ⟨h1, h2⟩ := findCls_named hd
        exact List.mem_map.mpr ⟨d, List.mem_filter.mpr ⟨h1, hdc⟩, by rw [h2]⟩
      · exact .fail _
    · keeps

theorem HReader_bind {f : HReader α} {k : α → HReader β} {H : Heap} {s : ByteHandler} {r : β × Heap × ByteHandler} (h : (f >>= k) H s = .ok r) :
    ∃ a H1 s1, f H s = .ok (a, H1, s1) ∧ k a H1 s1 = .ok r := by
  change (match f H s with | Except.error e => Except.error e | Except.ok (a, H', s') => k a H' s') = _ at h
  cases hf : f H s with
  | error e => rw [hf] at h; cases h
  | ok x =>
    obtain ⟨a, H1, s1⟩ := x
    rw [hf] at h
    exact ⟨a, H1, s1, rfl, h⟩

theorem HReader_cell {o : HVal} {e : PyErr} {H H1 : Heap} {s s1 : ByteHandler} {c : Cell} (h : HReader.cell o e H s = .ok (c, H1, s1)) :
    ∃ a, o = .ref a ∧ H[a]? = some c ∧ H1 = H := by
  unfold HReader.cell at h
  split at h
  · rename_i a
    split at h
    · rename_i c' hc
      cases h
      exact ⟨a, rfl, hc, rfl⟩
    · cases h
  · cases h

theorem Keeps.append (o v : HVal) : Keeps (HReader.append o v) := by
  intro H s w H' s' h
  unfold HReader.append at h
  obtain ⟨c, H1, s1, h1, h2⟩ := HReader_bind h
  obtain ⟨a, rfl, hc, rfl⟩ := HReader_cell h1
  split at h2
  · cases h2
    exact .set _ a _ _ hc trivial
  · cases h2

theorem Keeps.setAttr (o : HVal) (n : PyStr) (v : HVal) : Keeps (HReader.setAttr o n v) := by
  intro H s w H' s' h
  unfold HReader.setAttr at h
  obtain ⟨c, H1, s1, h1, h2⟩ := HReader_bind h
  obtain ⟨a, rfl, hc, rfl⟩ := HReader_cell h1
  cases c with
  | record cls attrs =>
    dsimp only at h2
    cases hl : HReader.lookup n attrs with
    | some x =>
      rw [hl] at h2
      cases h2
      exact .set _ a _ _ hc rfl
    | none =>
      rw [hl] at h2
      dsimp only at h2
      by_cases ho : HReader.ofClass n = true
      · rw [if_pos ho] at h2; cases h2
      · rw [if_neg ho] at h2
        cases h2
        exact .set _ a _ _ hc rfl
  | _ => cases h2

theorem Keeps.setHandlerAttr (a : Name) (v : PVal) : Keeps (Src.setHandlerAttr a v) := by
  intro H s w H' s' h
  have e : ∀ {r : Py (PUnit × Heap × ByteHandler)}, r = Src.setHandlerAttr a v H s → r = .ok (w, H', s') → Grows H H' := by
    intro r hr hw
    unfold Src.setHandlerAttr at hr
    generalize Nat.beq a n!"offset" = b1 at hr
    generalize Nat.beq a n!"version" = b2 at hr
    generalize Nat.beq a n!"content" = b3 at hr
    subst hw
    cases v with
    | h x =>
      cases x with
      | int i =>
        cases b1
        · cases b2 <;> cases hr
        · dsimp only at hr
          split at hr <;> cases hr
          exact .refl H
      | _ => cases b1 <;> cases b2 <;> cases hr
    | bytes b =>
      cases b1 <;> cases b2 <;> cases b3 <;> cases hr <;> exact .refl H
    | version x =>
      cases b1 <;> cases b2 <;> cases hr <;> exact .refl H
    | _ => cases b1 <;> cases b2 <;> cases hr
  exact e rfl h

theorem Keeps.setAttrM (v : PVal) (a : Name) (w : PVal) : Keeps (Src.setAttrM v a w) := by
  unfold Src.setAttrM
  split
  · exact Keeps.setHandlerAttr _ _
  · split
    · exact Keeps.setAttr _ _ _
    · exact .fail _
  · exact .fail _

theorem Keeps.plainMethod (v : HVal) (f : Name) (as : Args) : Keeps (Src.plainMethod v f as) := by
  unfold Src.plainMethod
  repeat' (first
    | exact Keeps.done _
    | exact Keeps.fail _
    | exact Keeps.andThen (Keeps.append _ _) fun _ => Keeps.done _
    | exact Keeps.andThen (Keeps.pyM _) fun _ => Keeps.done _
    | split)

theorem Keeps.apply (v : PVal) (as : Args) : Keeps (Src.apply v as) := by
  unfold Src.apply
  split
  · exact Keeps.construct _ _
  · exact Keeps.libCall _ _
  · exact .fail _

theorem Keeps.forEach {f : HVal → M (List PVal) → M (List PVal)} (hf : ∀ v more, Keeps more → Keeps (f v more)) :
    ∀ vs, Keeps (Src.forEach f vs)
  | [] => .done _
  | v :: vs => hf v _ (Keeps.forEach hf vs)

section
variable {call : Call} (hc : ∀ r c f as, Keeps (call r c f as))
include hc

theorem Keeps.objMethod (v : HVal) (f : Name) (as : Args) : Keeps (Src.objMethod call v f as) := by
  intro H s w H' s' h
  unfold Src.objMethod at h
  split at h
  · exact hc _ _ _ _ _ _ _ _ _ h
  · exact Keeps.plainMethod _ _ _ _ _ _ _ _ h

theorem Keeps.invoke (v : PVal) (f : Name) (as : Args) : Keeps (Src.invoke call v f as) := by
  unfold Src.invoke
  split
  · exact hc _ _ _ _
  · exact hc _ _ _ _
  · exact Keeps.libMethod _ _ _
  · exact Keeps.bytesMethod _ _ _
  · exact Keeps.objMethod hc _ _ _
  · exact hc _ _ _ _
  · exact .fail _

omit hc in
/-- What is shown about an expression, by induction. -/
structure KeepsEx (call : Call) (m : Name) (e : Ex) : Prop where
  ev : ∀ {β : Type} (ρ : Env) (k : PVal → M β), (∀ v, Keeps (k v)) → Keeps (Src.eval call m e ρ k)
  args : ∀ {β : Type} (ρ : Env) (k : List PVal → List (Name × PVal) → M β), (∀ v w, Keeps (k v w)) → Keeps (Src.evalArgs call m e ρ k)
  cmp : ∀ {β : Type} (v : PVal) (ρ : Env) (k : PVal → M β), (∀ v, Keeps (k v)) → Keeps (Src.evalCmp call m v e ρ k)
  recv : ∀ e' f, e = .attr e' f → ∀ {β : Type} (ρ : Env) (k : PVal → M β), (∀ v, Keeps (k v)) → Keeps (Src.eval call m e' ρ k)

theorem KeepsEx.all (m : Name) (e : Ex) : KeepsEx call m e := by
  induction e with
  | name x => exact ⟨fun ρ k hk => Keeps.nameK hk ρ, fun _ _ _ => .fail _, fun _ _ _ _ => .fail _, nofun⟩
  | int i => exact ⟨fun ρ k hk => hk _, fun _ _ _ => .fail _, fun _ _ _ _ => .fail _, nofun⟩
  | float i => exact ⟨fun ρ k hk => hk _, fun _ _ _ => .fail _, fun _ _ _ _ => .fail _, nofun⟩
  | str i => exact ⟨fun ρ k hk => hk _, fun _ _ _ => .fail _, fun _ _ _ _ => .fail _, nofun⟩
  | bytes i => exact ⟨fun ρ k hk => hk _, fun _ _ _ => .fail _, fun _ _ _ _ => .fail _, nofun⟩
  | none => exact ⟨fun ρ k hk => hk _, fun _ _ _ => .fail _, fun _ _ _ _ => .fail _, nofun⟩
  | bool i => exact ⟨fun ρ k hk => hk _, fun _ _ _ => .fail _, fun _ _ _ _ => .fail _, nofun⟩
  | attr e a ih =>
    exact ⟨fun ρ k hk => ih.ev ρ _ fun v => .andThen (Keeps.attrM hc _ _) hk, fun _ _ _ => .fail _, fun _ _ _ _ => .fail _,
      fun e' f h => by cases h; exact ih.ev⟩
  | call f as ihf iha =>
    refine ⟨fun ρ k hk => ?_, fun _ _ _ => .fail _, fun _ _ _ _ => .fail _, nofun⟩
    cases f with
    | attr e' f' => exact ihf.recv _ _ rfl ρ _ fun v => iha.args ρ _ fun _ _ => .andThen (Keeps.invoke hc _ _ _) hk
    | _ =>
      exact ihf.ev ρ (fun v => Src.evalArgs call m as ρ fun pos kw => Src.andThen (Src.apply v ⟨pos, kw⟩) k) fun v =>
        iha.args ρ _ fun _ _ => .andThen (Keeps.apply _ _) hk
  | tuple es ih => exact ⟨fun ρ k hk => ih.args ρ _ fun _ _ => .andThen (Keeps.tupleM _) hk, fun _ _ _ => .fail _, fun _ _ _ _ => .fail _, nofun⟩
  | list es ih => exact ⟨fun ρ k hk => ih.args ρ _ fun _ _ => .andThen (Keeps.listM _) hk, fun _ _ _ => .fail _, fun _ _ _ _ => .fail _, nofun⟩
  | compare l t ihl iht => exact ⟨fun ρ k hk => ihl.ev ρ _ fun v => iht.cmp v ρ _ hk, fun _ _ _ => .fail _, fun _ _ _ _ => .fail _, nofun⟩
  | cmpNil => exact ⟨fun _ _ _ => .fail _, fun _ _ _ => .fail _, fun _ _ _ _ => .fail _, nofun⟩
  | cmp op r t ihr iht =>
    refine ⟨fun _ _ _ => .fail _, fun _ _ _ => .fail _, fun v ρ k hk => ?_, nofun⟩
    cases t with
    | cmpNil => exact ihr.ev ρ _ fun w => .andThen (Keeps.cmpM hc _ _ _) fun b => hk _
    | _ =>
      exact ihr.ev ρ _ fun w => .andThen (Keeps.cmpM hc _ _ _) fun b =>
        .andThen (Keeps.truth _) fun _ => .andThen (.branch (iht.cmp _ ρ _ fun _ => .done _) (.done _)) hk
  | bin op l r ihl ihr =>
    exact ⟨fun ρ k hk => ihl.ev ρ _ fun v => ihr.ev ρ _ fun w => .andThen (Keeps.binV _ _ _) hk, fun _ _ _ => .fail _, fun _ _ _ _ => .fail _, nofun⟩
  | neg e ih => exact ⟨fun ρ k hk => ih.ev ρ _ fun v => .andThen (Keeps.binV _ _ _) hk, fun _ _ _ => .fail _, fun _ _ _ _ => .fail _, nofun⟩
  | not e ih => exact ⟨fun ρ k hk => ih.ev ρ _ fun v => .andThen (Keeps.truth _) fun _ => hk _, fun _ _ _ => .fail _, fun _ _ _ _ => .fail _, nofun⟩
  | and l r ihl ihr =>
    exact ⟨fun ρ k hk => ihl.ev ρ _ fun v => .andThen (Keeps.truth _) fun _ => .andThen (.branch (ihr.ev ρ _ fun _ => .done _) (.done _)) hk,
      fun _ _ _ => .fail _, fun _ _ _ _ => .fail _, nofun⟩
  | ifExp c a b ihc iha ihb =>
    exact ⟨fun ρ k hk => ihc.ev ρ _ fun v => .andThen (Keeps.truth _) fun _ =>
        .andThen (.branch (iha.ev ρ _ fun _ => .done _) (ihb.ev ρ _ fun _ => .done _)) hk,
      fun _ _ _ => .fail _, fun _ _ _ _ => .fail _, nofun⟩
  | index e i ihe ihi =>
    exact ⟨fun ρ k hk => ihe.ev ρ _ fun v => ihi.ev ρ _ fun w => .andThen (Keeps.indexM _ _) hk, fun _ _ _ => .fail _, fun _ _ _ _ => .fail _, nofun⟩
  | slice e i j ihe ihi ihj =>
    exact ⟨fun ρ k hk => ihe.ev ρ _ fun v => ihi.ev ρ _ fun w => ihj.ev ρ _ fun x => .andThen (Keeps.sliceM _ _ _) hk,
      fun _ _ _ => .fail _, fun _ _ _ _ => .fail _, nofun⟩
  | comp elt x it ihe ihi =>
    exact ⟨fun ρ k hk => ihi.ev ρ _ fun v => .andThen (Keeps.iterM _) fun _ => .andThen (Keeps.forEach (fun v more hm => Keeps.setK ρ fun ρ' =>
        ihe.ev ρ' _ fun w => .andThen hm fun _ => .done _) _) fun _ => .andThen (Keeps.collect _) hk,
      fun _ _ _ => .fail _, fun _ _ _ _ => .fail _, nofun⟩
  | compIf elt x it c ihe ihi ihc =>
    exact ⟨fun ρ k hk => ihi.ev ρ _ fun v => .andThen (Keeps.iterM _) fun _ => .andThen (Keeps.forEach (fun v more hm => Keeps.setK ρ fun ρ' =>
        ihc.ev ρ' _ fun t => .andThen (Keeps.truth _) fun _ => .branch (ihe.ev ρ' _ fun w => .andThen hm fun _ => .done _) hm) _) fun _ =>
        .andThen (Keeps.collect _) hk,
      fun _ _ _ => .fail _, fun _ _ _ _ => .fail _, nofun⟩
  | argNil => exact ⟨fun _ _ _ => .fail _, fun ρ k hk => hk _ _, fun _ _ _ _ => .fail _, nofun⟩
  | arg e r ihe ihr => exact ⟨fun _ _ _ => .fail _, fun ρ k hk => ihe.ev ρ _ fun v => ihr.args ρ _ fun _ _ => hk _ _, fun _ _ _ _ => .fail _, nofun⟩
  | kw x e r ihe ihr => exact ⟨fun _ _ _ => .fail _, fun ρ k hk => ihe.ev ρ _ fun v => ihr.args ρ _ fun _ _ => hk _ _, fun _ _ _ _ => .fail _, nofun⟩
  | star e r ihe ihr =>
    exact ⟨fun _ _ _ => .fail _, fun ρ k hk => ihe.ev ρ _ fun v => .andThen (Keeps.iterM _) fun _ => ihr.args ρ _ fun _ _ => hk _ _,
      fun _ _ _ _ => .fail _, nofun⟩

theorem Keeps.eval (m : Name) (e : Ex) (ρ : Env) {β : Type} (k : PVal → M β) (hk : ∀ v, Keeps (k v)) : Keeps (Src.eval call m e ρ k) :=
  (KeepsEx.all hc m e).ev ρ k hk

omit hc in
theorem Keeps.after {fl : Flow} {k : Env → M Flow} (hk : ∀ ρ, Keeps (k ρ)) : Keeps (Src.after fl k) := by
  cases fl
  · exact hk _
  · exact .done _

omit hc in
theorem Keeps.forRange {body : Env → M Flow} (hb : ∀ ρ, Keeps (body ρ)) (x : Name) : ∀ n i ρ, Keeps (Src.forRange body x n i ρ)
  | 0, _, _ => .done _
  | n + 1, i, ρ => Keeps.setK ρ fun ρ' => .andThen (hb ρ') fun _ => Keeps.after fun ρ => Keeps.forRange hb x n (i + 1) ρ

theorem Keeps.exec (m : Name) : ∀ (st : St) (ρ : Env), Keeps (Src.exec call m st ρ)
  | .done, _ => .done _
  | .assign x e rest, ρ => Keeps.eval hc m e ρ _ fun v => Keeps.setK ρ fun ρ' => Keeps.exec m rest ρ'
  | .aug x op e rest, ρ => Keeps.nameK (fun v => Keeps.eval hc m e ρ _ fun w => .andThen (Keeps.binV _ _ _) fun u => Keeps.setK ρ fun ρ' => Keeps.exec m rest ρ') ρ
  | .unpack xs e rest, ρ => Keeps.eval hc m e ρ _ fun v => .andThen (Keeps.iterM _) fun vs => Keeps.unpackK xs vs ρ fun ρ' => Keeps.exec m rest ρ'
  | .setAttr o a e rest, ρ => Keeps.eval hc m e ρ _ fun v => Keeps.eval hc m o ρ _ fun w => .andThen (Keeps.setAttrM _ _ _) fun _ => Keeps.exec m rest ρ
  | .expr e rest, ρ => Keeps.eval hc m e ρ _ fun _ => Keeps.exec m rest ρ
  | .assert c rest, ρ => Keeps.eval hc m c ρ _ fun _ => .andThen (Keeps.truth _) fun _ => .branch (Keeps.exec m rest ρ) (.fail _)
  | .ite c a b rest, ρ => Keeps.eval hc m c ρ _ fun _ => .andThen (Keeps.truth _) fun _ =>
      .andThen (.branch (Keeps.exec m a ρ) (Keeps.exec m b ρ)) fun _ => Keeps.after fun ρ' => Keeps.exec m rest ρ'
  | .forIn x it body rest, ρ => Keeps.eval hc m it ρ _ fun v => by
      cases v with
      | range n => exact .andThen (Keeps.forRange (fun ρ => Keeps.exec m body ρ) x _ _ _) fun _ => Keeps.after fun ρ' => Keeps.exec m rest ρ'
      | _ => exact .fail _
  | .ret e, ρ => Keeps.eval hc m e ρ _ fun _ => .done _
  | .raise _, _ => .fail _

theorem Keeps.run (r : PVal) (c f : Name) (as : Args) : Keeps (Src.run call r c f as) := by
  unfold Src.run
  split
  · exact .fail _
  · split
    · exact .fail _
    · split
      · exact .fail _
      · refine .andThen (Keeps.exec hc _ _ _) fun fl => ?_
        cases fl
        · exact .done _
        · exact .done _

end

/-- Executing any function of the package. -/
theorem Keeps.callN : ∀ n r c f as, Keeps (Src.callN n r c f as)
  | 0, _, _, _, _ => .fail _
  | n + 1, r, c, f, as => Keeps.run (Keeps.callN n) r c f as

theorem known_dataclasses : ∀ c ∈ dataclassNames, c ∈ W.methods.map (·.1) := by decide +kernel

theorem Grows.known {H H' : Heap} (h : Grows H H') (hk : Known H) : Known H' := by
  intro a c attrs ha
  cases hb : H[a]? with
  | none => exact known_dataclasses c (h.new a c attrs hb ha)
  | some d =>
    obtain ⟨e, h3, h4⟩ := h.old a d hb
    rw [ha] at h3
    cases h3
    cases d with
    | record c' at' =>
      cases h4
      exact hk a c at' hb
    | _ => exact h4.elim

end Genie.Src
