import Verif.Proof.Heap.Named
import Verif.Proof.Heap.Fits
import Verif.Spec.CopyTypes
import Verif.Spec.Annotations
/-! # Well-typed programs with copies -/

namespace Genie
open ObjTree

/-! ## how deep objects of a type can be -/

/-- How deep an object of this annotation can be, given how deep instances of the classes can be. -/
def Ann.reach (rank : PyStr → Nat) : Ann → Nat
  | .int => 1
  | .float => 1
  | .str => 1
  | .list a => a.reach rank + 1
  | .tuple as => reachAll rank as + 1
  | .opt a => max 1 (a.reach rank)
  | .cls c => rank c
where
  reachAll (rank : PyStr → Nat) : List Ann → Nat
    | [] => 0
    | a :: as => max (Ann.reach rank a) (reachAll rank as)

/-- The deepest field. -/
def reachFields (rank : PyStr → Nat) : List (PyStr × Ann) → Nat
  | [] => 0
  | (_, a) :: fs => max (a.reach rank) (reachFields rank fs)

theorem heightItems_le {n : Nat} : ∀ {ts : List ObjTree}, (∀ t ∈ ts, t.height ≤ n) → heightItems ts ≤ n
  | [], _ => Nat.zero_le _
  | t :: ts, h => by
    have h1 := h t List.mem_cons_self
    have h2 := heightItems_le fun x hx => h x (List.mem_cons_of_mem _ hx)
    simp only [ObjTree.heightItems]; omega

mutual
theorem Suits.height {D : PyStr → List (PyStr × Ann) → Prop} {rank : PyStr → Nat} (hD : ∀ c fs, D c fs → reachFields rank fs + 1 ≤ rank c) :
    ∀ {a t}, Suits D a t → t.height ≤ a.reach rank
  | _, _, .int _ => Nat.le_refl _
  | _, _, .float _ => Nat.le_refl _
  | _, _, .promote _ => Nat.le_refl _
  | _, _, .str _ => Nat.le_refl _
  | _, _, .list h => by
    have := heightItems_le fun t ht => (h t ht).height hD
    simp only [ObjTree.height, Ann.reach]; omega
  | _, _, .tuple h => by
    have := h.height hD
    simp only [ObjTree.height, Ann.reach]; omega
  | _, _, .none => by simp only [ObjTree.height, Ann.reach]; omega
  | _, _, .some h => by
    have := h.height hD
    simp only [Ann.reach]; omega
  | _, _, .cls d h => by
    have := h.height hD
    have := hD _ _ d
    simp only [ObjTree.height, Ann.reach]; omega
theorem SuitsAll.height {D : PyStr → List (PyStr × Ann) → Prop} {rank : PyStr → Nat} (hD : ∀ c fs, D c fs → reachFields rank fs + 1 ≤ rank c) :
    ∀ {as ts}, SuitsAll D as ts → heightItems ts ≤ Ann.reach.reachAll rank as
  | _, _, .nil => Nat.le_refl _
  | _, _, .cons h hs => by
    have h1 := h.height hD
    have h2 := hs.height hD
    simp only [ObjTree.heightItems, Ann.reach.reachAll]; omega
theorem SuitsFields.height {D : PyStr → List (PyStr × Ann) → Prop} {rank : PyStr → Nat} (hD : ∀ c fs, D c fs → reachFields rank fs + 1 ≤ rank c) :
    ∀ {fs ts}, SuitsFields D fs ts → heightAttrs ts ≤ reachFields rank fs
  | _, _, .nil => Nat.le_refl _
  | _, _, .cons h hs => by
    have h1 := h.height hD
    have h2 := hs.height hD
    simp only [ObjTree.heightAttrs, reachFields]; omega
end

/-! ## types of expressions -/

section
variable {D : PyStr → List (PyStr × Ann) → Prop}

theorem get_append : ∀ {p q : ObjPath} {t u : ObjTree}, t.get (p ++ q) = some u → ∃ w, t.get p = some w ∧ w.get q = some u
  | [], _, t, _, h => ⟨t, rfl, h⟩
  | st :: p, q, t, u, h => by
    replace h : (match t.child st with | some u => u.get (p ++ q) | Option.none => Option.none) = some u := h
    cases e : t.child st with
    | none => rw [e] at h; cases h
    | some c =>
      rw [e] at h
      obtain ⟨w, h1, h2⟩ := get_append (p := p) h
      exact ⟨w, by unfold ObjTree.get; rw [e]; exact h1, h2⟩

theorem get_snoc {p : ObjPath} {st : PathStep} {t u : ObjTree} (h : t.get (p ++ [st]) = some u) : ∃ w, t.get p = some w ∧ w.child st = some u := by
  obtain ⟨w, h1, h2⟩ := get_append h
  refine ⟨w, h1, ?_⟩
  unfold ObjTree.get at h2
  cases e : w.child st with
  | none => rw [e] at h2; cases h2
  | some c => rw [e] at h2; cases h2; rfl

theorem ReadsAs.get (od : OneDef D) {root a : Ann} {p : ObjPath} (h : ReadsAs D root p a) {t u : ObjTree} (ht : Suits D root t) (hg : t.get p = some u) :
    Suits D a u := by
  cases h with
  | attr l d ha =>
    obtain ⟨w, h1, h2⟩ := get_snoc hg
    have hw := l.get od ht h1 (by rintro rfl; cases h2)
    cases hw with
    | cls d' hf =>
      have := od _ _ _ d d'
      subst this
      obtain ⟨t', e1, e2⟩ := hf.attr ha
      simp only [ObjTree.child] at h2
      rw [h2] at e1
      cases e1
      exact e2
  | listItem l =>
    obtain ⟨w, h1, h2⟩ := get_snoc hg
    have hw := l.get od ht h1 (by rintro rfl; cases h2)
    cases hw with
    | list hf => exact hf u (List.mem_of_getElem? h2)
  | tupleItem l hi =>
    obtain ⟨w, h1, h2⟩ := get_snoc hg
    have hw := l.get od ht h1 (by rintro rfl; cases h2)
    cases hw with
    | tuple hf => exact hf.item hi h2

theorem ImmutableItems.of_mem : ∀ {ts : List ObjTree}, (∀ t ∈ ts, t.Immutable) → ImmutableItems ts
  | [], _ => .nil
  | _ :: _, h => .cons (h _ List.mem_cons_self) (ImmutableItems.of_mem fun t ht => h t (List.mem_cons_of_mem _ ht))

theorem SuitsAll.zip : ∀ {as ts}, SuitsAll D as ts → ∀ t ∈ ts, ∃ a ∈ as, Suits D a t
  | _, _, .nil, _, h => nomatch h
  | _, _, .cons h hs, t, m => by
    rcases List.mem_cons.1 m with e | m
    · subst e; exact ⟨_, List.mem_cons_self, h⟩
    · obtain ⟨a, h1, h2⟩ := hs.zip t m
      exact ⟨a, List.mem_cons_of_mem _ h1, h2⟩

theorem Ann.Immutable.tree {a : Ann} (ha : a.Immutable) : ∀ {t : ObjTree}, Suits D a t → t.Immutable := by
  induction ha with
  | int => intro t h; cases h; exact .int _
  | float => intro t h; cases h <;> first | exact .float _ | exact .int _
  | str => intro t h; cases h; exact .str _
  | tuple _ ih =>
    intro t h
    cases h with
    | tuple h =>
      refine .tuple (ImmutableItems.of_mem fun t ht => ?_)
      obtain ⟨a, h1, h2⟩ := h.zip t ht
      exact ih a h1 h2
  | opt _ ih =>
    intro t h
    cases h with
    | none => exact .none
    | some h => exact ih h

theorem Source.Typed.suits (od : OneDef D) {root a : Ann} {src : Source} (h : src.Typed D root a) {t u : ObjTree} (ht : Suits D root t) {depth : Nat}
    (hu : src.onTree depth t = .ok u) : Suits D a u := by
  have sub : ∀ {a b : Ann} {u : ObjTree}, a = b ∨ a = .opt b → Suits D b u → Suits D a u := by
    rintro a b u (rfl | rfl) h
    · exact h
    · exact .some h
  cases h with
  | new h => cases hu; exact h
  | copy l e =>
    simp only [Source.onTree] at hu
    split at hu
    · next w hw =>
      split at hu
      · cases hu
        exact sub e (l.get od ht (eval_get.1 hw))
      · cases hu
    · cases hu
  | share l e _ => exact sub e (l.get od ht (eval_get.1 hu))

/-- The statement with the value of its right-hand side written out. -/
def Command.literal (c : Command) (u : ObjTree) : Edit := ⟨c.place, c.stmt, u⟩

theorem Command.Typed.literal (od : OneDef D) {root : Ann} {c : Command} (h : c.Typed D root) {t u : ObjTree} (ht : Suits D root t) {depth : Nat}
    (hu : c.source.onTree depth t = .ok u) : Edit.Typed D root (c.literal u) := by
  cases h with
  | setAttr l d ha hs => exact .setAttr l d ha (hs.suits od ht hu)
  | setItem l hs => exact .setItem l (hs.suits od ht hu)
  | append l hs => exact .append l (hs.suits od ht hu)
  | pop l => exact .pop l
  | insert l hs => exact .insert l (hs.suits od ht hu)
  | delItem l => exact .delItem l
  | delSlice l => exact .delSlice l

/-- Well-typed statements share nothing changeable. -/
theorem Command.Typed.separate (od : OneDef D) {root : Ann} {c : Command} (h : c.Typed D root) {t : ObjTree} (ht : Suits D root t) :
    ∀ p u, c.source = .share p → t.eval p = .ok u → u.Immutable := by
  have key : ∀ {a : Ann} {src : Source}, src.Typed D root a → ∀ p u, src = .share p → t.eval p = .ok u → u.Immutable := by
    intro a src hs p u e he
    subst e
    cases hs with
    | share l _ im => exact im.tree (l.get od ht (eval_get.1 he))
  cases h with
  | setAttr _ _ _ hs => exact key hs
  | setItem _ hs => exact key hs
  | append _ hs => exact key hs
  | pop => exact fun _ _ e => nomatch e
  | insert _ hs => exact key hs
  | delItem => exact fun _ _ e => nomatch e
  | delSlice => exact fun _ _ e => nomatch e

/-- A well-typed statement keeps the types. -/
theorem Command.Typed.keeps (od : OneDef D) {root : Ann} {c : Command} (h : c.Typed D root) {t t' : ObjTree} (ht : Suits D root t) {depth : Nat}
    (he : c.onTree depth t = .ok t') : Suits D root t' := by
  unfold Command.onTree at he
  cases hs : c.source.onTree depth t with
  | error e => rw [hs] at he; cases he
  | ok u =>
    rw [hs] at he
    dsimp only at he
    cases hp : t.eval c.place with
    | error e => rw [hp] at he; cases he
    | ok x =>
      rw [hp] at he
      dsimp only at he
      cases hx : c.stmt.onTree u x with
      | error e => rw [hx] at he; cases he
      | ok x' =>
        rw [hx] at he
        cases he
        exact (h.literal od ht hs).keeps od ht (eval_get.1 hp) hx

theorem typed_separate (od : OneDef D) {root : Ann} {depth : Nat} : ∀ {cs : List Command} {t : ObjTree}, (∀ c ∈ cs, c.Typed D root) → Suits D root t →
    Separate depth cs t
  | [], _, _, _ => trivial
  | c :: _, _, hc, ht =>
    ⟨(hc c List.mem_cons_self).separate od ht, fun _ he =>
      typed_separate od (fun c h => hc c (List.mem_cons_of_mem _ h)) ((hc c List.mem_cons_self).keeps od ht he)⟩

theorem typed_keeps (od : OneDef D) {root : Ann} {depth : Nat} : ∀ {cs : List Command} {t t' : ObjTree}, (∀ c ∈ cs, c.Typed D root) → Suits D root t →
    commandTree depth cs t = .ok t' → Suits D root t'
  | [], _, _, _, ht, h => by cases h; exact ht
  | c :: cs, t, t', hc, ht, h => by
    unfold commandTree at h
    cases e : c.onTree depth t with
    | error x => rw [e] at h; cases h
    | ok t1 =>
      rw [e] at h
      exact typed_keeps od (fun c h => hc c (List.mem_cons_of_mem _ h)) ((hc c List.mem_cons_self).keeps od ht e) h

theorem eval_append_error : ∀ {p q : ObjPath} {t : ObjTree} {e : PyErr}, t.eval (p ++ q) = .error e →
    t.eval p = .error e ∨ ∃ w, t.eval p = .ok w ∧ w.eval q = .error e
  | [], _, t, _, h => .inr ⟨t, rfl, h⟩
  | st :: p, q, t, x, h => by
    replace h : (match t.step st with | .ok u => u.eval (p ++ q) | .error e => .error e) = .error x := h
    show (match t.step st with | .ok u => u.eval p | .error e => .error e) = _ ∨ ∃ w, (match t.step st with | .ok u => u.eval p | .error e => .error e) = _ ∧ _
    cases e : t.step st with
    | error y => rw [e] at h; exact .inl h
    | ok c => rw [e] at h; exact eval_append_error (p := p) h

/-- The exceptions of expressions. -/
def ExprErr (e : PyErr) : Prop := e = .indexError ∨ e = .attributeError ∨ e = .typeError

theorem Leads.exprErr (od : OneDef D) {a b : Ann} {p : ObjPath} (l : Leads D a p b) {t : ObjTree} {e : PyErr} (ht : Suits D a t) (h : t.eval p = .error e) :
    ExprErr e := by
  rcases l.eval_error od ht h with h | ⟨_, st, _, _, h⟩
  · exact .inl h
  · cases st
    · exact .inr (.inl h)
    · exact .inr (.inr h)

theorem step_error_kind {t : ObjTree} {st : PathStep} {e : PyErr} (h : t.eval [st] = .error e) : ExprErr e := by
  have hs : t.step st = .error e := by
    unfold ObjTree.eval at h
    cases hs : t.step st with
    | error y => rw [hs] at h; exact h
    | ok c => rw [hs] at h; cases h
  unfold ExprErr
  cases t <;> cases st <;> simp only [ObjTree.step] at hs <;> first
    | (cases hs; simp; done)
    | (split at hs <;> cases hs <;> simp)

theorem ReadsAs.exprErr (od : OneDef D) {root a : Ann} {p : ObjPath} (l : ReadsAs D root p a) {t : ObjTree} {e : PyErr} (ht : Suits D root t)
    (h : t.eval p = .error e) : ExprErr e := by
  cases l with
  | attr l _ _ =>
    rcases eval_append_error h with h | ⟨_, _, h⟩
    · exact l.exprErr od ht h
    · exact step_error_kind h
  | listItem l =>
    rcases eval_append_error h with h | ⟨_, _, h⟩
    · exact l.exprErr od ht h
    · exact step_error_kind h
  | tupleItem l _ =>
    rcases eval_append_error h with h | ⟨_, _, h⟩
    · exact l.exprErr od ht h
    · exact step_error_kind h

theorem onTree_error_kind {st : Stmt} {u x : ObjTree} {e : PyErr} (h : st.onTree u x = .error e) : ExprErr e := by
  unfold ExprErr
  cases st with
  | setAttr n =>
    cases x <;> simp only [Stmt.onTree, withAttr] at h <;> first
      | (cases h; simp; done)
      | (split at h <;> first | (cases h; done) | (split at h <;> cases h <;> simp))
  | setItem n =>
    cases x <;> simp only [Stmt.onTree, withItem] at h <;> first
      | (cases h; simp; done)
      | (split at h <;> cases h <;> simp)
  | append => cases x <;> cases h <;> simp
  | pop =>
    cases x with
    | list ts => cases ts <;> cases h; simp
    | _ => cases h; simp
  | insert i => cases x <;> cases h <;> simp
  | delItem i =>
    cases x <;> simp only [Stmt.onTree, withoutItem] at h <;> first
      | (cases h; simp; done)
      | (split at h <;> cases h <;> simp)
  | delSlice i j => cases x <;> cases h <;> simp

theorem height_item : ∀ {ts : List ObjTree} {i : Nat} {t : ObjTree}, ts[i]? = some t → t.height ≤ heightItems ts
  | [], _, _, h => nomatch h
  | _ :: _, 0, _, h => by cases h; simp only [ObjTree.heightItems]; omega
  | _ :: ts, i + 1, _, h => by
    have := height_item (ts := ts) (i := i) h
    simp only [ObjTree.heightItems]; omega

theorem height_attr {n : PyStr} : ∀ {ts : List (PyStr × ObjTree)} {t : ObjTree}, attrOf n ts = some t → t.height ≤ heightAttrs ts
  | [], _, h => nomatch h
  | (m, x) :: ts, t, h => by
    unfold attrOf at h
    simp only [ObjTree.heightAttrs]
    split at h
    · cases h; omega
    · have := height_attr h; omega

theorem height_child {t u : ObjTree} {st : PathStep} (h : t.child st = some u) : u.height ≤ t.height := by
  cases t with
  | list ts => cases st with
    | attr n => cases h
    | item i => have := height_item h; simp only [ObjTree.height]; omega
  | tuple ts => cases st with
    | attr n => cases h
    | item i => have := height_item h; simp only [ObjTree.height]; omega
  | obj c ts => cases st with
    | attr n => have := height_attr h; simp only [ObjTree.height]; omega
    | item i => cases h
  | _ => cases h

theorem height_get : ∀ {p : ObjPath} {t u : ObjTree}, t.get p = some u → u.height ≤ t.height
  | [], _, _, h => by cases h; exact Nat.le_refl _
  | st :: p, t, u, h => by
    unfold ObjTree.get at h
    cases e : t.child st with
    | none => rw [e] at h; cases h
    | some c => rw [e] at h; exact Nat.le_trans (height_get h) (height_child e)

/-- The exceptions of well-typed statements. -/
theorem Command.Typed.exprErr (od : OneDef D) {root : Ann} {c : Command}
    (h : c.Typed D root) {t : ObjTree} {e : PyErr} (ht : Suits D root t) {depth : Nat} (hd : t.height ≤ depth) (he : c.onTree depth t = .error e) : ExprErr e := by
  have src : ∀ {a : Ann} {src : Source} {e : PyErr}, src.Typed D root a → src.onTree depth t = .error e → ExprErr e := by
    intro a src e hs he
    cases hs with
    | new => cases he
    | share l _ _ => exact l.exprErr od ht he
    | copy l _ =>
      simp only [Source.onTree] at he
      split at he
      · next w hw =>
        have := height_get (eval_get.1 hw)
        rw [if_pos (by omega)] at he
        cases he
      · next hw => cases he; exact l.exprErr od ht hw
  unfold Command.onTree at he
  have key : ∀ {a : Ann}, c.source.Typed D root a ∨ c.source = .new .none → ∀ {b : Ann}, Leads D root c.place b → ExprErr e := by
    intro a hs b l
    cases hso : c.source.onTree depth t with
    | error e' =>
      rw [hso] at he
      cases he
      rcases hs with hs | hs
      · exact src hs hso
      · rw [hs] at hso; cases hso
    | ok u =>
      rw [hso] at he
      dsimp only at he
      cases hp : t.eval c.place with
      | error e' => rw [hp] at he; cases he; exact l.exprErr od ht hp
      | ok x =>
        rw [hp] at he
        dsimp only at he
        cases hx : c.stmt.onTree u x with
        | error e' => rw [hx] at he; cases he; exact onTree_error_kind hx
        | ok x' => rw [hx] at he; cases he
  cases h with
  | setAttr l _ _ hs => exact key (.inl hs) l
  | setItem l hs => exact key (.inl hs) l
  | append l hs => exact key (.inl hs) l
  | pop l => exact key (a := .int) (.inr rfl) l
  | insert l hs => exact key (.inl hs) l
  | delItem l => exact key (a := .int) (.inr rfl) l
  | delSlice l => exact key (a := .int) (.inr rfl) l

end

/-! ## the classes of the package -/

/-- How deep instances of the classes can be. -/
def classRanks : List (PyStr × Nat) :=
  [(lit "EffectCommand", 2), (lit "Effect", 4), (lit "SoundItem", 2), (lit "Sound", 4), (lit "PlayerColour", 2),
   (lit "GraphicDelta", 2), (lit "GraphicAngleSound", 2), (lit "Graphic", 4), (lit "TerrainPassGraphic", 2),
   (lit "TerrainRestriction", 4), (lit "FrameData", 2), (lit "Terrain", 4), (lit "TileSize", 2), (lit "TerrainBlock", 6),
   (lit "MapUnit", 2), (lit "MapTerrain", 2), (lit "MapLand", 2), (lit "MapElevation", 2), (lit "MapInfo", 4),
   (lit "RandomMaps", 6), (lit "ResearchResourceCost", 2), (lit "ResearchLocation", 2), (lit "Tech", 4), (lit "Common", 3),
   (lit "TechTreeAge", 4), (lit "BuildingConnection", 4), (lit "UnitConnection", 4), (lit "ResearchConnection", 4),
   (lit "TechTree", 6), (lit "Task", 2), (lit "ResourceStorage", 2), (lit "DamageGraphic", 2), (lit "DeadFish", 2),
   (lit "Bird", 4), (lit "AttackOrArmor", 2), (lit "Type50", 4), (lit "Projectile", 2), (lit "ResourceCost", 2),
   (lit "TrainLocation", 2), (lit "Creatable", 4), (lit "BuildingAnnex", 2), (lit "Building", 4), (lit "Unit", 5),
   (lit "UnitHeaders", 4), (lit "Civ", 7), (lit "DatFile", 9)]

/-- Look it up. -/
def rankOf (c : PyStr) : Nat := ((classRanks.find? fun x => x.1 = c).map (·.2)).getD 0

theorem Declares.reach : ∀ c fs, Declares false c fs → reachFields rankOf fs + 1 ≤ rankOf c := by
  intro c fs h
  cases h <;> decide +kernel

theorem Declares.names : ∀ c fs, Declares false c fs → (fs.map (·.1)).Nodup := by
  intro c fs h
  cases h <;> decide +kernel

end Genie
