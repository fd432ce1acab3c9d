import Verif.Proof.Heap.Deepcopy
import Verif.Proof.Heap.Local
/-! # Places of a copy; how deep `copy.deepcopy` goes -/

namespace Genie
open HReader ObjTree

/-- The value a renaming of addresses gives. -/
def renV (κ : Nat → Nat) : HVal → HVal
  | .ref a => .ref (κ a)
  | v => v

mutual
theorem Rep.length_eq {H H' : Heap} : ∀ {v w t f g}, Rep H v t f → Rep H' w t g → f.length = g.length
  | _, _, _, _, _, .none, r' => by cases r'; rfl
  | _, _, _, _, _, .int _, r' => by cases r'; rfl
  | _, _, _, _, _, .float _, r' => by cases r'; rfl
  | _, _, _, _, _, .str _, r' => by cases r'; rfl
  | _, _, _, _, _, .list _ rs, r' => by
    cases r' with
    | list h' rs' => simp [rs.length_eq rs']
  | _, _, _, _, _, .tuple _ rs, r' => by
    cases r' with
    | tuple h' rs' => simp [rs.length_eq rs']
  | _, _, _, _, _, .obj _ rs, r' => by
    cases r' with
    | obj h' rs' => simp [rs.length_eq rs']
theorem RepItems.length_eq {H H' : Heap} : ∀ {vs ws ts f g}, RepItems H vs ts f → RepItems H' ws ts g → f.length = g.length
  | _, _, _, _, _, .nil, r' => by cases r'; rfl
  | _, _, _, _, _, .cons r rs, r' => by
    cases r' with
    | cons r1 rs1 => simp [r.length_eq r1, rs.length_eq rs1]
theorem RepAttrs.length_eq {H H' : Heap} : ∀ {vs ws ts f g}, RepAttrs H vs ts f → RepAttrs H' ws ts g → f.length = g.length
  | _, _, _, _, _, .nil, r' => by cases r'; rfl
  | _, _, _, _, _, .cons r rs, r' => by
    cases r' with
    | cons r1 rs1 => simp [r.length_eq r1, rs.length_eq rs1]
end

theorem Rep.renamed {H H' : Heap} {κ : Nat → Nat} {v w t f} (r : Rep H v t f) (r' : Rep H' w t (f.map κ)) : w = renV κ v := by
  cases r with
  | none => cases r'; rfl
  | int _ => cases r'; rfl
  | float _ => cases r'; rfl
  | str _ => cases r'; rfl
  | list h rs => generalize e : List.map κ _ = g at r'; cases r'; cases e; rfl
  | tuple h rs => generalize e : List.map κ _ = g at r'; cases r'; cases e; rfl
  | obj h rs => generalize e : List.map κ _ = g at r'; cases r'; cases e; rfl

theorem RepItems.twin {H H' : Heap} {κ : Nat → Nat} : ∀ {vs ws ts f}, RepItems H vs ts f → RepItems H' ws ts (f.map κ) →
    ∀ (i : Nat), (vs[i]? = Option.none ∧ ws[i]? = Option.none) ∨
      ∃ v w t g, vs[i]? = some v ∧ ws[i]? = some w ∧ Rep H v t g ∧ Rep H' w t (g.map κ) ∧ ∀ x ∈ g, x ∈ f
  | _, _, _, _, .nil, r', i => by cases r'; exact .inl ⟨rfl, rfl⟩
  | _, _, _, _, .cons (fp := g1) (fps := gs) r rs, r', i => by
    generalize e : List.map κ (g1 ++ gs) = g at r'
    cases r' with
    | cons r1 rs1 =>
      rw [List.map_append] at e
      have l := r.length_eq r1
      obtain ⟨e1, e2⟩ := List.append_inj e (by simp [l])
      subst e1 e2
      cases i with
      | zero => exact .inr ⟨_, _, _, _, rfl, rfl, r, r1, fun x h => List.mem_append_left _ h⟩
      | succ i =>
        rcases rs.twin rs1 i with h | ⟨v, w, t, g, h1, h2, h3, h4, h5⟩
        · exact .inl h
        · exact .inr ⟨v, w, t, g, h1, h2, h3, h4, fun x h => List.mem_append_right _ (h5 x h)⟩

theorem RepAttrs.twin {H H' : Heap} {κ : Nat → Nat} {n : PyStr} : ∀ {vs ws ts f}, RepAttrs H vs ts f → RepAttrs H' ws ts (f.map κ) →
    (lookup n vs = Option.none ∧ lookup n ws = Option.none) ∨
      ∃ v w t g, lookup n vs = some v ∧ lookup n ws = some w ∧ Rep H v t g ∧ Rep H' w t (g.map κ) ∧ ∀ x ∈ g, x ∈ f
  | _, _, _, _, .nil, r' => by cases r'; exact .inl ⟨rfl, rfl⟩
  | _, _, _, _, .cons (n := m) (fp := g1) (fps := gs) r rs, r' => by
    generalize e : List.map κ (g1 ++ gs) = g at r'
    cases r' with
    | cons r1 rs1 =>
      rw [List.map_append] at e
      have l := r.length_eq r1
      obtain ⟨e1, e2⟩ := List.append_inj e (by simp [l])
      subst e1 e2
      unfold lookup
      by_cases hm : m = n
      · rw [if_pos hm, if_pos hm]
        exact .inr ⟨_, _, _, _, rfl, rfl, r, r1, fun x h => List.mem_append_left _ h⟩
      · rw [if_neg hm, if_neg hm]
        rcases rs.twin rs1 with h | ⟨v, w, t, g, h1, h2, h3, h4, h5⟩
        · exact .inl h
        · exact .inr ⟨v, w, t, g, h1, h2, h3, h4, fun x h => List.mem_append_right _ (h5 x h)⟩

/-- One step into the copy is the copy of one step. -/
theorem Rep.twin_step {H H' : Heap} {κ : Nat → Nat} {v w t f} (r : Rep H v t f) (r' : Rep H' w t (f.map κ)) (st : PathStep) :
    (H.step v st = Option.none ∧ H'.step w st = Option.none) ∨
      ∃ v1 w1 t1 g, H.step v st = some v1 ∧ H'.step w st = some w1 ∧ Rep H v1 t1 g ∧ Rep H' w1 t1 (g.map κ) ∧ ∀ x ∈ g, x ∈ f := by
  cases r with
  | none => cases r'; exact .inl ⟨rfl, rfl⟩
  | int _ => cases r'; exact .inl ⟨rfl, rfl⟩
  | float _ => cases r'; exact .inl ⟨rfl, rfl⟩
  | str _ => cases r'; exact .inl ⟨rfl, rfl⟩
  | list h rs =>
    generalize e : List.map κ _ = g at r'
    cases r' with
    | list h' rs' =>
      rw [List.map_cons] at e
      injection e with e1 e2
      subst e2
      unfold Heap.step
      simp only [h, h']
      cases st with
      | attr n => exact .inl ⟨rfl, rfl⟩
      | item i => exact (rs.twin rs' i).imp id fun ⟨v, w, t, g, h1, h2, h3, h4, h5⟩ => ⟨v, w, t, g, h1, h2, h3, h4, fun x h => List.mem_cons_of_mem _ (h5 x h)⟩
  | tuple h rs =>
    generalize e : List.map κ _ = g at r'
    cases r' with
    | tuple h' rs' =>
      rw [List.map_cons] at e
      injection e with e1 e2
      subst e2
      unfold Heap.step
      simp only [h, h']
      cases st with
      | attr n => exact .inl ⟨rfl, rfl⟩
      | item i => exact (rs.twin rs' i).imp id fun ⟨v, w, t, g, h1, h2, h3, h4, h5⟩ => ⟨v, w, t, g, h1, h2, h3, h4, fun x h => List.mem_cons_of_mem _ (h5 x h)⟩
  | obj h rs =>
    generalize e : List.map κ _ = g at r'
    cases r' with
    | obj h' rs' =>
      rw [List.map_cons] at e
      injection e with e1 e2
      subst e2
      unfold Heap.step
      simp only [h, h']
      cases st with
      | item n => exact .inl ⟨rfl, rfl⟩
      | attr i => exact (rs.twin rs').imp id fun ⟨v, w, t, g, h1, h2, h3, h4, h5⟩ => ⟨v, w, t, g, h1, h2, h3, h4, fun x h => List.mem_cons_of_mem _ (h5 x h)⟩

/-- What is at a place of the copy is the copy of what is at the place. -/
theorem Rep.twin {H H' : Heap} {κ : Nat → Nat} : ∀ {p : ObjPath} {v w t f}, Rep H v t f → Rep H' w t (f.map κ) →
    H'.follow w p = (H.follow v p).map (renV κ)
  | [], v, w, t, f, r, r' => by
    show some w = some (renV κ v)
    rw [r.renamed r']
  | st :: p, v, w, t, f, r, r' => by
    unfold Heap.follow
    rcases r.twin_step r' st with ⟨h1, h2⟩ | ⟨v1, w1, t1, g, h1, h2, h3, h4, _⟩
    · rw [h1, h2]; rfl
    · rw [h1, h2]; exact h3.twin (p := p) h4

/-! ## how deep it goes -/

/-- No changeable object is met twice. -/
def Owned (H : Heap) (fp : List Nat) : Prop := ∀ a, H.Mutable a → fp.count a ≤ 1

theorem Owned.left {H f g} (h : Owned H (f ++ g)) : Owned H f := fun a m => by have := h a m; rw [List.count_append] at this; omega
theorem Owned.right {H f g} (h : Owned H (f ++ g)) : Owned H g := fun a m => by have := h a m; rw [List.count_append] at this; omega
theorem Owned.tail {H a f} (h : Owned H (a :: f)) : Owned H f := Owned.right (f := [a]) h

/-- Nothing that will be met is in the memo. -/
def Unknown (M : Memo) (fp : List Nat) : Prop := ∀ b ∈ fp, M.find b = Option.none

theorem Unknown.next {P H H' : Heap} {M M' : Memo} {f g : List Nat} {v t} (r : Rep P v t f)
    (rs : ∀ b ∈ g, ∃ tb fb, Rep P (.ref b) tb fb ∧ fb.length ≤ g.length ∧ ∀ x ∈ fb, x ∈ g)
    (un : Unknown M (f ++ g)) (own : Owned P (f ++ g)) (k : Copied P H M f H' M') : Unknown M' g := by
  intro b hb
  cases e : M'.find b with
  | none => rfl
  | some w =>
    exfalso
    rcases k.only b (by rw [e]; simp) with h | h
    · exact h (un b (List.mem_append_right _ hb))
    · obtain ⟨tb, fb, rb, _, sub⟩ := r.within b h
      obtain ⟨tb', fb', rb', _, sub'⟩ := rs b hb
      obtain ⟨_, e2⟩ := rb'.det rb
      subst e2
      have fr : Frozen P b := by
        refine ⟨tb, _, rb, fun x hx m => ?_⟩
        have := own x m
        rw [List.count_append] at this
        have h1 := List.count_pos_iff.2 (sub x hx)
        have h2 := List.count_pos_iff.2 (sub' x hx)
        omega
      rw [k.inv.frozen b fr] at e
      cases e

theorem Unknown.enter {M : Memo} {a : Nat} {w : HVal} {fps : List Nat} (un : Unknown M (a :: fps)) (na : a ∉ fps) : Unknown ((a, w) :: M) fps := by
  intro b hb
  rw [Memo.find_cons_ne (by rintro rfl; exact na hb)]
  exact un b (List.mem_cons_of_mem _ hb)

theorem finish_ok {y : Nat} {mk : α → Cell} {x : Py ((α × Memo) × Heap × ByteHandler)} {r} (h : finish y mk x = .ok r) : ∃ r', x = .ok r' := by
  cases x with
  | error e => cases h
  | ok r' => exact ⟨r', rfl⟩

mutual
theorem deepcopy_depth {P : Heap} : ∀ {v t fp}, Rep P v t fp → ∀ (depth : Nat) (H : Heap) (M : Memo) (s : ByteHandler), CopyInv P H M → Ready P H M fp →
    Unknown M fp → Owned P fp → ∀ out, deepcopy depth v M H s = .ok out → t.height ≤ depth
  | _, _, _, _, 0, _, _, _, _, _, _, _, _, h => by cases h
  | _, _, _, .none, d + 1, _, _, _, _, _, _, _, _, _ => by simp [ObjTree.height]
  | _, _, _, .int _, d + 1, _, _, _, _, _, _, _, _, _ => by simp [ObjTree.height]
  | _, _, _, .float _, d + 1, _, _, _, _, _, _, _, _, _ => by simp [ObjTree.height]
  | _, _, _, .str _, d + 1, _, _, _, _, _, _, _, _, _ => by simp [ObjTree.height]
  | _, _, _, .list (a := a) (vs := vs) (fp := fps) h rs, d + 1, H, M, s, i, rd, un, own, out, ho => by
    have ra := Rep.list h rs
    have hm := un a List.mem_cons_self
    have mu : P.Mutable a := ⟨_, h, fun _ e => nomatch e⟩
    have lt := ra.bound a List.mem_cons_self
    obtain ⟨_, e, na⟩ := ra.acyclic
    cases e
    have i' := i.enter lt (not_frozen mu) (.list [])
    have hc : H[a]? = some (.list vs) := by rw [i.same a lt]; exact h
    rw [deepcopy_list d hm hc s] at ho
    obtain ⟨r', hr'⟩ := finish_ok ho
    have := items_depth rs d _ _ s i' (rd.enter na hm i') (un.enter na) own.tail r' hr'
    simp only [ObjTree.height]; omega
  | _, _, _, .obj (a := a) (cls := cls) (vs := vs) (fp := fps) h rs, d + 1, H, M, s, i, rd, un, own, out, ho => by
    have ra := Rep.obj h rs
    have hm := un a List.mem_cons_self
    have mu : P.Mutable a := ⟨_, h, fun _ e => nomatch e⟩
    have lt := ra.bound a List.mem_cons_self
    obtain ⟨_, e, na⟩ := ra.acyclic
    cases e
    have i' := i.enter lt (not_frozen mu) (.record cls [])
    have hc : H[a]? = some (.record cls vs) := by rw [i.same a lt]; exact h
    rw [deepcopy_obj d hm hc s] at ho
    obtain ⟨r', hr'⟩ := finish_ok ho
    have := attrs_depth rs d _ _ s i' (rd.enter na hm i') (un.enter na) own.tail r' hr'
    simp only [ObjTree.height]; omega
  | _, _, _, .tuple (a := a) (vs := vs) (ts := ts) (fp := fps) h rs, d + 1, H, M, s, i, rd, un, own, out, ho => by
    have ra := Rep.tuple h rs
    have hm := un a List.mem_cons_self
    have lt := ra.bound a List.mem_cons_self
    have hc : H[a]? = some (.tuple vs) := by rw [i.same a lt]; exact h
    rw [deepcopy_tuple d hm hc s] at ho
    cases e : copyItems (deepcopy d) vs M H s with
    | error x => rw [e] at ho; cases ho
    | ok r' =>
      have := items_depth rs d _ _ s i (fun b hb => rd b (List.mem_cons_of_mem _ hb)) (fun b hb => un b (List.mem_cons_of_mem _ hb)) own.tail r' e
      simp only [ObjTree.height]; omega
theorem items_depth {P : Heap} : ∀ {vs ts fp}, RepItems P vs ts fp → ∀ (depth : Nat) (H : Heap) (M : Memo) (s : ByteHandler), CopyInv P H M →
    Ready P H M fp → Unknown M fp → Owned P fp → ∀ out, copyItems (deepcopy depth) vs M H s = .ok out → heightItems ts ≤ depth
  | _, _, _, .nil, _, _, _, _, _, _, _, _, _, _ => by simp [ObjTree.heightItems]
  | _, _, _, .cons (v := v) (vs := vs) (fp := fp) r rs, d, H, M, s, i, rd, un, own, out, ho => by
    rw [copyItems_cons] at ho
    rcases deepcopy_value r d H M s i rd.left with ⟨e, l⟩ | ⟨H', M', w, e, k, g1, g2⟩
    · rw [e] at ho; cases ho
    · have h1 := deepcopy_depth r d H M s i rd.left (fun b hb => un b (List.mem_append_left _ hb)) own.left _ e
      rw [e] at ho
      dsimp only at ho
      cases e2 : copyItems (deepcopy d) vs M' H' s with
      | error x => rw [e2] at ho; cases ho
      | ok r' =>
        have h2 := items_depth rs d H' M' s k.inv (rd.next k) (un.next r rs.within own k) own.right r' e2
        simp only [ObjTree.heightItems]; omega
theorem attrs_depth {P : Heap} : ∀ {vs ts fp}, RepAttrs P vs ts fp → ∀ (depth : Nat) (H : Heap) (M : Memo) (s : ByteHandler), CopyInv P H M →
    Ready P H M fp → Unknown M fp → Owned P fp → ∀ out, copyAttrs (deepcopy depth) vs M H s = .ok out → heightAttrs ts ≤ depth
  | _, _, _, .nil, _, _, _, _, _, _, _, _, _, _ => by simp [ObjTree.heightAttrs]
  | _, _, _, .cons (n := n) (v := v) (vs := vs) (fp := fp) r rs, d, H, M, s, i, rd, un, own, out, ho => by
    rw [copyAttrs_cons] at ho
    rcases deepcopy_value r d H M s i rd.left with ⟨e, l⟩ | ⟨H', M', w, e, k, g1, g2⟩
    · rw [e] at ho; cases ho
    · have h1 := deepcopy_depth r d H M s i rd.left (fun b hb => un b (List.mem_append_left _ hb)) own.left _ e
      rw [e] at ho
      dsimp only at ho
      cases e2 : copyAttrs (deepcopy d) vs M' H' s with
      | error x => rw [e2] at ho; cases ho
      | ok r' =>
        have h2 := attrs_depth rs d H' M' s k.inv (rd.next k) (un.next r rs.within own k) own.right r' e2
        simp only [ObjTree.heightAttrs]; omega
end

/-! ## from the outside -/

theorem CopyInv.start (H : Heap) : CopyInv H H [] :=
  ⟨Nat.le_refl _, fun _ _ => rfl, fun _ _ h => (nomatch h), fun _ _ _ h => (nomatch h), fun _ _ => rfl⟩

/-- `copy.deepcopy` of anything. -/
theorem deepcopy_run {H : Heap} {v t fp} (r : Rep H v t fp) (depth : Nat) (s : ByteHandler) :
    (deepcopy depth v [] H s = .error .recursionError ∧ depth < t.height) ∨
    ∃ (H' : Heap) (M : Memo) (w : HVal) (κ : Nat → Nat), deepcopy depth v [] H s = .ok ((w, M), H', s) ∧ H.length ≤ H'.length ∧
      (∀ a, a < H.length → H'[a]? = H[a]?) ∧ Rep H' w t (fp.map κ) ∧ (∀ a ∈ fp, ∀ b ∈ fp, κ a = κ b → a = b) ∧
      (∀ a ∈ fp, H.Mutable a → H.length ≤ κ a) ∧ (∀ a ∈ fp, κ a = a ∨ H.length ≤ κ a) ∧
      ∀ a ∈ fp, ∀ ta fa, Rep H (.ref a) ta fa → Rep H' (.ref (κ a)) ta (fa.map κ) := by
  rcases deepcopy_value r depth H [] s (CopyInv.start H) (fun b _ h => absurd rfl h) with h | ⟨H', M, w, e, k, g1, g2⟩
  · exact .inl h
  · have new : ∀ a w, M.find a = some w → ∃ c, hat M a = c ∧ w = .ref c ∧ H.length ≤ c := by
      intro a w hw
      obtain ⟨_, c, e, h1, _⟩ := k.inv.memo a w hw
      subst e
      exact ⟨c, hat_eq_of_find hw, rfl, h1⟩
    refine .inr ⟨H', M, w, hat M, e, k.len, k.same, g2, fun a ha b hb hab => ?_, fun a ha m => ?_, fun a ha => ?_, fun a ha ta fa ra => ?_⟩
    · have la := r.bound a ha
      have lb := r.bound b hb
      cases ea : M.find a with
      | none =>
        rw [hat_none ea] at hab
        cases eb : M.find b with
        | none => rw [hat_none eb] at hab; exact hab
        | some w =>
          obtain ⟨c, h1, _, h3⟩ := new b w eb
          omega
      | some w =>
        obtain ⟨c, h1, h2, h3⟩ := new a w ea
        cases eb : M.find b with
        | none => rw [hat_none eb] at hab; omega
        | some w' =>
          obtain ⟨c', h1', h2', h3'⟩ := new b w' eb
          have : w = w' := by rw [h2, h2', ← h1, ← h1', hab]
          subst this
          exact k.inv.inj a b w ea eb
    · rcases k.complete a ha with h | h
      · cases ea : M.find a with
        | none => exact absurd ea h
        | some w =>
          obtain ⟨c, h1, _, h3⟩ := new a w ea
          omega
      · exact absurd h (not_frozen m)
    · cases ea : M.find a with
      | none => exact .inl (hat_none ea)
      | some w =>
        obtain ⟨c, h1, _, h3⟩ := new a w ea
        exact .inr (by omega)
    · cases ea : M.find a with
      | some w =>
        obtain ⟨c, h1, h2, _⟩ := new a w ea
        have := (k.done a ha (by rw [ea]; simp) w ta fa ea ra).2
        rw [h2, ← h1] at this
        exact this
      | none =>
        rcases k.complete a ha with h | ⟨t', f', r', hf⟩
        · exact absurd ea h
        · obtain ⟨_, e2⟩ := r'.det ra
          subst e2
          rw [hat_none ea, frozen_map k.inv (Frozen.part ra hf)]
          exact ra.frame fun x hx => k.same x (ra.bound x hx)

/-- `copy.deepcopy` where no changeable object is met twice: it needs exactly as much room as the nesting is deep. -/
theorem deepcopy_deep {H : Heap} {v t fp} (r : Rep H v t fp) (own : Owned H fp) (depth : Nat) (s : ByteHandler) :
    depth < t.height → deepcopy depth v [] H s = .error .recursionError := by
  intro l
  rcases deepcopy_run r depth s with h | ⟨H', M, w, κ, e, _⟩
  · exact h.1
  · have := deepcopy_depth r depth H [] s (CopyInv.start H) (fun b _ h => absurd rfl h) (fun _ _ => rfl) own _ e
    omega

theorem count_map_inj {κ : Nat → Nat} : ∀ {fp : List Nat} {a : Nat}, (∀ b ∈ fp, κ b = κ a → b = a) → (fp.map κ).count (κ a) = fp.count a
  | [], _, _ => rfl
  | b :: fp, a, h => by
    rw [List.map_cons, List.count_cons, List.count_cons, count_map_inj fun x hx => h x (List.mem_cons_of_mem _ hx)]
    by_cases e : b = a
    · subst e; simp
    · have : κ b ≠ κ a := fun e' => e (h b List.mem_cons_self e')
      simp [e, this]

end Genie
