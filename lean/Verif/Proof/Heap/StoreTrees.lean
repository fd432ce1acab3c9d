import Verif.Proof.Heap.StoreTyping
/-!
# Objects with types, and their values
-/

namespace Genie
open HReader ObjTree

variable {D : PyStr → List (PyStr × Ann) → Prop}

/-! ## an object with a type has a value of that type -/

theorem repItems_all {H : Heap} {P : ObjTree → Prop} : ∀ {vs : List HVal}, (∀ v ∈ vs, ∃ t fp, Rep H v t fp ∧ P t) →
    ∃ ts fps, RepItems H vs ts fps ∧ ∀ t ∈ ts, P t
  | [], _ => ⟨[], [], .nil, fun _ h => nomatch h⟩
  | v :: vs, h => by
    obtain ⟨t, fp, r, p⟩ := h v List.mem_cons_self
    obtain ⟨ts, fps, rs, ps⟩ := repItems_all fun w hw => h w (List.mem_cons_of_mem _ hw)
    exact ⟨t :: ts, fp ++ fps, .cons r rs, fun u hu => by
      rcases List.mem_cons.1 hu with rfl | hu
      · exact p
      · exact ps u hu⟩

theorem reach_mem {rank : PyStr → Nat} : ∀ {as : List Ann} {a : Ann}, a ∈ as → a.reach rank ≤ Ann.reach.reachAll rank as
  | b :: as, a, h => by
    unfold Ann.reach.reachAll
    rcases List.mem_cons.1 h with rfl | h
    · omega
    · have := reach_mem (rank := rank) h; omega

theorem repItems_types {H : Heap} {f : Nat → Option Ann} {as : List Ann} {vs : List HVal} (k : HVal.SuitsAll f as vs)
    (h : ∀ a ∈ as, ∀ v, v.Suits f a → ∃ t fp, Rep H v t fp ∧ Suits D a t) : ∃ ts fps, RepItems H vs ts fps ∧ SuitsAll D as ts := by
  induction k with
  | nil => exact ⟨[], [], .nil, .nil⟩
  | cons k _ ih =>
    obtain ⟨t, fp, r, p⟩ := h _ List.mem_cons_self _ k
    obtain ⟨ts, fps, rs, ps⟩ := ih fun a ha => h a (List.mem_cons_of_mem _ ha)
    exact ⟨t :: ts, fp ++ fps, .cons r rs, .cons p ps⟩

theorem repAttrs_types {H : Heap} {f : Nat → Option Ann} : ∀ {fs : List (PyStr × Ann)} {vs : List (PyStr × HVal)}, vs.map (·.1) = fs.map (·.1) →
    HVal.SuitsAll f (fs.map (·.2)) (vs.map (·.2)) → (∀ p ∈ fs, ∀ v, v.Suits f p.2 → ∃ t fp, Rep H v t fp ∧ Suits D p.2 t) →
    ∃ ts fps, RepAttrs H vs ts fps ∧ SuitsFields D fs ts
  | [], [], _, _, _ => ⟨[], [], .nil, .nil⟩
  | [], _ :: _, e, _, _ => by simp at e
  | _ :: _, [], e, _, _ => by simp at e
  | (n, a) :: fs, (m, v) :: vs, e, k, h => by
    simp only [List.map_cons, List.cons.injEq] at e k
    obtain ⟨rfl, e⟩ := e
    cases k with
    | cons k ks =>
      obtain ⟨t, fp, r, p⟩ := h _ List.mem_cons_self _ k
      obtain ⟨ts, fps, rs, ps⟩ := repAttrs_types e ks fun a ha => h a (List.mem_cons_of_mem _ ha)
      exact ⟨(m, t) :: ts, fp ++ fps, .cons r rs, .cons p ps⟩

theorem reach_field {rank : PyStr → Nat} : ∀ {fs : List (PyStr × Ann)} {p : PyStr × Ann}, p ∈ fs → p.2.reach rank ≤ reachFields rank fs
  | (n, b) :: fs, p, h => by
    unfold reachFields
    rcases List.mem_cons.1 h with rfl | h
    · dsimp only; omega
    · have := reach_field (rank := rank) h; omega

/-- The value of an object with a type: there are no cycles, since no class refers to itself. -/
theorem Heap.Typed.value {rank : PyStr → Nat} (hD : ∀ c fs, D c fs → reachFields rank fs + 1 ≤ rank c) {H : Heap} {f : Nat → Option Ann} (h : H.Typed D f) :
    ∀ (n : Nat) {a : Ann} {v : HVal}, a.reach rank ≤ n → v.Suits f a → ∃ t fp, Rep H v t fp ∧ Suits D a t := by
  intro n
  induction n with
  | zero =>
    intro a v hn k
    exfalso
    induction k with
    | some _ ih => exact ih (by unfold Ann.reach at hn; omega)
    | ref hb =>
      obtain ⟨c, _, hs⟩ := h _ _ hb
      cases hs with
      | list => unfold Ann.reach at hn; omega
      | tuple => unfold Ann.reach at hn; omega
      | cls d _ _ => have := hD _ _ d; unfold Ann.reach at hn; omega
    | _ => unfold Ann.reach at hn; omega
  | succ n ih =>
    intro a v hn k
    induction k with
    | int i => exact ⟨_, _, .int i, .int i⟩
    | float x => exact ⟨_, _, .float x, .float x⟩
    | promote e => exact ⟨_, _, .int _, .promote e⟩
    | str s => exact ⟨_, _, .str s, .str s⟩
    | none => exact ⟨_, _, .none, .none⟩
    | some _ ih' =>
      obtain ⟨t, fp, r, p⟩ := ih' (by unfold Ann.reach at hn; omega)
      exact ⟨t, fp, r, .some p⟩
    | ref hb =>
      obtain ⟨c, hc, hs⟩ := h _ _ hb
      cases hs with
      | list ks =>
        unfold Ann.reach at hn
        obtain ⟨ts, fps, rs, ps⟩ := repItems_all (P := Suits D _) fun v hv => ih (by omega) (ks v hv)
        exact ⟨_, _, .list hc rs, .list ps⟩
      | tuple ks =>
        unfold Ann.reach at hn
        obtain ⟨ts, fps, rs, ps⟩ := repItems_types (D := D) (H := H) ks fun a ha v hv => ih (by have := reach_mem (rank := rank) ha; omega) hv
        exact ⟨_, _, .tuple hc rs, .tuple ps⟩
      | cls d e ks =>
        unfold Ann.reach at hn
        have := hD _ _ d
        obtain ⟨ts, fps, rs, ps⟩ := repAttrs_types (D := D) (H := H) e ks fun p hp v hv => ih (by have := reach_field (rank := rank) hp; omega) hv
        exact ⟨_, _, .obj hc rs, .cls d ps⟩

/-! ## new objects with a value of a type have types -/

/-- Two sets of objects with types. -/
theorem Heap.Typed.union {H : Heap} {f g : Nat → Option Ann} {A B : List Nat} (hf : H.Typed D f) (hg : H.Typed D g) (fA : ∀ b a, f b = some a → b ∈ A)
    (gB : ∀ b a, g b = some a → b ∈ B) (disj : ∀ b ∈ A, b ∉ B) :
    ∃ u, Extends f u ∧ Extends g u ∧ H.Typed D u ∧ ∀ b a, u b = some a → b ∈ A ++ B := by
  have e1 : Extends f (fun b => (f b).or (g b)) := fun b a e => by simp only [e, Option.some_or]
  have e2 : Extends g (fun b => (f b).or (g b)) := fun b a e => by
    cases e' : f b with
    | none => simp only [e', Option.none_or]; exact e
    | some a' => exact absurd (gB b a e) (disj b (fA b a' e'))
  refine ⟨fun b => (f b).or (g b), e1, e2, fun b a e => ?_, fun b a e => ?_⟩
  · cases e' : f b with
    | none =>
      simp only [e', Option.none_or] at e
      obtain ⟨c, h1, h2⟩ := hg b a e
      exact ⟨c, h1, h2.mono e2⟩
    | some a' =>
      simp only [e', Option.some_or] at e
      cases e
      obtain ⟨c, h1, h2⟩ := hf b _ e'
      exact ⟨c, h1, h2.mono e1⟩
  · cases e' : f b with
    | none => simp only [e', Option.none_or] at e; exact List.mem_append_right _ (gB b a e)
    | some a' => exact List.mem_append_left _ (fA b a' e')

/-- One more object, that refers to these. -/
theorem Heap.Typed.node {H : Heap} {f : Nat → Option Ann} {A : List Nat} (hf : H.Typed D f) (fA : ∀ b a, f b = some a → b ∈ A) {b : Nat} (hb : b ∉ A) {c : Cell} {a : Ann}
    (hc : H[b]? = some c) (hs : c.Suits D f a) :
    ∃ g, (∀ b' a', g b' = some a' → b' ∈ b :: A) ∧ H.Typed D g ∧ HVal.Suits g a (.ref b) := by
  have none : f b = Option.none := by
    cases e : f b with
    | none => rfl
    | some a => exact absurd (fA b a e) hb
  have hx := withType_extends (a := a) none
  refine ⟨withType f b a, fun b' a' e => ?_, fun b' a' e => ?_, .ref (by simp [withType])⟩
  · unfold withType at e
    split at e
    · rename_i h; rw [h]; exact List.mem_cons_self
    · exact List.mem_cons_of_mem _ (fA b' a' e)
  · unfold withType at e
    split at e
    · rename_i h; cases e; subst h; exact ⟨c, hc, hs.mono hx⟩
    · obtain ⟨c', h1, h2⟩ := hf b' a' e
      exact ⟨c', h1, h2.mono hx⟩

theorem typed_none (H : Heap) : H.Typed D fun _ => Option.none := fun _ _ e => nomatch e

theorem list_typing {H : Heap} {a : Ann} : ∀ {vs : List HVal} {ts : List ObjTree} {fps : List Nat}, RepItems H vs ts fps → fps.Nodup →
    (∀ t ∈ ts, ∀ v fp, Rep H v t fp → fp.Nodup → ∃ f, (∀ b a, f b = some a → b ∈ fp) ∧ H.Typed D f ∧ HVal.Suits f a v) →
    ∃ f, (∀ b a, f b = some a → b ∈ fps) ∧ H.Typed D f ∧ ∀ v ∈ vs, HVal.Suits f a v
  | _, _, _, .nil, _, _ => ⟨fun _ => Option.none, (fun _ _ e => nomatch e), typed_none H, fun _ h => nomatch h⟩
  | _, _, _, .cons r rs, nd, k => by
    obtain ⟨n1, n2, n3⟩ := List.nodup_append.1 nd
    obtain ⟨f, f1, f2, f3⟩ := k _ List.mem_cons_self _ _ r n1
    obtain ⟨g, g1, g2, g3⟩ := list_typing rs n2 fun t ht => k t (List.mem_cons_of_mem _ ht)
    obtain ⟨u, u1, u2, u3, u4⟩ := f2.union g2 f1 g1 fun b hb hb' => n3 b hb b hb' rfl
    exact ⟨u, u4, u3, fun w hw => by
      rcases List.mem_cons.1 hw with rfl | hw
      · exact f3.mono u1
      · exact (g3 w hw).mono u2⟩

mutual
theorem Suits.typing {H : Heap} : ∀ {a : Ann} {t : ObjTree}, Suits D a t → ∀ v fp, Rep H v t fp → fp.Nodup →
    ∃ f, (∀ b a, f b = some a → b ∈ fp) ∧ H.Typed D f ∧ HVal.Suits f a v
  | _, _, .int i, _, _, .int _, _ => ⟨fun _ => Option.none, (fun _ _ e => nomatch e), typed_none H, .int i⟩
  | _, _, .float i, _, _, .float _, _ => ⟨fun _ => Option.none, (fun _ _ e => nomatch e), typed_none H, .float i⟩
  | _, _, .promote i, _, _, .int _, _ => ⟨fun _ => Option.none, (fun _ _ e => nomatch e), typed_none H, .promote i⟩
  | _, _, .str i, _, _, .str _, _ => ⟨fun _ => Option.none, (fun _ _ e => nomatch e), typed_none H, .str i⟩
  | _, _, .none, _, _, .none, _ => ⟨fun _ => Option.none, (fun _ _ e => nomatch e), typed_none H, .none⟩
  | _, _, .some h, v, fp, r, nd => by
    obtain ⟨f, f1, f2, f3⟩ := h.typing v fp r nd
    exact ⟨f, f1, f2, .some f3⟩
  | _, _, .list h, _, _, .list hc rs, nd => by
    obtain ⟨n1, n2⟩ := List.nodup_cons.1 nd
    obtain ⟨f, f1, f2, f3⟩ := list_typing rs n2 fun t ht v fp r nd => (h t ht).typing v fp r nd
    exact f2.node f1 n1 hc (.list f3)
  | _, _, .tuple h, _, _, .tuple hc rs, nd => by
    obtain ⟨n1, n2⟩ := List.nodup_cons.1 nd
    obtain ⟨f, f1, f2, f3⟩ := h.typing _ _ rs n2
    exact f2.node f1 n1 hc (.tuple f3)
  | _, _, .cls d h, _, _, .obj hc rs, nd => by
    obtain ⟨n1, n2⟩ := List.nodup_cons.1 nd
    obtain ⟨f, f1, f2, f3, f4⟩ := h.typing _ _ rs n2
    exact f2.node f1 n1 hc (.cls d f3 f4)
theorem SuitsAll.typing {H : Heap} : ∀ {as : List Ann} {ts : List ObjTree}, SuitsAll D as ts → ∀ vs fps, RepItems H vs ts fps → fps.Nodup →
    ∃ f, (∀ b a, f b = some a → b ∈ fps) ∧ H.Typed D f ∧ HVal.SuitsAll f as vs
  | _, _, .nil, _, _, .nil, _ => ⟨fun _ => Option.none, (fun _ _ e => nomatch e), typed_none H, .nil⟩
  | _, _, .cons h hs, _, _, .cons r rs, nd => by
    obtain ⟨n1, n2, n3⟩ := List.nodup_append.1 nd
    obtain ⟨f, f1, f2, f3⟩ := h.typing _ _ r n1
    obtain ⟨g, g1, g2, g3⟩ := hs.typing _ _ rs n2
    obtain ⟨u, u1, u2, u3, u4⟩ := f2.union g2 f1 g1 fun b hb hb' => n3 b hb b hb' rfl
    exact ⟨u, u4, u3, .cons (f3.mono u1) (g3.mono u2)⟩
theorem SuitsFields.typing {H : Heap} : ∀ {fs : List (PyStr × Ann)} {ts : List (PyStr × ObjTree)}, SuitsFields D fs ts → ∀ vs fps, RepAttrs H vs ts fps → fps.Nodup →
    ∃ f, (∀ b a, f b = some a → b ∈ fps) ∧ H.Typed D f ∧ vs.map (·.1) = fs.map (·.1) ∧ HVal.SuitsAll f (fs.map (·.2)) (vs.map (·.2))
  | _, _, .nil, _, _, .nil, _ => ⟨fun _ => Option.none, (fun _ _ e => nomatch e), typed_none H, rfl, .nil⟩
  | _, _, .cons h hs, _, _, .cons r rs, nd => by
    obtain ⟨n1, n2, n3⟩ := List.nodup_append.1 nd
    obtain ⟨f, f1, f2, f3⟩ := h.typing _ _ r n1
    obtain ⟨g, g1, g2, g3, g4⟩ := hs.typing _ _ rs n2
    obtain ⟨u, u1, u2, u3, u4⟩ := f2.union g2 f1 g1 fun b hb hb' => n3 b hb b hb' rfl
    exact ⟨u, u4, u3, by simp [g3], .cons (f3.mono u1) (g4.mono u2)⟩
end

/-- New objects, beside those that are there. -/
theorem Heap.Typed.loaded {H N : Heap} {f : Nat → Option Ann} (h : H.Typed D f) {v : HVal} {t : ObjTree} {fp : List Nat} (r : Rep (H ++ N) v t fp) (nd : fp.Nodup)
    (new : ∀ b ∈ fp, H.length ≤ b) {a : Ann} (hs : Suits D a t) : ∃ g, Extends f g ∧ Heap.Typed D (H ++ N) g ∧ v.Suits g a := by
  obtain ⟨g, g1, g2, g3⟩ := hs.typing v fp r nd
  have hf : Heap.Typed D (H ++ N) f := fun b a e => by
    obtain ⟨c, h1, h2⟩ := h b a e
    exact ⟨c, by rw [List.getElem?_append_left (h.bound e)]; exact h1, h2⟩
  obtain ⟨u, u1, u2, u3, _⟩ := hf.union (A := List.range H.length) g2 (fun b a e => List.mem_range.2 (h.bound e)) g1 fun b hb hb' => by
    have := List.mem_range.1 hb
    have := new b hb'
    omega
  exact ⟨u, u1, u3, g3.mono u2⟩

/-! ## copies -/

/-- The copy of a value. -/
def HVal.image (κ : Nat → Nat) : HVal → HVal
  | .ref b => .ref (κ b)
  | v => v

mutual
theorem Rep.same_length {H H' : Heap} : ∀ {t : ObjTree} {v w : HVal} {fp fp' : List Nat}, Rep H v t fp → Rep H' w t fp' → fp.length = fp'.length
  | _, _, _, _, _, .none, .none => rfl
  | _, _, _, _, _, .int _, .int _ => rfl
  | _, _, _, _, _, .float _, .float _ => rfl
  | _, _, _, _, _, .str _, .str _ => rfl
  | _, _, _, _, _, .list _ rs, .list _ rs' => by simp [rs.same_length rs']
  | _, _, _, _, _, .tuple _ rs, .tuple _ rs' => by simp [rs.same_length rs']
  | _, _, _, _, _, .obj _ rs, .obj _ rs' => by simp [rs.same_length rs']
theorem RepItems.same_length {H H' : Heap} : ∀ {t : List ObjTree} {v w : List HVal} {fp fp' : List Nat}, RepItems H v t fp → RepItems H' w t fp' → fp.length = fp'.length
  | _, _, _, _, _, .nil, .nil => rfl
  | _, _, _, _, _, .cons r rs, .cons r' rs' => by simp [r.same_length r', rs.same_length rs']
theorem RepAttrs.same_length {H H' : Heap} : ∀ {t : List (PyStr × ObjTree)} {v w : List (PyStr × HVal)} {fp fp' : List Nat}, RepAttrs H v t fp → RepAttrs H' w t fp' → fp.length = fp'.length
  | _, _, _, _, _, .nil, .nil => rfl
  | _, _, _, _, _, .cons r rs, .cons r' rs' => by simp [r.same_length r', rs.same_length rs']
end

theorem Rep.image {H H' : Heap} {κ : Nat → Nat} {v w : HVal} {t : ObjTree} {fp fp' : List Nat} (r : Rep H v t fp) (r' : Rep H' w t fp') (e : fp' = fp.map κ) : w = v.image κ := by
  cases r <;> cases r' <;> first | rfl | (simp only [List.map_cons, List.cons.injEq] at e; rw [e.1]; rfl)

theorem RepItems.image {H H' : Heap} {κ : Nat → Nat} : ∀ {vs ws : List HVal} {ts : List ObjTree} {fp fp' : List Nat}, RepItems H vs ts fp → RepItems H' ws ts fp' →
    fp' = fp.map κ → ws = vs.map (HVal.image κ)
  | _, _, _, _, _, .nil, .nil, _ => rfl
  | _, _, _, _, _, .cons r rs, .cons r' rs', e => by
    rw [List.map_append] at e
    obtain ⟨e1, e2⟩ := List.append_inj e (by rw [List.length_map]; exact r'.same_length r)
    rw [List.map_cons, r.image r' e1, rs.image rs' e2]

theorem RepAttrs.image {H H' : Heap} {κ : Nat → Nat} : ∀ {vs ws : List (PyStr × HVal)} {ts : List (PyStr × ObjTree)} {fp fp' : List Nat}, RepAttrs H vs ts fp → RepAttrs H' ws ts fp' →
    fp' = fp.map κ → ws.map (·.1) = vs.map (·.1) ∧ ws.map (·.2) = (vs.map (·.2)).map (HVal.image κ)
  | _, _, _, _, _, .nil, .nil, _ => ⟨rfl, rfl⟩
  | _, _, _, _, _, .cons r rs, .cons r' rs', e => by
    rw [List.map_append] at e
    obtain ⟨e1, e2⟩ := List.append_inj e (by rw [List.length_map]; exact r'.same_length r)
    obtain ⟨h1, h2⟩ := rs.image rs' e2
    exact ⟨by simp [h1], by simp [h2, r.image r' e1]⟩

theorem suits_image {f g : Nat → Option Ann} {κ : Nat → Nat} {a : Ann} {v : HVal} (k : v.Suits f a) (h : ∀ b a, v = .ref b → f b = some a → g (κ b) = some a) :
    (v.image κ).Suits g a := by
  induction k with
  | int => exact .int _
  | float => exact .float _
  | promote h' => exact .promote h'
  | str => exact .str _
  | none => exact .none
  | some _ ih => exact .some (ih h)
  | ref e => exact .ref (h _ _ rfl e)

theorem suitsAll_image {f g : Nat → Option Ann} {κ : Nat → Nat} {as : List Ann} {vs : List HVal} (k : HVal.SuitsAll f as vs)
    (h : ∀ v ∈ vs, ∀ b a, v = .ref b → f b = some a → g (κ b) = some a) : HVal.SuitsAll g as (vs.map (HVal.image κ)) := by
  induction k with
  | nil => exact .nil
  | cons k _ ih => exact .cons (suits_image k (h _ List.mem_cons_self)) (ih fun v hv => h v (List.mem_cons_of_mem _ hv))

theorem RepItems.ref_mem {H : Heap} : ∀ {vs ts fps} {b : Nat}, RepItems H vs ts fps → HVal.ref b ∈ vs → b ∈ fps
  | _, _, _, _, .cons r rs, h => by
    rcases List.mem_cons.1 h with e | h
    · subst e; exact List.mem_append_left _ r.head_mem
    · exact List.mem_append_right _ (rs.ref_mem h)

theorem RepAttrs.ref_mem {H : Heap} : ∀ {vs ts fps} {b : Nat}, RepAttrs H vs ts fps → HVal.ref b ∈ vs.map (·.2) → b ∈ fps
  | _, _, _, _, .cons r rs, h => by
    rcases List.mem_cons.1 h with e | h
    · dsimp only at e; subst e; exact List.mem_append_left _ r.head_mem
    · exact List.mem_append_right _ (rs.ref_mem h)

/-- `copy.deepcopy` of an object with a type: it raises `RecursionError`, or the copy has that type. -/
theorem Heap.Typed.deepcopy {rank : PyStr → Nat} (hD : ∀ c fs, D c fs → reachFields rank fs + 1 ≤ rank c) {H : Heap} {f : Nat → Option Ann} (h : H.Typed D f)
    {v : HVal} {a : Ann} (hv : v.Suits f a) (depth : Nat) (s : ByteHandler) :
    (HReader.deepcopy depth v [] H s = .error .recursionError ∧ depth < a.reach rank) ∨
      ∃ H' M w g, HReader.deepcopy depth v [] H s = .ok ((w, M), H', s) ∧ Extends f g ∧ Heap.Typed D H' g ∧ w.Suits g a := by
  obtain ⟨t, fp, r, hs⟩ := h.value hD _ (Nat.le_refl _) hv
  rcases deepcopy_run r depth s with ⟨h1, h2⟩ | ⟨H', M, w, κ, h1, h2, h3, h4, h5, h6, h7, h8⟩
  · exact .inl ⟨h1, Nat.lt_of_lt_of_le h2 (hs.height hD)⟩
  · let g : Nat → Option Ann := fun c => if c < H.length then f c else (fp.find? fun x => decide (κ x = c)).bind f
    have fg : Extends f g := fun b a e => by
      show (if b < H.length then f b else _) = _
      rw [if_pos (h.bound e)]
      exact e
    have kid : ∀ b a, b ∈ fp → f b = some a → g (κ b) = some a := by
      intro b a hb e
      show (if κ b < H.length then f (κ b) else (fp.find? fun x => decide (κ x = κ b)).bind f) = _
      by_cases hlt : κ b < H.length
      · rw [if_pos hlt]
        rcases h7 b hb with e' | e'
        · rw [e']; exact e
        · omega
      · rw [if_neg hlt]
        cases hf : fp.find? fun x => decide (κ x = κ b) with
        | none => exact absurd (List.find?_eq_none.1 hf b hb) (by simp)
        | some b' =>
          have h10 : κ b' = κ b := by simpa using List.find?_some hf
          rw [h5 b' (List.mem_of_find?_eq_some hf) b hb h10]
          exact e
    refine .inr ⟨H', M, w, g, h1, fg, fun c A e => ?_, ?_⟩
    · have e : (if c < H.length then f c else (fp.find? fun x => decide (κ x = c)).bind f) = some A := e
      by_cases hlt : c < H.length
      · rw [if_pos hlt] at e
        obtain ⟨x, k1, k2⟩ := h c A e
        exact ⟨x, by rw [h3 c hlt]; exact k1, k2.mono fg⟩
      · rw [if_neg hlt] at e
        cases hf : fp.find? fun x => decide (κ x = c) with
        | none => rw [hf] at e; cases e
        | some b =>
          rw [hf] at e
          have e : f b = some A := e
          have hb := List.mem_of_find?_eq_some hf
          have hk : κ b = c := by simpa using List.find?_some hf
          obtain ⟨tb, fb, rb, _, sub⟩ := r.within b hb
          have rb' := h8 b hb tb fb rb
          rw [hk] at rb'
          obtain ⟨x, k1, k2⟩ := h b A e
          have inj : ∀ {n m : Nat} {x y : List Nat}, n :: x = (m :: y).map κ → x = y.map κ := fun e => (List.cons.inj e).2
          cases k2 with
          | list ks =>
            cases rb with
            | list c1 rs =>
              rw [k1] at c1
              cases c1
              generalize hmap : List.map κ _ = fb' at rb'
              cases rb' with
              | list c2 rs' =>
                refine ⟨_, c2, .list fun y hy => ?_⟩
                rw [rs.image rs' (inj hmap.symm)] at hy
                obtain ⟨v', hv', rfl⟩ := List.mem_map.1 hy
                exact suits_image (ks v' hv') fun b' a' e1 e2 => kid b' a' (sub b' (List.mem_cons_of_mem _ (rs.ref_mem (e1 ▸ hv')))) e2
            | tuple c1 _ => rw [k1] at c1; cases c1
            | obj c1 _ => rw [k1] at c1; cases c1
          | tuple ks =>
            cases rb with
            | tuple c1 rs =>
              rw [k1] at c1
              cases c1
              generalize hmap : List.map κ _ = fb' at rb'
              cases rb' with
              | tuple c2 rs' =>
                refine ⟨_, c2, .tuple ?_⟩
                rw [rs.image rs' (inj hmap.symm)]
                exact suitsAll_image ks fun v' hv' b' a' e1 e2 => kid b' a' (sub b' (List.mem_cons_of_mem _ (rs.ref_mem (e1 ▸ hv')))) e2
            | list c1 _ => rw [k1] at c1; cases c1
            | obj c1 _ => rw [k1] at c1; cases c1
          | cls d en ks =>
            cases rb with
            | obj c1 rs =>
              rw [k1] at c1
              cases c1
              generalize hmap : List.map κ _ = fb' at rb'
              cases rb' with
              | obj c2 rs' =>
                obtain ⟨e1, e2⟩ := rs.image rs' (inj hmap.symm)
                refine ⟨_, c2, .cls d (by rw [e1]; exact en) ?_⟩
                rw [e2]
                exact suitsAll_image ks fun v' hv' b' a' e1 e2 => kid b' a' (sub b' (List.mem_cons_of_mem _ (rs.ref_mem (e1 ▸ hv')))) e2
            | list c1 _ => rw [k1] at c1; cases c1
            | tuple c1 _ => rw [k1] at c1; cases c1
    · rw [r.image h4 rfl]
      refine suits_image hv fun b a' e1 e2 => kid b a' ?_ e2
      subst e1
      exact r.head_mem

end Genie
