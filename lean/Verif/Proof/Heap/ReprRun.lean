import Verif.Model.HeapRepr
import Verif.Proof.Repr
import Verif.Proof.Heap.AlikeRep
import Verif.Proof.Heap.Equality
/-!
# `repr` of an object shows its value
-/

namespace Genie
open HReader ObjTree

/-- The texts, with commas between them. -/
def joinedItems (digits : Json.FloatRepr) (printable : Nat → Bool) : List ObjTree → PyStr
  | [] => []
  | t :: ts => text digits printable t ++ textItems digits printable ts

/-- The same with the names of attributes. -/
def joinedAttrs (digits : Json.FloatRepr) (printable : Nat → Bool) : List (PyStr × ObjTree) → PyStr
  | [] => []
  | (n, t) :: ts => n ++ (lit "=" ++ (text digits printable t ++ textAttrs digits printable ts))

theorem W.reprItems_run {digits : Json.FloatRepr} {printable : Nat → Bool} {H : Heap} {rec : HVal → Py PyStr} : ∀ {vs : List HVal} {ts : List ObjTree} {fps : List Nat},
    RepItems H vs ts fps → (∀ v t fp, v ∈ vs → t ∈ ts → Rep H v t fp → rec v = .ok (text digits printable t)) →
    W.reprItems rec vs = .ok (joinedItems digits printable ts)
  | _, _, _, .nil, _ => rfl
  | _, _, _, .cons (ts := []) r .nil, h => by
    show rec _ = _
    rw [h _ _ _ (by simp) (by simp) r]
    simp [joinedItems, textItems]
  | _, _, _, .cons (ts := _ :: _) r (.cons r' rs), h => by
    have ih := W.reprItems_run (.cons r' rs) (fun v t fp hv ht => h v t fp (List.mem_cons_of_mem _ hv) (List.mem_cons_of_mem _ ht))
    unfold W.reprItems
    rw [h _ _ _ (by simp) (by simp) r]
    dsimp only
    rw [ih]
    simp [joinedItems, textItems]

theorem W.reprFields_run {digits : Json.FloatRepr} {printable : Nat → Bool} {H : Heap} {rec : HVal → Py PyStr} {attrs : List (PyStr × HVal)} :
    ∀ {vs : List (PyStr × HVal)} {ts : List (PyStr × ObjTree)} {fps : List Nat},
    RepAttrs H vs ts fps → (∀ n v, (n, v) ∈ vs → lookup n attrs = some v) →
    (∀ n v t fp, (n, v) ∈ vs → (n, t) ∈ ts → Rep H v t fp → rec v = .ok (text digits printable t)) →
    W.reprFields rec attrs (ts.map (·.1)) = .ok (joinedAttrs digits printable ts)
  | _, _, _, .nil, _, _ => rfl
  | _, _, _, .cons (n := n) (v := v) (t := t) (ts := []) r .nil, hl, h => by
    show W.reprField rec attrs n = _
    unfold W.reprField
    rw [hl n v List.mem_cons_self]
    dsimp only
    rw [h n v t _ List.mem_cons_self List.mem_cons_self r]
    simp [joinedAttrs, textAttrs]
  | _, _, _, .cons (n := n) (v := v) (t := t) (ts := _ :: _) r (.cons r' rs), hl, h => by
    have ih := W.reprFields_run (.cons r' rs) (fun n v hv => hl n v (List.mem_cons_of_mem _ hv))
      (fun n v t fp hv ht => h n v t fp (List.mem_cons_of_mem _ hv) (List.mem_cons_of_mem _ ht))
    simp only [List.map_cons] at ih ⊢
    unfold W.reprFields
    have e : W.reprField rec attrs n = .ok (n ++ (lit "=" ++ text digits printable t)) := by
      unfold W.reprField
      rw [hl n v List.mem_cons_self]
      dsimp only
      rw [h n v t _ List.mem_cons_self List.mem_cons_self r]
    rw [e]
    dsimp only
    rw [ih]
    simp [joinedAttrs, textAttrs]

theorem attrOf_of_nodup {n : PyStr} {t : ObjTree} : ∀ {ts : List (PyStr × ObjTree)}, (ts.map (·.1)).Nodup → (n, t) ∈ ts → attrOf n ts = some t
  | (m, u) :: ts, nd, h => by
    simp only [List.map_cons, List.nodup_cons] at nd
    unfold attrOf
    rcases List.mem_cons.1 h with e | h
    · cases e; rw [if_pos rfl]
    · rw [if_neg, attrOf_of_nodup nd.2 h]
      rintro rfl
      exact nd.1 (List.mem_map.2 ⟨_, h, rfl⟩)

theorem RepAttrs.names {H : Heap} : ∀ {vs : List (PyStr × HVal)} {ts : List (PyStr × ObjTree)} {fps : List Nat}, RepAttrs H vs ts fps → vs.map (·.1) = ts.map (·.1)
  | _, _, _, .nil => rfl
  | _, _, _, .cons _ rs => by simp [rs.names]

theorem W.repr_run (digits : Json.FloatRepr) (printable : Nat → Bool) {H : Heap} (depth : Nat) : ∀ {path : List Nat} {v : HVal} {t : ObjTree} {fp : List Nat}, Rep H v t fp →
    ExactFields t → t.height ≤ depth → (∀ a ∈ path, ∃ u f, Rep H (.ref a) u f ∧ t.height < u.height) →
    W.repr digits printable H depth path v = .ok (text digits printable t) := by
  induction depth with
  | zero => intro path v t fp _ _ hd; have := ObjTree.height_pos t; omega
  | succ depth ih =>
    intro path v t fp r hx hd hp
    have fresh : ∀ {a : Nat}, v = .ref a → a ∉ path := by
      rintro a rfl m
      obtain ⟨u, f, r', hlt⟩ := hp a m
      have := (r.det r').1
      subst this
      omega
    have below : ∀ {a : Nat}, v = .ref a → ∀ u : ObjTree, u.height < t.height → ∀ b ∈ a :: path, ∃ w f, Rep H (.ref b) w f ∧ u.height < w.height := by
      rintro a rfl u hu b m
      rcases List.mem_cons.1 m with rfl | m
      · exact ⟨t, fp, r, hu⟩
      · obtain ⟨w, f, r', hlt⟩ := hp b m
        exact ⟨w, f, r', by omega⟩
    have item : ∀ {ts : List ObjTree}, (∀ i, t.child (.item i) = ts[i]?) → t.height = heightItems ts + 1 → ∀ {a : Nat}, v = .ref a → ∀ v' t' fp', t' ∈ ts → Rep H v' t' fp' →
        W.repr digits printable H depth (a :: path) v' = .ok (text digits printable t') := by
      intro ts hc hh a e v' t' fp' ht r'
      obtain ⟨i, hi, rfl⟩ := List.getElem_of_mem ht
      have hi' : ts[i]? = some ts[i] := List.getElem?_eq_getElem hi
      have := height_item hi'
      exact ih r' (hx.child (st := .item i) (by rw [hc, hi'])) (by omega) (below e _ (by omega))
    cases r with
    | none => rfl
    | int => rfl
    | float => rfl
    | str => rfl
    | list hc rs =>
      rename_i a vs ts fps
      have hi := item (ts := ts) (fun i => rfl) rfl rfl
      have := W.reprItems_run (rec := W.repr digits printable H depth (a :: path)) (digits := digits) (printable := printable) rs (fun v' t' fp' _ ht r' => hi v' t' fp' ht r')
      unfold W.repr
      rw [hc]
      cases rs with
      | nil => rfl
      | cons r1 rs1 =>
        dsimp only
        rw [if_neg (fresh rfl), this]
        simp [joinedItems, text]
    | tuple hc rs =>
      rename_i a vs ts fps
      have hi := item (ts := ts) (fun i => rfl) rfl rfl
      have := W.reprItems_run (rec := W.repr digits printable H depth (a :: path)) (digits := digits) (printable := printable) rs (fun v' t' fp' _ ht r' => hi v' t' fp' ht r')
      unfold W.repr
      rw [hc]
      cases rs with
      | nil => rfl
      | cons r1 rs1 =>
        dsimp only
        rw [if_neg (fresh rfl), this]
        cases rs1 with
        | nil => simp [joinedItems, text, textItems]
        | cons => simp [joinedItems, text]
    | obj hc rs =>
      rename_i a cls vs ts fps
      obtain ⟨hf, nd⟩ := hx [] cls ts rfl
      have nv : vs.map (·.1) = ts.map (·.1) := rs.names
      have := W.reprFields_run (rec := W.repr digits printable H depth (a :: path)) (digits := digits) (printable := printable) (attrs := vs) rs
        (fun n v' hv => lookup_of_nodup (by rw [nv]; exact nd) hv) (fun n v' t' fp' _ ht r' => by
          have ha := attrOf_of_nodup nd ht
          have hh := height_attr ha
          have : (ObjTree.obj cls ts).height = heightAttrs ts + 1 := rfl
          exact ih r' (hx.child (st := .attr n) ha) (by omega) (below rfl _ (by omega)))
      unfold W.repr
      rw [hc]
      dsimp only
      rw [if_neg (fresh rfl), hf]
      dsimp only
      rw [this]
      cases ts with
      | nil => simp [joinedAttrs, text]; rfl
      | cons x ts => simp [joinedAttrs, text]

/-! ## objects that contain themselves -/

theorem W.reprItems_error {rec : HVal → Py PyStr} {e : PyErr} : ∀ {vs : List HVal}, W.reprItems rec vs = .error e → ∃ v ∈ vs, rec v = .error e
  | [], h => nomatch h
  | [v], h => ⟨v, by simp, h⟩
  | v :: w :: ws, h => by
    unfold W.reprItems at h
    cases e1 : rec v with
    | error x => rw [e1] at h; cases h; exact ⟨v, by simp, e1⟩
    | ok a =>
      rw [e1] at h
      dsimp only at h
      cases e2 : W.reprItems rec (w :: ws) with
      | error x =>
        rw [e2] at h; cases h
        obtain ⟨u, hu, k⟩ := W.reprItems_error e2
        exact ⟨u, List.mem_cons_of_mem _ hu, k⟩
      | ok b => rw [e2] at h; cases h

theorem W.reprField_error {rec : HVal → Py PyStr} {attrs : List (PyStr × HVal)} {e : PyErr} {n : PyStr} (h : W.reprField rec attrs n = .error e) :
    e = .attributeError ∨ ∃ v, rec v = .error e := by
  unfold W.reprField at h
  split at h
  · rename_i v _
    cases e1 : rec v with
    | error x => rw [e1] at h; cases h; exact .inr ⟨v, e1⟩
    | ok a => rw [e1] at h; cases h
  · cases h; exact .inl rfl

theorem W.reprFields_error {rec : HVal → Py PyStr} {attrs : List (PyStr × HVal)} {e : PyErr} : ∀ {ns : List PyStr}, W.reprFields rec attrs ns = .error e →
    e = .attributeError ∨ ∃ v, rec v = .error e
  | [], h => nomatch h
  | [n], h => W.reprField_error h
  | n :: m :: ms, h => by
    unfold W.reprFields at h
    cases e1 : W.reprField rec attrs n with
    | error x => rw [e1] at h; cases h; exact W.reprField_error e1
    | ok a =>
      rw [e1] at h
      dsimp only at h
      cases e2 : W.reprFields rec attrs (m :: ms) with
      | error x => rw [e2] at h; cases h; exact W.reprFields_error e2
      | ok b => rw [e2] at h; cases h

theorem nodup_length_le {n : Nat} : ∀ {l : List Nat}, l.Nodup → (∀ a ∈ l, a < n) → l.length ≤ n := by
  induction n with
  | zero =>
    intro l _ h
    cases l with
    | nil => exact Nat.le_refl _
    | cons a l => exact absurd (h a (by simp)) (by omega)
  | succ n ih =>
    intro l nd h
    have h1 := ih (l := l.erase n) (nd.erase n) (fun a ha => by
      have := h a (List.mem_of_mem_erase ha)
      have : a ≠ n := fun e => by subst e; exact (List.Nodup.not_mem_erase nd) ha
      omega)
    have h2 := List.length_erase (a := n) (l := l)
    split at h2 <;> omega

end Genie
