import Verif.Proof.Heap.ReprRun
import Verif.Proof.Repr
import Verif.Proof.AsdictTexts
import Verif.Proof.Heap.Asdict
/-!
# `repr`: objects that contain themselves, and objects that fit the annotations
-/

namespace Genie
open ObjTree

/-! ## an object that contains itself is no problem -/

theorem W.repr_no_loop (digits : Json.FloatRepr) (printable : Nat → Bool) (H : Heap) (depth : Nat) : ∀ (path : List Nat) (v : HVal), path.Nodup →
    (∀ a ∈ path, a < H.length) → H.length < depth + path.length → W.repr digits printable H depth path v ≠ .error .recursionError := by
  induction depth with
  | zero => intro path v nd hp hl; have := nodup_length_le nd hp; omega
  | succ depth ih =>
    intro path v nd hp hl h
    cases v with
    | none => cases h
    | int i => cases h
    | float x => cases h
    | str s => cases h
    | ref a =>
      have next : a < H.length → a ∉ path → ∀ v, W.repr digits printable H depth (a :: path) v ≠ .error .recursionError := fun ha hn v =>
        ih (a :: path) v (List.nodup_cons.2 ⟨hn, nd⟩) (fun b hb => by
          rcases List.mem_cons.1 hb with rfl | hb
          · exact ha
          · exact hp b hb) (by simp only [List.length_cons]; omega)
      unfold W.repr at h
      split at h
      · cases h
      · rename_i e
        have ha : a < H.length := (List.getElem?_eq_some_iff.1 e).1
        split at h
        · cases h
        · rename_i hn
          split at h
          · rename_i e1
            cases h
            obtain ⟨v, _, k⟩ := W.reprItems_error e1
            exact next ha hn v k
          · cases h
      · cases h
      · rename_i e
        have ha : a < H.length := (List.getElem?_eq_some_iff.1 e).1
        split at h
        · cases h
        · rename_i hn
          split at h
          · rename_i e1
            cases h
            obtain ⟨v, _, k⟩ := W.reprItems_error e1
            exact next ha hn v k
          · cases h
      · rename_i e
        have ha : a < H.length := (List.getElem?_eq_some_iff.1 e).1
        split at h
        · cases h
        · rename_i hn
          split at h
          · cases h
          · split at h
            · rename_i e1
              cases h
              rcases W.reprFields_error e1 with k | ⟨v, k⟩
              · cases k
              · exact next ha hn v k
            · cases h
      · cases h

/-! ## names -/

/-- The names of all classes and fields. -/
theorem classFields_names : ∀ x ∈ W.classFields, (x.1 ≠ [] ∧ x.1.all identChar = true) ∧ ∀ n ∈ x.2, n ≠ [] ∧ n.all identChar = true := by
  decide +kernel

theorem fieldNames_names {c : PyStr} {ns : List PyStr} (h : W.fieldNames c = some ns) : Name c ∧ ∀ n ∈ ns, Name n := by
  unfold W.fieldNames at h
  cases e : W.classFields.find? fun p => decide (p.1 = c) with
  | none => rw [e] at h; cases h
  | some x =>
    rw [e] at h
    have h : x.2 = ns := Option.some.inj h
    have hc : x.1 = c := by simpa using List.find?_some e
    have k := classFields_names x (List.mem_of_find?_eq_some e)
    rw [hc, h] at k
    exact ⟨⟨k.1.1, fun c hc => List.all_eq_true.1 k.1.2 c hc⟩, fun n hn => ⟨(k.2 n hn).1, fun c hc => List.all_eq_true.1 (k.2 n hn).2 c hc⟩⟩

theorem ObjTree.Codes.child {t u : ObjTree} (h : Codes t) {st : PathStep} (e : t.child st = some u) : Codes u := by
  intro p s hp
  exact h (st :: p) s (by simp [ObjTree.get, e, hp])

mutual
theorem printable_of : (t : ObjTree) → ExactFields t → Codes t → Printable t
  | .none, _, _ => .none
  | .int i, _, _ => .int i
  | .float x, _, _ => .float x
  | .str s, _, h => .str (h [] s rfl)
  | .list ts, hx, h => .list (printableItems_of ts (fun u hu => by
      obtain ⟨i, hi⟩ := List.getElem?_of_mem hu
      exact ⟨hx.child (st := .item i) hi, Codes.child h (st := .item i) hi⟩))
  | .tuple ts, hx, h => .tuple (printableItems_of ts (fun u hu => by
      obtain ⟨i, hi⟩ := List.getElem?_of_mem hu
      exact ⟨hx.child (st := .item i) hi, Codes.child h (st := .item i) hi⟩))
  | .obj c ts, hx, h => by
    have k := hx [] c ts rfl
    have nm := fieldNames_names k.1
    exact .obj nm.1 (printableAttrs_of ts (fun x hm => nm.2 x.1 (List.mem_map_of_mem hm)) (fun x hm => by
      have := attrOf_of_nodup k.2 (show (x.1, x.2) ∈ ts from hm)
      exact ⟨hx.child (st := .attr x.1) this, Codes.child h (st := .attr x.1) this⟩))
theorem printableItems_of : (ts : List ObjTree) → (∀ u ∈ ts, ExactFields u ∧ Codes u) → PrintableItems ts
  | [], _ => .nil
  | t :: ts, h => .cons (printable_of t (h t (by simp)).1 (h t (by simp)).2) (printableItems_of ts fun u hu => h u (List.mem_cons_of_mem _ hu))
theorem printableAttrs_of : (ts : List (PyStr × ObjTree)) → (∀ x ∈ ts, Name x.1) → (∀ x ∈ ts, ExactFields x.2 ∧ Codes x.2) → PrintableAttrs ts
  | [], _, _ => .nil
  | (n, t) :: ts, hn, h => .cons (hn (n, t) (by simp)) (printable_of t (h (n, t) (by simp)).1 (h (n, t) (by simp)).2)
      (printableAttrs_of ts (fun x hx => hn x (List.mem_cons_of_mem _ hx)) fun u hu => h u (List.mem_cons_of_mem _ hu))
end

/-! ## the strings of a parsed file -/

theorem texts_at {p : ObjPath} : ∀ {t u : ObjTree}, t.asdict.Texts → t.get p = some u → u.asdict.Texts := by
  induction p with
  | nil => intro t u h e; cases e; exact h
  | cons st p ih =>
    intro t u h e
    unfold ObjTree.get at e
    cases e1 : t.child st with
    | none => rw [e1] at e; cases e
    | some x =>
      rw [e1] at e
      refine ih ?_ e
      have items : ∀ {ts : List ObjTree} {i : Nat}, PyTree.TextsAll (asdictItems ts) → ts[i]? = some x → x.asdict.Texts := by
        intro ts
        induction ts with
        | nil => intro i _ hi; simp at hi
        | cons t ts ih =>
          intro i hh hi
          unfold asdictItems PyTree.TextsAll at hh
          cases i with
          | zero => simp only [List.getElem?_cons_zero] at hi; cases hi; exact hh.1
          | succ i => exact ih hh.2 (by simpa using hi)
      have attrs : ∀ {n : PyStr} {ts : List (PyStr × ObjTree)}, PyTree.TextsItems (asdictAttrs ts) → attrOf n ts = some x → x.asdict.Texts := by
        intro n ts
        induction ts with
        | nil => intro _ hi; cases hi
        | cons t ts ih =>
          intro hh hi
          unfold asdictAttrs PyTree.TextsItems at hh
          unfold attrOf at hi
          split at hi
          · cases hi; exact hh.2.1
          · exact ih hh.2.2 hi
      cases t with
      | obj c ts =>
        cases st with
        | attr n => unfold ObjTree.asdict PyTree.Texts at h; exact attrs h e1
        | item i => cases e1
      | list ts =>
        cases st with
        | attr n => cases e1
        | item i => unfold ObjTree.asdict PyTree.Texts at h; exact items h e1
      | tuple ts =>
        cases st with
        | attr n => cases e1
        | item i => unfold ObjTree.asdict PyTree.Texts at h; exact items h e1
      | none => cases st <;> cases e1
      | int i => cases st <;> cases e1
      | float i => cases st <;> cases e1
      | str i => cases st <;> cases e1

theorem DatFile.codes (old : Bool) {v : Version} {d : DatFile} (h : DatFile.WFAt v d) : Codes (d.object old) := by
  intro p s hp c hc
  have k : (d.object old).asdict.Texts := by rw [DatFile.object_asdict]; exact DatFile.asdict_texts old h
  have k := texts_at k hp
  have k : PyTree.Text s := k
  have := k c hc
  unfold isScalar at this
  simp only [Bool.or_eq_true, Bool.and_eq_true, decide_eq_true_eq] at this
  omega

/-! ## without NaN -/

mutual
theorem forgetNaN_of : (t : ObjTree) → (hx : ExactFields t) → NaNFree t → t.forgetNaN = t
  | .none, _, _ => rfl
  | .int i, _, _ => rfl
  | .float x, _, h => by
    have := h [] x rfl
    unfold ObjTree.forgetNaN
    rw [if_neg (fun e => this ((F.isNaN_iff x).1 e))]
  | .str s, _, h => rfl
  | .list ts, hx, h => by
    unfold ObjTree.forgetNaN
    rw [forgetNaNs_of ts (fun u hu => by
      obtain ⟨i, hi⟩ := List.getElem?_of_mem hu
      exact ⟨hx.child (st := .item i) hi, h.child (st := .item i) hi⟩)]
  | .tuple ts, hx, h => by
    unfold ObjTree.forgetNaN
    rw [forgetNaNs_of ts (fun u hu => by
      obtain ⟨i, hi⟩ := List.getElem?_of_mem hu
      exact ⟨hx.child (st := .item i) hi, h.child (st := .item i) hi⟩)]
  | .obj c ts, hx, h => by
    have k := hx [] c ts rfl
    unfold ObjTree.forgetNaN
    rw [forgetNaNAttrs_of ts (fun x hm => by
      have := attrOf_of_nodup k.2 (show (x.1, x.2) ∈ ts from hm)
      exact ⟨hx.child (st := .attr x.1) this, h.child (st := .attr x.1) this⟩)]
theorem forgetNaNs_of : (ts : List ObjTree) → (∀ u ∈ ts, ExactFields u ∧ NaNFree u) → forgetNaNs ts = ts
  | [], _ => rfl
  | t :: ts, h => by
    unfold forgetNaNs
    rw [forgetNaN_of t (h t (by simp)).1 (h t (by simp)).2, forgetNaNs_of ts fun u hu => h u (List.mem_cons_of_mem _ hu)]
theorem forgetNaNAttrs_of : (ts : List (PyStr × ObjTree)) → (∀ x ∈ ts, ExactFields x.2 ∧ NaNFree x.2) → forgetNaNAttrs ts = ts
  | [], _ => rfl
  | (n, t) :: ts, h => by
    unfold forgetNaNAttrs
    rw [forgetNaN_of t (h (n, t) (by simp)).1 (h (n, t) (by simp)).2, forgetNaNAttrs_of ts fun u hu => h u (List.mem_cons_of_mem _ hu)]
end

end Genie
