import Verif.Model.HeapAsdict
import Verif.Proof.Heap.ReprRun
/-!
# Running `dataclasses.asdict`
-/

namespace Genie
open HReader ObjTree

theorem W.asdictItems_run {H : Heap} {rec : HVal → Py PyTree} : ∀ {vs : List HVal} {ts : List ObjTree} {fps : List Nat},
    RepItems H vs ts fps → (∀ v t fp, v ∈ vs → t ∈ ts → Rep H v t fp → rec v = .ok t.asdict) → W.asdictItems rec vs = .ok (ObjTree.asdictItems ts)
  | _, _, _, .nil, _ => rfl
  | _, _, _, .cons r rs, h => by
    unfold W.asdictItems
    rw [h _ _ _ List.mem_cons_self List.mem_cons_self r]
    dsimp only
    rw [W.asdictItems_run rs fun v t fp hv ht => h v t fp (List.mem_cons_of_mem _ hv) (List.mem_cons_of_mem _ ht)]
    rfl

theorem W.asdictFields_run {H : Heap} {rec : HVal → Py PyTree} {attrs : List (PyStr × HVal)} :
    ∀ {vs : List (PyStr × HVal)} {ts : List (PyStr × ObjTree)} {fps : List Nat},
    RepAttrs H vs ts fps → (∀ n v, (n, v) ∈ vs → lookup n attrs = some v) →
    (∀ n v t fp, (n, v) ∈ vs → (n, t) ∈ ts → Rep H v t fp → rec v = .ok t.asdict) →
    W.asdictFields rec attrs (ts.map (·.1)) = .ok (asdictAttrs ts)
  | _, _, _, .nil, _, _ => rfl
  | _, _, _, .cons (n := n) (v := v) (t := t) r rs, hl, h => by
    simp only [List.map_cons]
    unfold W.asdictFields
    rw [hl n v List.mem_cons_self]
    dsimp only
    rw [h n v t _ List.mem_cons_self List.mem_cons_self r]
    dsimp only
    rw [W.asdictFields_run rs (fun n v hv => hl n v (List.mem_cons_of_mem _ hv))
      (fun n v t fp hv ht => h n v t fp (List.mem_cons_of_mem _ hv) (List.mem_cons_of_mem _ ht))]
    rfl

theorem W.asdictInner_run {H : Heap} (depth : Nat) : ∀ {v : HVal} {t : ObjTree} {fp : List Nat}, Rep H v t fp → ExactFields t → t.height ≤ depth →
    W.asdictInner H depth v = .ok t.asdict := by
  induction depth with
  | zero => intro v t fp _ _ hd; have := ObjTree.height_pos t; omega
  | succ depth ih =>
    intro v t fp r hx hd
    have item : ∀ {ts : List ObjTree}, (∀ i, t.child (.item i) = ts[i]?) → t.height = heightItems ts + 1 → ∀ v' t' fp', t' ∈ ts → Rep H v' t' fp' →
        W.asdictInner H depth v' = .ok t'.asdict := by
      intro ts hc hh v' t' fp' ht r'
      obtain ⟨i, hi, rfl⟩ := List.getElem_of_mem ht
      have hi' : ts[i]? = some ts[i] := List.getElem?_eq_getElem hi
      have := height_item hi'
      exact ih r' (hx.child (st := .item i) (by rw [hc, hi'])) (by omega)
    cases r with
    | none => rfl
    | int => rfl
    | float => rfl
    | str => rfl
    | list hc rs =>
      rename_i a vs ts fps
      unfold W.asdictInner
      rw [hc]
      dsimp only
      rw [W.asdictItems_run rs (fun v' t' fp' _ ht r' => item (ts := ts) (fun i => rfl) rfl v' t' fp' ht r')]
      rfl
    | tuple hc rs =>
      rename_i a vs ts fps
      unfold W.asdictInner
      rw [hc]
      dsimp only
      rw [W.asdictItems_run rs (fun v' t' fp' _ ht r' => item (ts := ts) (fun i => rfl) rfl v' t' fp' ht r')]
      rfl
    | obj hc rs =>
      rename_i a cls vs ts fps
      obtain ⟨hf, nd⟩ := hx [] cls ts rfl
      have nv : vs.map (·.1) = ts.map (·.1) := rs.names
      have := W.asdictFields_run (rec := W.asdictInner H depth) (attrs := vs) rs
        (fun n v' hv => lookup_of_nodup (by rw [nv]; exact nd) hv) (fun n v' t' fp' _ ht r' => by
          have ha := attrOf_of_nodup nd ht
          have hh := height_attr ha
          have : (ObjTree.obj cls ts).height = heightAttrs ts + 1 := rfl
          exact ih r' (hx.child (st := .attr n) ha) (by omega))
      unfold W.asdictInner
      rw [hc]
      dsimp only
      rw [hf]
      dsimp only
      rw [this]
      rfl

/-- `asdict` of an instance with the value `t`. -/
theorem W.asdict_run {H : Heap} {v : HVal} {c : PyStr} {ts : List (PyStr × ObjTree)} {fp : List Nat} (r : Rep H v (.obj c ts) fp) (hx : ExactFields (.obj c ts))
    (depth : Nat) (hd : (ObjTree.obj c ts).height ≤ depth) : W.asdict H depth v = .ok (ObjTree.obj c ts).asdict := by
  have h := W.asdictInner_run depth r hx hd
  cases r with
  | obj hc rs =>
    unfold W.asdict W.cell
    simp only [hc]
    exact h

end Genie
