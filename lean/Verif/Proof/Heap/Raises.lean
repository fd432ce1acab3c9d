import Verif.Proof.Heap.AlikeWriters
/-!
# Which exceptions the writers raise, on objects of any type
-/

namespace Genie

/-- What `to_bytes` may raise, apart from `RecursionError`. -/
def PyErr.OfWriting (e : PyErr) : Prop :=
  e = .overflowError ∨ e = .structError ∨ e = .assertionError ∨ e = .unicodeEncodeError ∨ e = .valueError ∨ e = .indexError ∨ e = .typeError ∨
  e = .attributeError

/-- Nothing but these exceptions. -/
def Only {α : Type} (S : PyErr → Prop) (x : Py α) : Prop := ∀ e, x = .error e → S e

namespace W

variable {S : PyErr → Prop}

theorem only_ok {α : Type} (x : α) : Only S (.ok x : Py α) := fun _ h => nomatch h

theorem only_error {α : Type} {e : PyErr} (h : S e) : Only S (.error e : Py α) := fun _ h' => by cases h'; exact h

theorem bind_only {α β : Type} {x : Py α} {f : α → Py β} (h : Only S x) (hf : ∀ u, Only S (f u)) : Only S (x >>= f) := by
  cases x with
  | error e => exact only_error (h e rfl)
  | ok u => exact hf u

theorem map_only {α β : Type} {x : Py α} {f : α → β} (h : Only S x) : Only S (f <$> x) := by
  cases x with
  | error e => exact only_error (h e rfl)
  | ok u => exact only_ok _

theorem ite_only {α : Type} {p : Prop} [Decidable p] {x y : Py α} (h : Only S x) (h' : Only S y) : Only S (if p then x else y) := by
  split <;> assumption

theorem joinB_only : ∀ {xs : List (Py Bytes)}, (∀ x ∈ xs, Only S x) → Only S (joinB xs)
  | [], _ => only_ok _
  | x :: xs, h => by
    have ih := joinB_only fun y hy => h y (List.mem_cons_of_mem _ hy)
    have h0 := h x List.mem_cons_self
    rw [joinB.eq_def]
    dsimp only
    cases x with
    | error e => exact only_error (h0 e rfl)
    | ok b =>
      cases e : joinB xs with
      | error e' => exact only_error (ih e' e)
      | ok bs => exact only_ok _

theorem joinB_nil_only : Only S (joinB []) := only_ok _

theorem joinB_cons_only {x : Py Bytes} {xs : List (Py Bytes)} (h : Only S x) (hs : Only S (joinB xs)) : Only S (joinB (x :: xs)) := by
  rw [joinB.eq_def]
  dsimp only
  cases x with
  | error e => exact only_error (h e rfl)
  | ok b =>
    cases e : joinB xs with
    | error e' => exact only_error (hs e' e)
    | ok bs => exact only_ok _

variable {H : Heap} {v : HVal} {a : Py HVal} (hS : ∀ e, PyErr.OfWriting e → S e)
include hS

theorem attr_only (n : PyStr) : Only S (attr H v n) := by
  unfold attr
  split
  · split
    · exact only_ok _
    · exact only_error (hS _ (by simp [PyErr.OfWriting]))
  · exact only_error (hS _ (by simp [PyErr.OfWriting]))

theorem item_only (h : Only S a) (i : Nat) : Only S (item H a i) := by
  refine bind_only h fun x => ?_
  repeat' split
  all_goals first | exact only_ok _ | exact only_error (hS _ (by simp [PyErr.OfWriting]))

theorem attrOf_only (h : Only S a) (n : PyStr) : Only S (attrOf H a n) := bind_only h fun _ => attr_only hS n

theorem iter_only (h : Only S a) : Only S (iter H a) := by
  refine bind_only h fun x => ?_
  repeat' split
  all_goals first | exact only_ok _ | exact only_error (hS _ (by simp [PyErr.OfWriting]))

theorem len_only (h : Only S a) : Only S (len H a) := by
  refine bind_only h fun x => ?_
  repeat' split
  all_goals first | exact only_ok _ | exact only_error (hS _ (by simp [PyErr.OfWriting]))

omit hS in
theorem nat_only {x : Py Nat} (h : Only S x) : Only S (nat x) := bind_only h fun _ => only_ok _

omit hS in
theorem eqInt_only (h : Only S a) (n : Int) : Only S (eqInt a n) := by
  refine bind_only h fun x => ?_
  repeat' split
  all_goals exact only_ok _

omit hS in
theorem neInt_only (h : Only S a) (n : Int) : Only S (neInt a n) := bind_only (eqInt_only h n) fun _ => only_ok _

theorem geInt_only (h : Only S a) (n : Int) : Only S (geInt a n) := by
  refine bind_only h fun x => ?_
  repeat' split
  all_goals first | exact only_ok _ | exact only_error (hS _ (by simp [PyErr.OfWriting]))

theorem version_only (h : Only S a) : Only S (version a) := by
  refine bind_only h fun x => ?_
  split
  · intro e he
    unfold Version.ofStr at he
    repeat' split at he
    all_goals first | (cases he; done) | (cases he; exact hS _ (by simp [PyErr.OfWriting]))
  · exact only_error (hS _ (by simp [PyErr.OfWriting]))

omit hS in
theorem when_nil_only {x : Py Bytes} (h : Only S x) : Only S (W.when [] x) := h

omit hS in
theorem when_cons_only {c : Py Bool} {cs : List (Py Bool)} {x : Py Bytes} (h : Only S c) (hs : Only S (W.when cs x)) :
    Only S (W.when (c :: cs) x) := by
  unfold W.when
  cases c with
  | error e => exact only_error (h e rfl)
  | ok b =>
    cases b with
    | false => exact only_ok _
    | true => exact hs

omit hS in
theorem ifNotNone_only {x : Py Bytes} (h : Only S a) (hx : Only S x) : Only S (ifNotNone a x) := by
  refine bind_only h fun u => ?_
  split
  · exact only_ok _
  · exact hx

theorem Int_to_bytes_only (i : Int) (k : Nat) (s : Bool) : Only S (Int_to_bytes i k s) := by
  intro e he
  unfold Int_to_bytes Genie.intToBytes at he
  repeat' split at he
  all_goals first | (cases he; done) | (cases he; exact hS _ (by simp [PyErr.OfWriting]))

theorem intToBytes_only (k : Nat) (s : Bool) : Only S (intToBytes H v k s) := by
  unfold intToBytes
  split
  · exact Int_to_bytes_only hS _ _ _
  · split <;> exact only_error (hS _ (by simp [PyErr.OfWriting]))

theorem int8_only (h : Only S a) : Only S (int8 H a) := bind_only h fun _ => intToBytes_only hS _ _
theorem int16_only (h : Only S a) (s : Bool) : Only S (int16 H a s) := bind_only h fun _ => intToBytes_only hS _ _
theorem int32_only (h : Only S a) (s : Bool) : Only S (int32 H a s) := bind_only h fun _ => intToBytes_only hS _ _
theorem int16If_only (h : Only S a) (s : Bool) : Only S (int16If H a s) :=
  bind_only h fun _ => ite_only (only_ok _) (intToBytes_only hS _ _)

theorem float_only (h : Only S a) : Only S (float a) := by
  refine bind_only h fun x => ?_
  unfold packNative
  repeat' split
  all_goals first | exact only_ok _ | exact only_error (hS _ (by simp [PyErr.OfWriting]))

theorem strEncode_only : ∀ s : PyStr, Only S (strEncode s)
  | [] => only_ok _
  | c :: cs => by
    have ih := strEncode_only cs
    unfold strEncode
    refine ite_only ?_ (only_error (hS _ (by simp [PyErr.OfWriting])))
    split
    · exact only_ok _
    · next e he => exact only_error (ih e he)

theorem encode_only : Only S (encode v) := by
  unfold encode
  split
  · exact strEncode_only hS _
  · exact only_error (hS _ (by simp [PyErr.OfWriting]))

theorem debugString_only (h : Only S a) : Only S (debugString a) := by
  refine bind_only h fun x => bind_only (encode_only hS) fun bs => ?_
  exact joinB_cons_only (Int_to_bytes_only hS _ _ _) (joinB_cons_only (Int_to_bytes_only hS _ _ _) (joinB_cons_only (only_ok _) joinB_nil_only))

theorem string_only (h : Only S a) (n : Nat) : Only S (string n a) :=
  bind_only h fun _ => bind_only (encode_only hS) fun _ => only_ok _

theorem array_only {f : Py HVal → Py Bytes} (hf : ∀ x, Only S (f (.ok x))) (h : Only S a) : Only S (array H f a) := by
  refine bind_only (iter_only hS h) fun vs => joinB_only fun x hx => ?_
  obtain ⟨y, _, rfl⟩ := List.mem_map.1 hx
  exact hf y

theorem int8Array_only (h : Only S a) : Only S (int8Array H a) := array_only hS (fun _ => int8_only hS (only_ok _)) h
theorem int16Array_only (h : Only S a) : Only S (int16Array H a) := array_only hS (fun _ => int16_only hS (only_ok _) _) h
theorem int32Array_only (h : Only S a) : Only S (int32Array H a) := array_only hS (fun _ => int32_only hS (only_ok _) _) h
theorem floatArray_only (h : Only S a) : Only S (floatArray H a) := array_only hS (fun _ => float_only hS (only_ok _)) h

theorem pointers_only (h : Only S a) : Only S (pointers H a) := by
  refine bind_only (iter_only hS h) fun vs => joinB_only fun x hx => ?_
  obtain ⟨y, _, rfl⟩ := List.mem_map.1 hx
  exact int32_only hS (only_ok _) _

/-- `x` is an attribute of `v`, or an element of one. -/
def Below (H : Heap) (v x : HVal) : Prop :=
  (∃ n, attr H v n = .ok x) ∨ ∃ n o xs, attr H v n = .ok o ∧ iter H (.ok o) = .ok xs ∧ x ∈ xs

variable {r : Rec}

theorem cls_only (hr : ∀ x ver, Below H v x → Only S (r x ver)) (n : PyStr) (ver : Version) : Only S (cls r (attr H v n) ver) := by
  unfold cls
  cases e : attr H v n with
  | error x => exact only_error (attr_only hS n x e)
  | ok x => exact hr x ver (.inl ⟨n, e⟩)

theorem classArray_only (hr : ∀ x ver, Below H v x → Only S (r x ver)) (n : PyStr) (ver : Version) :
    Only S (classArray H r (attr H v n) ver) := by
  unfold classArray
  cases e : attr H v n with
  | error x => exact only_error (attr_only hS n x e)
  | ok o =>
    cases e2 : iter H (.ok o) with
    | error x => exact only_error (iter_only hS (only_ok _) x e2)
    | ok xs =>
      refine joinB_only fun y hy => ?_
      obtain ⟨x, hx, rfl⟩ := List.mem_map.1 hy
      exact hr x ver (.inr ⟨n, o, xs, e, e2, (List.mem_filter.1 hx).1⟩)

omit hS in
theorem arg_only (h : Only S a) : Only S (arg a) := bind_only h fun _ => only_ok _

omit hS in
theorem args_nil_only : Only S (args []) := only_ok _

omit hS in
theorem args_cons_only {x : Py (List HVal)} {xs : List (Py (List HVal))} (h : Only S x) (hs : Only S (args xs)) : Only S (args (x :: xs)) :=
  bind_only h fun _ => bind_only hs fun _ => only_ok _

theorem packCode_only (c : Code) : Only S (packCode c v) := by
  intro e he
  unfold packCode at he
  split at he
  · unfold Genie.packCode at he
    repeat' split at he
    all_goals first | (cases he; done) | (cases he; exact hS _ (by simp [PyErr.OfWriting]))
  · unfold Genie.packCode at he
    repeat' split at he
    all_goals first | (cases he; done) | (cases he; exact hS _ (by simp [PyErr.OfWriting]))
  · cases he; exact hS _ (by simp [PyErr.OfWriting])

theorem packCodes_only : ∀ (cs : List Code) (vs : List HVal), Only S (packCodes cs vs)
  | c :: cs, v :: vs => by
    have ih := packCodes_only cs vs
    unfold packCodes
    cases e : packCode c v with
    | error x => exact only_error (packCode_only hS c x e)
    | ok b =>
      cases e2 : packCodes cs vs with
      | error x => exact only_error (ih x e2)
      | ok bs => exact only_ok _
  | [], _ => only_ok _
  | _ :: _, [] => only_ok _

theorem pack_only (fmt : String) {as : List (Py (List HVal))} (h : Only S (args as)) : Only S (pack fmt as) := by
  refine bind_only h fun vs => ?_
  split
  · exact only_error (hS _ (by simp [PyErr.OfWriting]))
  · exact ite_only (packCodes_only hS _ _) (only_error (hS _ (by simp [PyErr.OfWriting])))

end W
end Genie
