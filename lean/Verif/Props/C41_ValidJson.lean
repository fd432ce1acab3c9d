import Verif.Proof.Rfc8259
import Verif.Props.C34_Json
/-!
# C41: what `dat-to-json` prints is JSON exactly if the file contains no NaN and no infinity

The grammar of RFC 8259 is in `Verif/Spec/Rfc8259.lean`.
-/

namespace Genie

/-- If every float of a well-formed file object is finite, its text is a JSON text, and denotes its tree. -/
theorem C41_valid_json (repr : Json.FloatRepr) (floatOf : PyStr → PyFloat) (hr : repr.ReadBy floatOf) (d : DatFile) (hd : DatFile.WF d)
    (hf : d.tree.Finite) : Rfc8259.JsonText floatOf (Json.dumps repr d.tree) d.tree.json :=
  ⟨[], _, [], (by rw [List.append_nil]; rfl), fun _ h => (by cases h), Json.value_encode hr 0 _ (tree_texts hd) hf, fun _ h => (by cases h)⟩

/-- If some float is a NaN or infinite, the text (of any object, however edited) is no JSON text at all. -/
theorem C41_invalid_json (repr : Json.FloatRepr) (hr : repr.Lawful) (floatOf : PyStr → PyFloat) (d : DatFile) (hf : ¬ d.tree.Finite)
    (t : Rfc8259.Tree) : ¬ Rfc8259.JsonText floatOf (Json.dumps repr d.tree) t := by
  rintro ⟨w, s, w', e, hw, hv, hw'⟩
  have h1 : Json.Scan.out.run (w ++ (s ++ w')) = .out := by
    rw [Json.Scan.run_append, Json.Scan.run_append, Json.Scan.ws hw, Json.Scan.value hv, Json.Scan.ws hw']
  rw [← e] at h1
  rcases Json.Scan.encode hr 0 d.tree with ⟨h2, -⟩ | ⟨-, h2⟩
  · exact hf h2
  · rw [Json.dumps, h2] at h1; cases h1

/-- What the program prints (with the final line feed) is a JSON text exactly if every float in the file is finite; then it denotes the
tree of the file. -/
theorem C41_program_output (repr : Json.FloatRepr) (hr : repr.Lawful) (floatOf : PyStr → PyFloat) (hr' : repr.ReadBy floatOf)
    (z : Zlib) (fs : FileSystem) (p : Path) (text : PyStr) (h : datToJson repr z fs p = .returned text) :
    ∃ d, DatFile.parse z fs p = .returned d ∧ ((∃ t, Rfc8259.JsonText floatOf text t) ↔ d.tree.Finite) ∧
      (d.tree.Finite → Rfc8259.JsonText floatOf text d.tree.json) := by
  unfold datToJson at h
  split at h
  · rename_i d hd
    cases h
    have yes : d.tree.Finite → Rfc8259.JsonText floatOf (Json.dumps repr d.tree ++ [10]) d.tree.json := fun hf =>
      ⟨[], _, [10], rfl, fun _ h => (by cases h), Json.value_encode hr' 0 _ (tree_texts (parse_returned hd)) hf, by
        unfold Rfc8259.Ws; decide⟩
    refine ⟨d, hd, ⟨?_, fun hf => ⟨_, yes hf⟩⟩, yes⟩
    rintro ⟨t, w, s, w', e, hw, hv, hw'⟩
    have h1 : Json.Scan.out.run (w ++ (s ++ w')) = .out := by
      rw [Json.Scan.run_append, Json.Scan.run_append, Json.Scan.ws hw, Json.Scan.value hv, Json.Scan.ws hw']
    rw [← e, Json.Scan.run_append] at h1
    rcases Json.Scan.encode hr 0 d.tree with ⟨h2, -⟩ | ⟨-, h2⟩
    · exact h2
    · rw [Json.dumps, h2] at h1; cases h1
  · cases h
  · cases h

/-! ## non-vacuity -/

/-- A stand-in for `float.__repr__` and `float` that meets the assumptions: the pattern in decimal, followed by `.0`. -/
def Json.toyRepr0 : Json.FloatRepr := fun x => Json.natRepr x.bits.toNat ++ [46, 48]
def Json.toyFloat0 (s : PyStr) : PyFloat := ⟨BitVec.ofNat 64 (Json.natVal (s.take (s.length - 2)))⟩

theorem Json.toyRepr0_readBy : Json.toyRepr0.ReadBy Json.toyFloat0 where
  literal := fun x _ => ⟨[], Json.natRepr x.bits.toNat, [46, 48], [], by simp [Json.toyRepr0], .inl rfl, Json.intPart_natRepr _,
    .inr ⟨[48], rfl, by simp, by simp [Rfc8259.Digit]⟩, .inl rfl, .inl (by simp)⟩
  inverse := by
    intro x _
    unfold Json.toyFloat0 Json.toyRepr0
    rw [List.length_append, show ([46, 48] : PyStr).length = 2 from rfl, Nat.add_sub_cancel, List.take_append_of_le_length (Nat.le_refl _),
      List.take_length, Json.natVal_natRepr]
    simp

theorem Json.toyRepr0_lawful : Json.toyRepr0.Lawful where
  injective := by
    intro x y _ _ h
    have := Json.natRepr_inj (List.append_cancel_right h)
    cases x; cases y
    exact congrArg _ (BitVec.eq_of_toNat_eq this)
  chars := by
    intro x _ c hc
    simp only [Json.toyRepr0, List.mem_append, List.mem_cons, List.not_mem_nil, or_false] at hc
    rcases hc with hc | rfl | rfl
    · exact .inl (Json.natRepr_digits _ c hc)
    · exact .inr (.inr (.inr (.inl rfl)))
    · exact .inl rfl
  start := by
    intro x _
    cases h : Json.natRepr x.bits.toNat with
    | nil => exact absurd h (Json.natRepr_ne_nil _)
    | cons c cs => exact ⟨c, cs ++ [46, 48], by simp [Json.toyRepr0, h], .inl (Json.natRepr_digits x.bits.toNat c (by simp [h]))⟩
  mark := by
    intro x _
    exact ⟨46, by simp [Json.toyRepr0], .inl rfl⟩

/-- Both cases occur among well-formed files: the sample file has finite floats only, the sample file with one NaN in it not. -/
theorem C41_both_cases : (∃ d, DatFile.WF d ∧ d.tree.Finite) ∧ (∃ d, DatFile.WF d ∧ ¬ d.tree.Finite) :=
  ⟨⟨Sample.withFloat Sample.f25, ⟨_, Sample.withFloat_wf _ (by decide)⟩, (Json.finiteB_iff _).1 (by decide +kernel)⟩,
   ⟨Sample.withFloat PyTree.theNaN, ⟨_, Sample.withFloat_wf _ (by decide)⟩, fun h => absurd ((Json.finiteB_iff _).2 h) (by decide +kernel)⟩⟩

end Genie
