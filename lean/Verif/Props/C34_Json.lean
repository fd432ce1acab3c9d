import Verif.Model.Scripts
import Verif.Proof.AsdictTexts
import Verif.Props.C11_C15_RoundTrip
import Verif.Props.C24_C26_Files
/-!
# C34: what `dat-to-json` prints determines the data
-/

namespace Genie

/-- `dataclasses.asdict` loses nothing: different objects of a class have different trees. -/
theorem C34_record_tree_determines (old : Bool) (c : RecordClass) (x y : c.Obj) (h : c.asdict old x = c.asdict old y) : x = y :=
  c.asdict_inj old h

/-- Different file objects have different trees. -/
theorem C34_tree_determines (d d' : DatFile) (h : d.tree = d'.tree) : d = d' := by
  have hv : d.version = d'.version := by
    have h := PyTree.dict.inj h
    exact str_inj (items_cons h).1
  have ho : d.old = d'.old := by unfold DatFile.old; rw [hv]
  unfold DatFile.tree at h
  rw [ho] at h
  exact DatFile.asdict_inj _ h

theorem tree_texts {d : DatFile} (hd : DatFile.WF d) : d.tree.Texts := by
  obtain ⟨v, hv⟩ := hd
  exact DatFile.asdict_texts _ hv

/-- Two well-formed file objects (such as two parsed files) have the same JSON text exactly if their trees are the same up to sign and
payload of NaNs. -/
theorem C34_text_determines (repr : Json.FloatRepr) (hr : repr.Lawful) (d d' : DatFile) (hd : DatFile.WF d) (hd' : DatFile.WF d') :
    Json.dumps repr d.tree = Json.dumps repr d'.tree ↔ d.tree.forgetNaN = d'.tree.forgetNaN :=
  Json.dumps_eq_iff hr (tree_texts hd) (tree_texts hd')

/-- Hence the text determines an object without NaNs among all objects without NaNs. -/
theorem C34_text_determines_without_nan (repr : Json.FloatRepr) (hr : repr.Lawful) (d d' : DatFile) (hd : DatFile.WF d)
    (hd' : DatFile.WF d') (hn : d.tree.NaNFree) (hn' : d'.tree.NaNFree) (h : Json.dumps repr d.tree = Json.dumps repr d'.tree) : d = d' := by
  have := (C34_text_determines repr hr d d' hd hd').1 h
  rw [Json.forget_of_NaNFree _ hn, Json.forget_of_NaNFree _ hn'] at this
  exact C34_tree_determines d d' this

theorem parse_returned {z : Zlib} {fs : FileSystem} {p : Path} {d : DatFile} (h : DatFile.parse z fs p = .returned d) : DatFile.WF d := by
  unfold DatFile.parse at h
  split at h
  · cases h
  · split at h
    · cases h
    · split at h
      · cases h
      · rename_i hd
        cases h
        unfold DatFile.ofData at hd
        split at hd
        · cases hd
        · rename_i hr
          cases hd
          exact ⟨_, C13_parsed_wellformed _ _ _ hr⟩

/-- If the program prints the same text for two files, the file objects are the same, up to NaNs. -/
theorem C34_program_output_determines (repr : Json.FloatRepr) (hr : repr.Lawful) (z : Zlib) (fs fs' : FileSystem) (p p' : Path)
    (text : PyStr) (h : datToJson repr z fs p = .returned text) (h' : datToJson repr z fs' p' = .returned text) :
    ∃ d d', DatFile.parse z fs p = .returned d ∧ DatFile.parse z fs' p' = .returned d' ∧
      d.tree.forgetNaN = d'.tree.forgetNaN ∧ (d.tree.NaNFree → d'.tree.NaNFree → d = d') := by
  have get : ∀ {fs p}, datToJson repr z fs p = .returned text →
      ∃ d, DatFile.parse z fs p = .returned d ∧ Json.dumps repr d.tree ++ [10] = text := by
    intro fs p h
    unfold datToJson at h
    split at h
    · rename_i d hd
      exact ⟨d, hd, by cases h; rfl⟩
    · cases h
    · cases h
  obtain ⟨d, hd, e⟩ := get h
  obtain ⟨d', hd', e'⟩ := get h'
  have e := List.append_cancel_right (e.trans e'.symm)
  have w := parse_returned hd
  have w' := parse_returned hd'
  exact ⟨d, d', hd, hd', (C34_text_determines repr hr d d' w w').1 e,
    fun hn hn' => C34_text_determines_without_nan repr hr d d' w w' hn hn' e⟩

/-- The program prints something exactly if the file can be parsed, and ends with the exception of the parser otherwise. -/
theorem C34_program_total (repr : Json.FloatRepr) (z : Zlib) (fs : FileSystem) (p : Path) :
    (∀ d, DatFile.parse z fs p = .returned d → ∃ text, datToJson repr z fs p = .returned text) ∧
    (∀ e, DatFile.parse z fs p = .raised e ↔ datToJson repr z fs p = .raised e) := by
  unfold datToJson
  constructor
  · intro d h
    rw [h]
    exact ⟨_, rfl⟩
  · intro e
    cases DatFile.parse z fs p <;> simp

/-- Whatever strings the file contains, the output consists of line feeds and printable ASCII characters: printing it does not depend on
the encoding of the standard output. -/
theorem C34_program_output_ascii (repr : Json.FloatRepr) (hr : repr.Lawful) (z : Zlib) (fs : FileSystem) (p : Path)
    (text : PyStr) (h : datToJson repr z fs p = .returned text) : ∀ c ∈ text, c = 10 ∨ (32 ≤ c ∧ c ≤ 126) := by
  unfold datToJson at h
  split at h <;> cases h
  exact (Json.encode_ascii hr 0 _).append (fun c hc => .inl (by simpa using hc))

/-- Saving a file with the library and printing the result prints the same as printing the object: the text is the same before and after
a save. -/
theorem C34_text_survives_save (repr : Json.FloatRepr) (z : Zlib) (hz : z.Lawful) (env : Environment) (hf : env.fault = none)
    (fs : FileSystem) (d : DatFile) (hd : DatFile.WF d) (p : Path) :
    datToJson repr z (DatFile.save z env fs d p).1 p = .returned (Json.dumps repr d.tree ++ [10]) := by
  obtain ⟨fs', h1, h2, -⟩ := C24_save_then_parse z hz env hf fs d hd p
  unfold datToJson
  rw [h1, h2]

/-- The value of the README's example, in the tree: `tree["techs"][22]["resource_costs"][0]["amount"]`. -/
theorem C34_loom_in_tree (d : DatFile) (t : Tech) (c : ResearchResourceCost) (ht : d.techs[22]? = some t)
    (hc : t.resource_costs[0]? = some c) :
    ((((d.tree.key "techs").bind (PyTree.index 22)).bind (PyTree.key "resource_costs")).bind (PyTree.index 0)).bind (PyTree.key "amount") = some (.int c.amount) := by
  have e1 : d.tree.key "techs" = some (.list (d.techs.map Tech.asdict)) := rfl
  have e2 : PyTree.index 22 (.list (d.techs.map Tech.asdict)) = some t.asdict := by simp [PyTree.index, ht]
  have e3 : t.asdict.key "resource_costs" = some (.list (t.resource_costs.map ResearchResourceCost.asdict)) := rfl
  have e4 : PyTree.index 0 (.list (t.resource_costs.map ResearchResourceCost.asdict)) = some c.asdict := by simp only [PyTree.index, List.getElem?_map, hc]; rfl
  rw [e1, Option.bind_some, e2, Option.bind_some, e3, Option.bind_some, e4, Option.bind_some]
  rfl

/-! ## non-vacuity, and what the text does not show -/

/-- A stand-in for `float.__repr__` that meets the assumptions (not the shortest digits, but as good for telling floats apart). -/
def Json.toyRepr : Json.FloatRepr := fun x => Json.natRepr x.bits.toNat ++ [46]

theorem Json.toyRepr_lawful : Json.FloatRepr.Lawful Json.toyRepr where
  injective := by
    intro x y _ _ h
    have := Json.natRepr_inj (List.append_cancel_right h)
    cases x; cases y
    exact congrArg _ (BitVec.eq_of_toNat_eq this)
  chars := by
    intro x _ c hc
    simp only [Json.toyRepr, List.mem_append, List.mem_singleton] at hc
    rcases hc with hc | rfl
    · exact .inl (Json.natRepr_digits _ c hc)
    · exact .inr (.inr (.inr (.inl rfl)))
  start := by
    intro x _
    cases h : Json.natRepr x.bits.toNat with
    | nil => exact absurd h (Json.natRepr_ne_nil _)
    | cons c cs => exact ⟨c, cs ++ [46], by simp [Json.toyRepr, h], .inl (Json.natRepr_digits x.bits.toNat c (by simp [h]))⟩
  mark := by
    intro x _
    exact ⟨46, by simp [Json.toyRepr], .inl rfl⟩

/-- The sample file with `x` as the last parameter of its first effect command. -/
def Sample.withFloat (x : PyFloat) : DatFile :=
  { Sample.datFile .VER_88 with
    effects := [{ Sample.effect with effect_commands := [{ Sample.effectCommand with d := x }] }] }

theorem Sample.withFloat_wf (x : PyFloat) (h : IsF32 x) : DatFile.WFAt .VER_88 (Sample.withFloat x) :=
  { Sample.datFile_wf .VER_88 (by decide) with
    effects := ⟨(show (1 : Nat) ≤ 2147483647 by decide), fun e he => by
      simp only [Sample.withFloat, List.mem_singleton] at he
      subst he
      exact { name := (show IsDebugStr Sample.effect.name by decide +kernel)
              effect_commands := ⟨(show (1 : Nat) ≤ 32767 by decide), fun c hc => by
                simp only [List.mem_singleton] at hc
                subst hc
                exact { type := (show IsU8 4 by decide), a := (show IsI16 (-1) by decide), b := (show IsI16 0 by decide),
                        c := (show IsI16 0 by decide), d := h }⟩ }⟩ }

/-- The hypotheses hold of a concrete file that is full of data. -/
example : DatFile.WF (Sample.withFloat Sample.f25) ∧ DatFile.WF (Sample.withFloat PyFloat.one) ∧
    Json.dumps Json.toyRepr (Sample.withFloat Sample.f25).tree ≠ Json.dumps Json.toyRepr (Sample.withFloat PyFloat.one).tree := by
  have h1 : DatFile.WF (Sample.withFloat Sample.f25) := ⟨_, Sample.withFloat_wf _ (by decide)⟩
  have h2 : DatFile.WF (Sample.withFloat PyFloat.one) := ⟨_, Sample.withFloat_wf _ (by decide)⟩
  refine ⟨h1, h2, fun h => ?_⟩
  have := (C34_text_determines _ Json.toyRepr_lawful _ _ h1 h2).1 h
  have e : ∀ x, ((((PyTree.key "effects" (Sample.withFloat x).tree.forgetNaN).bind (PyTree.index 0)).bind
      (PyTree.key "effect_commands")).bind (PyTree.index 0)).bind (PyTree.key "d") =
      some (PyTree.float (if F.isNaN x then PyTree.theNaN else x)) := fun _ => rfl
  have e1 := e Sample.f25
  rw [this, e PyFloat.one] at e1
  revert e1
  simp only [Option.some.injEq, PyTree.float.injEq]
  decide +kernel

/-- Without the restriction to NaN-free files the text does *not* determine the file: there are two different well-formed files with the
same text (they differ in the payload of a NaN). -/
theorem C34_nan_payload_is_lost (repr : Json.FloatRepr) : ∃ d d', DatFile.WF d ∧ DatFile.WF d' ∧ d ≠ d' ∧
    Json.dumps repr d.tree = Json.dumps repr d'.tree := by
  refine ⟨Sample.withFloat ⟨0x7FF8000000000000#64⟩, Sample.withFloat ⟨0xFFF8000020000000#64⟩,
    ⟨_, Sample.withFloat_wf _ (by decide)⟩, ⟨_, Sample.withFloat_wf _ (by decide)⟩, ?_, ?_⟩
  · intro h
    have := congrArg (fun d : DatFile => d.effects) h
    simp only [Sample.withFloat, List.cons.injEq, and_true, Effect.mk.injEq, true_and, EffectCommand.mk.injEq] at this
    exact absurd this (by decide)
  · have e : ∀ x, F.isNaN x = true → (Sample.withFloat x).tree.forgetNaN = (Sample.withFloat PyTree.theNaN).tree.forgetNaN := by
      intro x hx
      have hn : F.isNaN PyTree.theNaN = true := by decide +kernel
      simp only [DatFile.tree, DatFile.asdict, PyTree.forgetNaN, PyTree.forgetNaNItems, Sample.withFloat, Effect.asdict,
        EffectCommand.asdict, List.map_cons, List.map_nil, PyTree.forgetNaNs, hx, hn, if_true]
      rfl
    unfold Json.dumps
    rw [← Json.encode_forget repr 0 (DatFile.tree _), e _ (by decide +kernel), ← e ⟨0xFFF8000020000000#64⟩ (by decide +kernel),
      Json.encode_forget]

end Genie
