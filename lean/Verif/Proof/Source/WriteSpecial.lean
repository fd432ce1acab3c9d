import Verif.Proof.Source.WriteRecords
import Verif.Proof.Source.WriteUnits
/-!
# The source of the `to_bytes` functions that are not a plain list of fields
-/

namespace Genie.Src

variable {H : Heap} {s : ByteHandler}

/-- `n ← len(self.a)`: the attribute. -/
theorem Wr.lenAttr {ψ : α → β} {call : Call} {v : HVal} {a : Name} {n : PyStr} {k : PVal → M β} {K : Nat → Py α} (ha : Name.str a = n)
    (h : noProperty a classes = true) (hk : ∀ v, Wr H s ψ (k (.h v)) (W.len H (.ok v) >>= K)) :
    Wr H s ψ (Src.andThen (Src.objAttr call v a) k) (W.len H (W.attr H v n) >>= K) :=
  Wr.argBind (w := fun o => W.len H o) (fun o => by cases o <;> rfl) (Wr.attr ha h) hk

/-- `n ← len(self.a)`: the length. -/
theorem Wr.len {ψ : α → β} {v : HVal} {k : PVal → M β} {K : Nat → Py α} (hk : ∀ n : Nat, Wr H s ψ (k (.h (.int n))) (K n)) :
    Wr H s ψ (Src.andThen (Src.andThen (Src.heapM fun H => W.len H (.ok v)) fun n => Src.done (.h (.int n))) k) (W.len H (.ok v) >>= K) :=
  Wr.bind (Wr.heapM.tail fun n : Nat => PVal.h (.int n)) hk

/-- `TerrainRestriction.to_bytes` — `/repo/src/genieutils/terrainrestriction.py:44-49`. -/
theorem TerrainRestriction_to_bytes : WritesAs n!"TerrainRestriction" TerrainRestriction.write := by
  intro H s r n rec self ver hk hr h2 hn hi
  have hg : IsGenie n!"TerrainRestriction" := IsGenie.of (by decide +kernel)
  write_fun
  unfold TerrainRestriction.write
  refine Wr.lenAttr rfl rfl fun _ => ?_
  peel
  refine Wr.len fun a => ?_
  peel
  refine Wr.lenAttr rfl rfl fun _ => ?_
  peel
  refine Wr.len fun b => ?_
  peel
  by_cases hab : a = b
  · subst hab
    rw [if_neg (by simp)]
    refine Wr.branchT (by simp) ?_
    peel
    refine Wr.join ?_
    refine Wr.eAttr (w := W.floatArray H) strict_floatArray rfl rfl fun _ => ?_
    peel
    refine Wr.elem (Wr.base hi hg (by decide) (write_float_array (by omega) hi hg _)) fun _ => ?_
    peel
    refine Wr.eAttr (w := fun o => W.classArray H rec o ver) (strict_classArray _ _) rfl rfl fun _ => ?_
    peel
    refine Wr.elem (Wr.base hi hg (by decide) (write_class_array hr (by omega) hi hg _ _)) fun _ => ?_
    peel
    exact Wr.done' (by join_end)
  · rw [if_pos hab]
    refine Wr.branchF (by simp; omega) ?_
    exact Wr.fail _

/-- `RandomMaps.to_bytes` — `/repo/src/genieutils/randommaps.py:303-310`. -/
theorem RandomMaps_to_bytes : WritesAs n!"RandomMaps" RandomMaps.write := by
  intro H s r n rec self ver hk hr h2 hn hi
  have hg : IsGenie n!"RandomMaps" := IsGenie.of (by decide +kernel)
  write_fun
  unfold RandomMaps.write
  refine Wr.lenAttr rfl rfl fun _ => ?_
  peel
  refine Wr.len fun a => ?_
  peel
  refine Wr.lenAttr rfl rfl fun _ => ?_
  peel
  refine Wr.len fun b => ?_
  peel
  by_cases hab : a = b
  · subst hab
    rw [if_neg (by simp)]
    refine Wr.branchT (by simp) ?_
    peel
    refine Wr.join ?_
    refine Wr.eLenAttr (w := fun o => W.int32 H o false) (strict_int32s false) rfl rfl fun _ => ?_
    peel
    refine Wr.eLen (w := fun o => W.int32 H o false) (strict_int32s false) fun _ => ?_
    peel
    refine Wr.elem (Wr.base hi hg (by decide) (write_int_32_signed hk (by omega) _ _ false)) fun _ => ?_
    peel
    refine Wr.eAttr (w := W.int32 H) strict_int32 rfl rfl fun _ => ?_
    peel
    refine Wr.elem (Wr.base hi hg (by decide) (write_int_32 hk (by omega) _ _)) fun _ => ?_
    peel
    refine Wr.eAttr (w := fun o => W.classArray H rec o ver) (strict_classArray _ _) rfl rfl fun _ => ?_
    peel
    refine Wr.elem (Wr.base hi hg (by decide) (write_class_array hr (by omega) hi hg _ _)) fun _ => ?_
    peel
    refine Wr.eAttr (w := fun o => W.classArray H rec o ver) (strict_classArray _ _) rfl rfl fun _ => ?_
    peel
    refine Wr.elem (Wr.base hi hg (by decide) (write_class_array hr (by omega) hi hg _ _)) fun _ => ?_
    peel
    exact Wr.done' (by join_end)
  · rw [if_pos hab]
    refine Wr.branchF (by simp; omega) ?_
    exact Wr.fail _

/-- `TrainLocation.to_bytes` — `/repo/src/genieutils/unit.py:459-474`. -/
theorem TrainLocation_to_bytes : WritesAs n!"TrainLocation" TrainLocation.write := by
  intro H s r n rec self ver hk hr h2 hn hi
  have hg : IsGenie n!"TrainLocation" := IsGenie.of (by decide +kernel)
  write_fun
  unfold TrainLocation.write
  refine Wr.ifVersion (by omega) (fun _ => ?_) (fun _ => ?_)
  · peel
    refine Wr.pack ?_
    refine Wr.assoc ?_
    refine Wr.pArg (Wr.attr rfl rfl) fun _ => ?_
    peel
    refine Wr.assoc ?_
    refine Wr.pArg (Wr.attr rfl rfl) fun _ => ?_
    peel
    refine Wr.assoc ?_
    refine Wr.pArg (Wr.attr rfl rfl) fun _ => ?_
    peel
    refine Wr.assoc ?_
    refine Wr.pArg (Wr.attr rfl rfl) fun _ => ?_
    peel
    refine Wr.assoc ?_
    refine Wr.packEnd (by decide) (by pack_args) fun _ => ?_
    peel
    exact Wr.done' rfl
  · peel
    refine Wr.pack ?_
    refine Wr.pArg (Wr.attr rfl rfl) fun _ => ?_
    peel
    refine Wr.pArg (Wr.attr rfl rfl) fun _ => ?_
    peel
    refine Wr.pArg (Wr.attr rfl rfl) fun _ => ?_
    peel
    refine Wr.packEnd (by decide) (by pack_args) fun _ => ?_
    peel
    exact Wr.done' rfl
/-- `self.p` where `p` is a property of the class. -/
theorem Wr.property {φ : α → PVal} {call : Call} {self : HVal} {c a : Name} {g : Py α} (hi : IsA H self c)
    (hp : ((Src.method c a).map fun f => decide (f.2.kind = .property)) = some true) (h : Wr H s φ (call (.h self) c a ⟨[], []⟩) g) :
    Wr H s φ (Src.objAttr call self a) g := by
  intro hne
  obtain ⟨name, attrs, hc, hn⟩ := hi
  have h0 := h hne
  have e : propertyOf H self a = some c := by
    unfold propertyOf
    rw [hc]
    simp only
    rw [hn]
    cases hm : Src.method c a with
    | none => rw [hm] at hp; simp at hp
    | some f =>
      rw [hm] at hp
      simp at hp
      simp [hp]
  unfold Src.objAttr
  rw [e]
  exact h0

def pointerOf (v : HVal) : HVal := if v = .none then .int 0 else .int 1

/-- A comprehension of objects. -/
theorem Wr.forEachObj {F : HVal → M (List PVal) → M (List PVal)} {w : HVal → HVal}
    (hF : ∀ v more, F v more = Src.andThen more fun ws => Src.done (.h (w v) :: ws)) :
    ∀ vs, Wr H s (fun ws : List HVal => ws.map PVal.h) (Src.forEach F vs) (.ok (vs.map w))
  | [] => Wr.done' rfl
  | v :: vs => by
    show Wr H s _ (F v (Src.forEach F vs)) _
    rw [hF]
    refine Wr.pureBind (Wr.forEachObj hF vs) ?_
    exact Wr.done' rfl

/-- `Civ.unit_pointers` — `/repo/src/genieutils/civ.py:41-42`. -/
theorem Civ_unit_pointers {n : Nat} (hn : 1 ≤ n) {self : HVal} :
    Wr H s PVal.seq (callN n (.h self) n!"Civ" n!"unit_pointers" ⟨[], []⟩)
      (W.iter H (W.attr H self (lit "units")) >>= fun vs => .ok (vs.map pointerOf)) := by
  write_fun
  refine Wr.argBind (w := fun o => W.iter H o) (fun o => by cases o <;> rfl) (Wr.attr rfl rfl) fun v => ?_
  peel
  refine Wr.bind Wr.heapM fun vs => ?_
  refine Wr.pureBind (Wr.forEachObj (w := pointerOf) (fun v more => ?_) vs) ?_
  · cases v <;> rfl
  · show Wr H s _ (Src.andThen (Src.collect ((vs.map pointerOf).map PVal.h)) _) _
    unfold Src.collect
    rw [asObjects_map]
    exact Wr.done' rfl

/-- `DatFile.graphic_pointers` — `/repo/src/genieutils/datfile.py:117-118`. -/
theorem DatFile_graphic_pointers {n : Nat} (hn : 1 ≤ n) {self : HVal} :
    Wr H s PVal.seq (callN n (.h self) n!"DatFile" n!"graphic_pointers" ⟨[], []⟩)
      (W.iter H (W.attr H self (lit "graphics")) >>= fun vs => .ok (vs.map pointerOf)) := by
  write_fun
  refine Wr.argBind (w := fun o => W.iter H o) (fun o => by cases o <;> rfl) (Wr.attr rfl rfl) fun v => ?_
  peel
  refine Wr.bind Wr.heapM fun vs => ?_
  refine Wr.pureBind (Wr.forEachObj (w := pointerOf) (fun v more => ?_) vs) ?_
  · cases v <;> rfl
  · show Wr H s _ (Src.andThen (Src.collect ((vs.map pointerOf).map PVal.h)) _) _
    unfold Src.collect
    rw [asObjects_map]
    exact Wr.done' rfl

/-- The list of a property, as the argument of `write_int_32_array`. -/
theorem Wr.ePointers {ψ : Bytes → β} {f : M PVal} {o : Py HVal} {k : PVal → M β} {acc : List Bytes} {ws : List (Py Bytes)}
    (ho : Wr H s PVal.seq f (W.iter H o >>= fun vs => .ok (vs.map pointerOf)))
    (hk : ∀ vs, Wr H s ψ (k (.seq vs)) (joinA acc (joinB (vs.map fun v => W.int32 H (.ok v)) :: ws))) :
    Wr H s ψ (Src.andThen f k) (joinA acc (W.pointers H o :: ws)) := by
  have e : joinA acc (W.pointers H o :: ws) = (W.iter H o >>= fun vs => .ok (vs.map pointerOf)) >>= fun vs =>
      joinA acc (joinB (vs.map fun v => W.int32 H (.ok v)) :: ws) := by
    unfold W.pointers
    cases W.iter H o <;> rfl
  rw [e]
  exact ho.bind hk

/-- `Civ.to_bytes` — `/repo/src/genieutils/civ.py:44-56`. -/
theorem Civ_to_bytes : WritesAs n!"Civ" Civ.write := by
  intro H s r n rec self ver hk hr h2 hn hi
  have hg : IsGenie n!"Civ" := IsGenie.of (by decide +kernel)
  write_fun
  refine Wr.join ?_
  refine Wr.eAttr (w := W.int8 H) strict_int8 rfl rfl fun _ => ?_
  peel
  refine Wr.elem (Wr.base hi hg (by decide) (write_int_8 hk (by omega) _ _)) fun _ => ?_
  peel
  refine Wr.eAttr (w := W.debugString) strict_debugString rfl rfl fun _ => ?_
  peel
  refine Wr.elem (Wr.base hi hg (by decide) (write_debug_string hk (by omega) hi hg _)) fun _ => ?_
  peel
  refine Wr.eLenAttr (w := W.int16 H) strict_int16 rfl rfl fun _ => ?_
  peel
  refine Wr.eLen (w := W.int16 H) strict_int16 fun _ => ?_
  peel
  refine Wr.elem (Wr.base hi hg (by decide) (write_int_16 hk (by omega) _ _)) fun _ => ?_
  peel
  refine Wr.eAttr (w := W.int16 H) strict_int16 rfl rfl fun _ => ?_
  peel
  refine Wr.elem (Wr.base hi hg (by decide) (write_int_16 hk (by omega) _ _)) fun _ => ?_
  peel
  refine Wr.eAttr (w := W.int16 H) strict_int16 rfl rfl fun _ => ?_
  peel
  refine Wr.elem (Wr.base hi hg (by decide) (write_int_16 hk (by omega) _ _)) fun _ => ?_
  peel
  refine Wr.eAttr (w := W.floatArray H) strict_floatArray rfl rfl fun _ => ?_
  peel
  refine Wr.elem (Wr.base hi hg (by decide) (write_float_array (by omega) hi hg _)) fun _ => ?_
  peel
  refine Wr.eAttr (w := W.int8 H) strict_int8 rfl rfl fun _ => ?_
  peel
  refine Wr.elem (Wr.base hi hg (by decide) (write_int_8 hk (by omega) _ _)) fun _ => ?_
  peel
  refine Wr.eLenAttr (w := W.int16 H) strict_int16 rfl rfl fun _ => ?_
  peel
  refine Wr.eLen (w := W.int16 H) strict_int16 fun _ => ?_
  peel
  refine Wr.elem (Wr.base hi hg (by decide) (write_int_16 hk (by omega) _ _)) fun _ => ?_
  peel
  refine Wr.ePointers (Wr.property hi (by decide +kernel) (Civ_unit_pointers (by omega))) fun _ => ?_
  peel
  refine Wr.elem (Wr.base hi hg (by decide) (write_int_32_seq hk (by omega) hi hg _)) fun _ => ?_
  peel
  refine Wr.eAttr (w := fun o => W.classArray H rec o ver) (strict_classArray _ _) rfl rfl fun _ => ?_
  peel
  refine Wr.elem (Wr.base hi hg (by decide) (write_class_array hr (by omega) hi hg _ _)) fun _ => ?_
  peel
  exact Wr.done' (by join_end)

/-- `self.a[0].b`: the list. -/
theorem Wr.itemAttr {ψ : α → β} {call : Call} {v : HVal} {a : Name} {n m : PyStr} {i : Nat} {k : PVal → M β} {K : HVal → Py α} (ha : Name.str a = n)
    (h : noProperty a classes = true) (hk : ∀ v, Wr H s ψ (k (.h v)) (W.attrOf H (W.item H (.ok v) i) m >>= K)) :
    Wr H s ψ (Src.andThen (Src.objAttr call v a) k) (W.attrOf H (W.item H (W.attr H v n) i) m >>= K) :=
  Wr.argBind (w := fun o => W.attrOf H (W.item H o i) m) (fun o => by cases o <;> rfl) (Wr.attr ha h) hk

/-- `self.a[0].b`: the item. -/
theorem Wr.item {ψ : α → β} {v : HVal} {m : PyStr} {i : Nat} {k : PVal → M β} {K : HVal → Py α}
    (hk : ∀ v, Wr H s ψ (k (.h v)) (W.attr H v m >>= K)) :
    Wr H s ψ (Src.andThen (Src.andThen (Src.heapM fun H => W.item H (.ok v) i) fun w => Src.done (.h w)) k)
      (W.attrOf H (W.item H (.ok v) i) m >>= K) :=
  Wr.argBind (w := fun o => W.attrOf H o m) (fun o => by cases o <;> rfl) (Wr.heapM.tail PVal.h) hk

/-- `Tech.to_bytes_84` — `/repo/src/genieutils/tech.py:162-191`. -/
theorem Tech_to_bytes_84 : WritesAs' n!"Tech" n!"to_bytes_84" Tech.write84 := by
  intro H s r n rec self ver hk hr h2 hn hi
  have hg : IsGenie n!"Tech" := IsGenie.of (by decide +kernel)
  write_fun
  unfold Tech.write84
  refine Wr.lenAttr rfl rfl fun _ => ?_
  peel
  refine Wr.len fun a => ?_
  peel
  by_cases ha : a = 0
  · subst ha
    refine Wr.thenF (by rfl) ?_
    peel
    simp only [ne_eq, not_true_eq_false, if_false]
    refine Wr.join ?_
    refine Wr.eAttr (w := W.int16Array H) strict_int16Array rfl rfl fun _ => ?_
    peel
    refine Wr.elem (Wr.base hi hg (by decide) (write_int_16_array hk (by omega) hi hg _)) fun _ => ?_
    peel
    refine Wr.eAttr (w := fun o => W.classArray H rec o ver) (strict_classArray _ _) rfl rfl fun _ => ?_
    peel
    refine Wr.elem (Wr.base hi hg (by decide) (write_class_array hr (by omega) hi hg _ _)) fun _ => ?_
    peel
    refine Wr.eAttr (w := W.int16 H) strict_int16 rfl rfl fun _ => ?_
    peel
    refine Wr.elem (Wr.base hi hg (by decide) (write_int_16 hk (by omega) _ _)) fun _ => ?_
    peel
    refine Wr.eAttr (w := W.int16 H) strict_int16 rfl rfl fun _ => ?_
    peel
    refine Wr.elem (Wr.base hi hg (by decide) (write_int_16 hk (by omega) _ _)) fun _ => ?_
    peel
    refine Wr.eAttr (w := W.int16 H) strict_int16 rfl rfl fun _ => ?_
    peel
    refine Wr.elem (Wr.base hi hg (by decide) (write_int_16 hk (by omega) _ _)) fun _ => ?_
    peel
    refine Wr.elem (Wr.base hi hg (by decide) (write_int_16 hk (by omega) _ _)) fun _ => ?_
    peel
    refine Wr.eAttr (w := W.int32 H) strict_int32 rfl rfl fun _ => ?_
    peel
    refine Wr.elem (Wr.base hi hg (by decide) (write_int_32 hk (by omega) _ _)) fun _ => ?_
    peel
    refine Wr.eAttr (w := W.int32 H) strict_int32 rfl rfl fun _ => ?_
    peel
    refine Wr.elem (Wr.base hi hg (by decide) (write_int_32 hk (by omega) _ _)) fun _ => ?_
    peel
    refine Wr.elem (Wr.base hi hg (by decide) (write_int_16 hk (by omega) _ _)) fun _ => ?_
    peel
    refine Wr.eAttr (w := W.int16 H) strict_int16 rfl rfl fun _ => ?_
    peel
    refine Wr.elem (Wr.base hi hg (by decide) (write_int_16 hk (by omega) _ _)) fun _ => ?_
    peel
    refine Wr.eAttr (w := W.int16 H) strict_int16 rfl rfl fun _ => ?_
    peel
    refine Wr.elem (Wr.base hi hg (by decide) (write_int_16 hk (by omega) _ _)) fun _ => ?_
    peel
    refine Wr.eAttr (w := W.int16 H) strict_int16 rfl rfl fun _ => ?_
    peel
    refine Wr.elem (Wr.base hi hg (by decide) (write_int_16 hk (by omega) _ _)) fun _ => ?_
    peel
    refine Wr.elem (Wr.base hi hg (by decide) (write_int_8 hk (by omega) _ _)) fun _ => ?_
    peel
    refine Wr.eAttr (w := W.int32 H) strict_int32 rfl rfl fun _ => ?_
    peel
    refine Wr.elem (Wr.base hi hg (by decide) (write_int_32 hk (by omega) _ _)) fun _ => ?_
    peel
    refine Wr.eAttr (w := W.int32 H) strict_int32 rfl rfl fun _ => ?_
    peel
    refine Wr.elem (Wr.base hi hg (by decide) (write_int_32 hk (by omega) _ _)) fun _ => ?_
    peel
    refine Wr.elem (Wr.base hi hg (by decide) (write_int_32 hk (by omega) _ _)) fun _ => ?_
    peel
    refine Wr.eAttr (w := W.debugString) strict_debugString rfl rfl fun _ => ?_
    peel
    refine Wr.elem (Wr.base hi hg (by decide) (write_debug_string hk (by omega) hi hg _)) fun _ => ?_
    peel
    refine Wr.eAttr (w := W.int8 H) strict_int8 rfl rfl fun _ => ?_
    peel
    refine Wr.elem (Wr.base hi hg (by decide) (write_int_8 hk (by omega) _ _)) fun _ => ?_
    peel
    exact Wr.done' (by join_end)
  · refine Wr.thenT (by simp [W.truthy, ha]) ?_
    simp only [ne_eq, ha, not_false_eq_true, if_true]
    peel
    refine Wr.assoc ?_
    refine Wr.itemAttr rfl rfl fun _ => ?_
    peel
    refine Wr.assoc ?_
    refine Wr.item fun _ => ?_
    peel
    refine Wr.assoc ?_
    refine Wr.bind (Wr.attr rfl rfl) fun _ => ?_
    peel
    refine Wr.assoc ?_
    refine Wr.itemAttr rfl rfl fun _ => ?_
    peel
    refine Wr.assoc ?_
    refine Wr.item fun _ => ?_
    peel
    refine Wr.assoc ?_
    refine Wr.bind (Wr.attr rfl rfl) fun _ => ?_
    peel
    refine Wr.assoc ?_
    refine Wr.itemAttr rfl rfl fun _ => ?_
    peel
    refine Wr.assoc ?_
    refine Wr.item fun _ => ?_
    peel
    refine Wr.assoc ?_
    refine Wr.bind (Wr.attr rfl rfl) fun _ => ?_
    peel
    refine Wr.assoc ?_
    refine Wr.itemAttr rfl rfl fun _ => ?_
    peel
    refine Wr.assoc ?_
    refine Wr.item fun _ => ?_
    peel
    refine Wr.assoc ?_
    refine Wr.bind (Wr.attr rfl rfl) fun _ => ?_
    peel
    refine Wr.join ?_
    refine Wr.eAttr (w := W.int16Array H) strict_int16Array rfl rfl fun _ => ?_
    peel
    refine Wr.elem (Wr.base hi hg (by decide) (write_int_16_array hk (by omega) hi hg _)) fun _ => ?_
    peel
    refine Wr.eAttr (w := fun o => W.classArray H rec o ver) (strict_classArray _ _) rfl rfl fun _ => ?_
    peel
    refine Wr.elem (Wr.base hi hg (by decide) (write_class_array hr (by omega) hi hg _ _)) fun _ => ?_
    peel
    refine Wr.eAttr (w := W.int16 H) strict_int16 rfl rfl fun _ => ?_
    peel
    refine Wr.elem (Wr.base hi hg (by decide) (write_int_16 hk (by omega) _ _)) fun _ => ?_
    peel
    refine Wr.eAttr (w := W.int16 H) strict_int16 rfl rfl fun _ => ?_
    peel
    refine Wr.elem (Wr.base hi hg (by decide) (write_int_16 hk (by omega) _ _)) fun _ => ?_
    peel
    refine Wr.eAttr (w := W.int16 H) strict_int16 rfl rfl fun _ => ?_
    peel
    refine Wr.elem (Wr.base hi hg (by decide) (write_int_16 hk (by omega) _ _)) fun _ => ?_
    peel
    refine Wr.elem (Wr.base hi hg (by decide) (write_int_16 hk (by omega) _ _)) fun _ => ?_
    peel
    refine Wr.eAttr (w := W.int32 H) strict_int32 rfl rfl fun _ => ?_
    peel
    refine Wr.elem (Wr.base hi hg (by decide) (write_int_32 hk (by omega) _ _)) fun _ => ?_
    peel
    refine Wr.eAttr (w := W.int32 H) strict_int32 rfl rfl fun _ => ?_
    peel
    refine Wr.elem (Wr.base hi hg (by decide) (write_int_32 hk (by omega) _ _)) fun _ => ?_
    peel
    refine Wr.elem (Wr.base hi hg (by decide) (write_int_16 hk (by omega) _ _)) fun _ => ?_
    peel
    refine Wr.eAttr (w := W.int16 H) strict_int16 rfl rfl fun _ => ?_
    peel
    refine Wr.elem (Wr.base hi hg (by decide) (write_int_16 hk (by omega) _ _)) fun _ => ?_
    peel
    refine Wr.eAttr (w := W.int16 H) strict_int16 rfl rfl fun _ => ?_
    peel
    refine Wr.elem (Wr.base hi hg (by decide) (write_int_16 hk (by omega) _ _)) fun _ => ?_
    peel
    refine Wr.eAttr (w := W.int16 H) strict_int16 rfl rfl fun _ => ?_
    peel
    refine Wr.elem (Wr.base hi hg (by decide) (write_int_16 hk (by omega) _ _)) fun _ => ?_
    peel
    refine Wr.elem (Wr.base hi hg (by decide) (write_int_8 hk (by omega) _ _)) fun _ => ?_
    peel
    refine Wr.eAttr (w := W.int32 H) strict_int32 rfl rfl fun _ => ?_
    peel
    refine Wr.elem (Wr.base hi hg (by decide) (write_int_32 hk (by omega) _ _)) fun _ => ?_
    peel
    refine Wr.eAttr (w := W.int32 H) strict_int32 rfl rfl fun _ => ?_
    peel
    refine Wr.elem (Wr.base hi hg (by decide) (write_int_32 hk (by omega) _ _)) fun _ => ?_
    peel
    refine Wr.elem (Wr.base hi hg (by decide) (write_int_32 hk (by omega) _ _)) fun _ => ?_
    peel
    refine Wr.eAttr (w := W.debugString) strict_debugString rfl rfl fun _ => ?_
    peel
    refine Wr.elem (Wr.base hi hg (by decide) (write_debug_string hk (by omega) hi hg _)) fun _ => ?_
    peel
    refine Wr.eAttr (w := W.int8 H) strict_int8 rfl rfl fun _ => ?_
    peel
    refine Wr.elem (Wr.base hi hg (by decide) (write_int_8 hk (by omega) _ _)) fun _ => ?_
    peel
    exact Wr.done' (by join_end)

/-- `Tech.to_bytes` — `/repo/src/genieutils/tech.py:158-161`. -/
theorem Tech_to_bytes : WritesAs n!"Tech" Tech.write := by
  intro H s r n rec self ver hk hr h2 hn hi
  write_fun
  unfold Tech.write
  refine Wr.ifVersion (by omega) (fun _ => ?_) (fun _ => ?_)
  · peel
    refine Wr.assoc ?_
    refine Wr.mapOk (φ := PVal.bytes) (Wr.method hi (Tech_to_bytes_88 ver hk hr h2 (by omega) hi)) fun _ => ?_
    peel
    exact Wr.done' rfl
  · peel
    refine Wr.mapOk (φ := PVal.bytes) (Wr.method hi (Tech_to_bytes_84 ver hk hr h2 (by omega) hi)) fun _ => ?_
    peel
    exact Wr.done' rfl

/-- `w if self.a and o is not None else b''`. -/
theorem Wr.eGuard {ψ : Bytes → β} {call : Call} {self : HVal} {a : Name} {n : PyStr} {C A E : M PVal} {o : Py HVal} {w : Py Bytes} {k : PVal → M β}
    {acc : List Bytes} {ws : List (Py Bytes)} (ha : Name.str a = n) (h : noProperty a classes = true)
    (hC : Wr H s (fun v : HVal => PVal.bool (decide (v ≠ .none))) C o) (hA : Wr H s PVal.bytes A w) (hE : E = Src.done (.bytes []))
    (hk : ∀ b, Wr H s ψ (k (.bytes b)) (joinA (b :: acc) ws)) :
    Wr H s ψ (Src.andThen (Src.objAttr call self a) fun v => Src.andThen (Src.truth v) fun b => Src.andThen (Src.branch b C (Src.done v)) fun v =>
        Src.andThen (Src.truth v) fun t => Src.andThen (Src.branch t A E) k)
      (joinA acc (W.when [(W.truthy H) <$> (W.attr H self n)] (W.ifNotNone o w) :: ws)) := by
  have e : W.when [(W.truthy H) <$> (W.attr H self n)] (W.ifNotNone o w)
      = W.attr H self n >>= fun v => .ok (W.truthy H v) >>= fun t => if t then o >>= (fun x => if x = .none then .ok [] else w) else .ok [] := by
    cases W.attr H self n with
    | error e => rfl
    | ok v =>
      show W.when [.ok (W.truthy H v)] _ = (if W.truthy H v then _ else _)
      cases W.truthy H v with
      | false => rfl
      | true =>
        cases o with
        | error e => rfl
        | ok x => cases x <;> rfl
  rw [e]
  have hw := Wr.elem (ψ := ψ) (acc := acc) (ws := ws) (k := k) (H := H) (s := s) (f := Src.andThen (Src.objAttr call self a) fun v => Src.andThen (Src.truth v) fun b =>
    Src.andThen (Src.branch b C (Src.done v)) fun v => Src.andThen (Src.truth v) fun t => Src.branch t A E) (g := W.attr H self n >>= fun v =>
      .ok (W.truthy H v) >>= fun t => if t then o >>= (fun x => if x = .none then .ok [] else w) else .ok []) ?_ hk
  · rw [andThen_assoc] at hw
    simp only [andThen_assoc] at hw
    exact hw
  · refine Wr.bind (Wr.attr ha h) fun v => ?_
    refine Wr.bindE (Wr.truth v) fun t ht => ?_
    cases t with
    | false =>
      refine Wr.pureBind (φ := id) (a := PVal.h v) (Wr.done _) ?_
      refine Wr.pureBind (φ := id) (a := false) ?_ ?_
      · rw [← ht]; exact Wr.truth v
      · subst hE
        exact Wr.done' rfl
    | true =>
      refine Wr.bind hC fun x => ?_
      refine Wr.pureBind (φ := id) (a := decide (x ≠ .none)) (Wr.done _) ?_
      by_cases hx : x = .none
      · subst hx hE
        exact Wr.done' rfl
      · rw [if_neg hx]
        refine Wr.branchT (by simpa using hx) hA

/-- The argument of a function whose result is the result. -/
theorem Wr.arg1 {w : Py α → Py γ} {φ : α → β} {ψ : γ → δ} {f : M β} {o : Py α} {k : β → M δ} (hw : ∀ o, w o = o >>= fun a => w (.ok a))
    (ho : Wr H s φ f o) (hk : ∀ a, Wr H s ψ (k (φ a)) (w (.ok a))) : Wr H s ψ (Src.andThen f k) (w o) := by
  rw [hw o]
  exact ho.bind hk

/-- `UnitHeaders.to_bytes` — `/repo/src/genieutils/unitheaders.py:25-30`. -/
theorem UnitHeaders_to_bytes : WritesAs n!"UnitHeaders" UnitHeaders.write := by
  intro H s r n rec self ver hk hr h2 hn hi
  have hg : IsGenie n!"UnitHeaders" := IsGenie.of (by decide +kernel)
  write_fun
  unfold UnitHeaders.write
  refine Wr.join ?_
  refine Wr.eAttr (w := W.int8 H) strict_int8 rfl rfl fun _ => ?_
  peel
  refine Wr.elem (Wr.base hi hg (by decide) (write_int_8 hk (by omega) _ _)) fun _ => ?_
  peel
  refine Wr.eGuard rfl rfl ?_ ?_ rfl fun _ => ?_
  · enter_fun
    refine Wr.mapOk (Wr.attr rfl rfl) fun v => ?_
    cases v <;> exact Wr.done' rfl
  · peel
    refine Wr.arg1 (w := fun o => W.int16 H (W.nat (W.len H o))) (strict_len strict_int16) (Wr.attr rfl rfl) fun v => ?_
    peel
    refine Wr.arg1 (w := fun m => W.int16 H (W.nat m)) (strict_nat strict_int16) (Wr.heapM.tail fun n : Nat => PVal.h (.int n)) fun _ => ?_
    peel
    exact (Wr.base hi hg (by decide) (write_int_16 hk (by omega) _ _)).tail'
  peel
  refine Wr.eGuard rfl rfl ?_ ?_ rfl fun _ => ?_
  · enter_fun
    refine Wr.mapOk (Wr.attr rfl rfl) fun v => ?_
    cases v <;> exact Wr.done' rfl
  · peel
    refine Wr.arg1 (w := fun o => W.classArray H rec o ver) (strict_classArray _ _) (Wr.attr rfl rfl) fun v => ?_
    peel
    exact (Wr.base hi hg (by decide) (write_class_array hr (by omega) hi hg _ _)).tail'
  peel
  exact Wr.done' (by join_end)

/-- `Version(v)`. -/
theorem Wr.toVersion (v : HVal) : Wr H s PVal.version (Src.apply (.cls n!"Version") ⟨[.h v], []⟩) (W.version (.ok v)) := by
  cases v with
  | str t =>
    show Wr H s PVal.version (Src.andThen (Src.pyM (Version.ofStr t)) fun v => Src.done (.version v)) (Version.ofStr t)
    exact Wr.mapOk (φ := id) (Wr.py _) fun _ => Wr.done' rfl
  | _ => exact Wr.fail _

/-- `len(self.a[0].b)`: the list. -/
theorem Wr.lenItemAttr {ψ : α → β} {call : Call} {v : HVal} {a : Name} {n m : PyStr} {i : Nat} {k : PVal → M β} {K : Nat → Py α} (ha : Name.str a = n)
    (h : noProperty a classes = true) (hk : ∀ v, Wr H s ψ (k (.h v)) (W.len H (W.attrOf H (W.item H (.ok v) i) m) >>= K)) :
    Wr H s ψ (Src.andThen (Src.objAttr call v a) k) (W.len H (W.attrOf H (W.item H (W.attr H v n) i) m) >>= K) :=
  Wr.argBind (w := fun o => W.len H (W.attrOf H (W.item H o i) m)) (fun o => by cases o <;> rfl) (Wr.attr ha h) hk

/-- `len(self.a[0].b)`: the item. -/
theorem Wr.lenItem {ψ : α → β} {v : HVal} {m : PyStr} {i : Nat} {k : PVal → M β} {K : Nat → Py α}
    (hk : ∀ v, Wr H s ψ (k (.h v)) (W.len H (W.attr H v m) >>= K)) :
    Wr H s ψ (Src.andThen (Src.andThen (Src.heapM fun H => W.item H (.ok v) i) fun w => Src.done (.h w)) k)
      (W.len H (W.attrOf H (W.item H (.ok v) i) m) >>= K) :=
  Wr.argBind (w := fun o => W.len H (W.attrOf H o m)) (fun o => by cases o <;> rfl) (Wr.heapM.tail PVal.h) hk

/-- `DatFile.to_bytes` — `/repo/src/genieutils/datfile.py:120-160`. -/
theorem DatFile_to_bytes : WritesAs n!"DatFile" DatFile.write := by
  intro H s r n rec self ver hk hr h2 hn hi
  have hg : IsGenie n!"DatFile" := IsGenie.of (by decide +kernel)
  write_fun
  unfold DatFile.write
  refine Wr.argBind (w := W.version) (fun o => by cases o <;> rfl) (Wr.attr rfl rfl) fun vs => ?_
  peel
  refine Wr.bind (Wr.toVersion vs) fun ver => ?_
  peel
  refine Wr.lenAttr rfl rfl fun _ => ?_
  peel
  refine Wr.len fun size => ?_
  peel
  refine Wr.lenAttr rfl rfl fun _ => ?_
  peel
  refine Wr.len fun a => ?_
  peel
  refine Wr.lenAttr rfl rfl fun _ => ?_
  peel
  refine Wr.len fun b => ?_
  peel
  by_cases hab : a = b ∧ b = size
  · rw [if_neg (by simpa using hab)]
    obtain ⟨rfl, rfl⟩ := hab
    refine Wr.thenT (by simp) ?_
    peel
    refine Wr.branchT (by simp) ?_
    peel
    refine Wr.bind (Wr.attr rfl rfl) fun v => ?_
    peel
    refine Wr.pureBind (Wr.truth v) ?_
    cases htv : W.truthy H v with
    | false =>
      refine Wr.thenF rfl ?_
      peel
      refine Wr.join ?_
      refine Wr.eAttr (w := W.string 8) (strict_string 8) rfl rfl fun _ => ?_
      peel
      refine Wr.elem (Wr.base hi hg (by decide) (write_string (by omega) _ _)) fun _ => ?_
      peel
      refine Wr.elem (Wr.base hi hg (by decide) (write_int_16 hk (by omega) _ _)) fun _ => ?_
      peel
      refine Wr.elem (Wr.base hi hg (by decide) (write_int_16 hk (by omega) _ _)) fun _ => ?_
      peel
      refine Wr.eAttr (w := W.int32Array H) strict_int32Array rfl rfl fun _ => ?_
      peel
      refine Wr.elem (Wr.base hi hg (by decide) (write_int_32_array hk (by omega) hi hg _)) fun _ => ?_
      peel
      refine Wr.eAttr (w := W.int32Array H) strict_int32Array rfl rfl fun _ => ?_
      peel
      refine Wr.elem (Wr.base hi hg (by decide) (write_int_32_array hk (by omega) hi hg _)) fun _ => ?_
      peel
      refine Wr.eAttr (w := fun o => W.classArray H rec o ver) (strict_classArray _ _) rfl rfl fun _ => ?_
      peel
      refine Wr.elem (Wr.base hi hg (by decide) (write_class_array hr (by omega) hi hg _ _)) fun _ => ?_
      peel
      refine Wr.eLenAttr (w := W.int16 H) strict_int16 rfl rfl fun _ => ?_
      peel
      refine Wr.eLen (w := W.int16 H) strict_int16 fun _ => ?_
      peel
      refine Wr.elem (Wr.base hi hg (by decide) (write_int_16 hk (by omega) _ _)) fun _ => ?_
      peel
      refine Wr.eAttr (w := fun o => W.classArray H rec o ver) (strict_classArray _ _) rfl rfl fun _ => ?_
      peel
      refine Wr.elem (Wr.base hi hg (by decide) (write_class_array hr (by omega) hi hg _ _)) fun _ => ?_
      peel
      refine Wr.eLenAttr (w := W.int16 H) strict_int16 rfl rfl fun _ => ?_
      peel
      refine Wr.eLen (w := W.int16 H) strict_int16 fun _ => ?_
      peel
      refine Wr.elem (Wr.base hi hg (by decide) (write_int_16 hk (by omega) _ _)) fun _ => ?_
      peel
      refine Wr.eAttr (w := fun o => W.classArray H rec o ver) (strict_classArray _ _) rfl rfl fun _ => ?_
      peel
      refine Wr.elem (Wr.base hi hg (by decide) (write_class_array hr (by omega) hi hg _ _)) fun _ => ?_
      peel
      refine Wr.eLenAttr (w := W.int16 H) strict_int16 rfl rfl fun _ => ?_
      peel
      refine Wr.eLen (w := W.int16 H) strict_int16 fun _ => ?_
      peel
      refine Wr.elem (Wr.base hi hg (by decide) (write_int_16 hk (by omega) _ _)) fun _ => ?_
      peel
      refine Wr.ePointers (Wr.property hi (by decide +kernel) (DatFile_graphic_pointers (by omega))) fun _ => ?_
      peel
      refine Wr.elem (Wr.base hi hg (by decide) (write_int_32_seq hk (by omega) hi hg _)) fun _ => ?_
      peel
      refine Wr.eAttr (w := fun o => W.classArray H rec o ver) (strict_classArray _ _) rfl rfl fun _ => ?_
      peel
      refine Wr.elem (Wr.base hi hg (by decide) (write_class_array hr (by omega) hi hg _ _)) fun _ => ?_
      peel
      refine Wr.eAttr (w := fun o => W.cls rec o ver) (strict_cls _ _) rfl rfl fun _ => ?_
      peel
      refine Wr.elem (Wr.base hi hg (by decide) (write_class hr (by omega) _ _ _)) fun _ => ?_
      peel
      refine Wr.eAttr (w := fun o => W.cls rec o ver) (strict_cls _ _) rfl rfl fun _ => ?_
      peel
      refine Wr.elem (Wr.base hi hg (by decide) (write_class hr (by omega) _ _ _)) fun _ => ?_
      peel
      refine Wr.eLenAttr (w := W.int32 H) strict_int32 rfl rfl fun _ => ?_
      peel
      refine Wr.eLen (w := W.int32 H) strict_int32 fun _ => ?_
      peel
      refine Wr.elem (Wr.base hi hg (by decide) (write_int_32 hk (by omega) _ _)) fun _ => ?_
      peel
      refine Wr.eAttr (w := fun o => W.classArray H rec o ver) (strict_classArray _ _) rfl rfl fun _ => ?_
      peel
      refine Wr.elem (Wr.base hi hg (by decide) (write_class_array hr (by omega) hi hg _ _)) fun _ => ?_
      peel
      refine Wr.eLenAttr (w := W.int32 H) strict_int32 rfl rfl fun _ => ?_
      peel
      refine Wr.eLen (w := W.int32 H) strict_int32 fun _ => ?_
      peel
      refine Wr.elem (Wr.base hi hg (by decide) (write_int_32 hk (by omega) _ _)) fun _ => ?_
      peel
      refine Wr.eAttr (w := fun o => W.classArray H rec o ver) (strict_classArray _ _) rfl rfl fun _ => ?_
      peel
      refine Wr.elem (Wr.base hi hg (by decide) (write_class_array hr (by omega) hi hg _ _)) fun _ => ?_
      peel
      refine Wr.eLenAttr (w := W.int16 H) strict_int16 rfl rfl fun _ => ?_
      peel
      refine Wr.eLen (w := W.int16 H) strict_int16 fun _ => ?_
      peel
      refine Wr.elem (Wr.base hi hg (by decide) (write_int_16 hk (by omega) _ _)) fun _ => ?_
      peel
      refine Wr.eAttr (w := fun o => W.classArray H rec o ver) (strict_classArray _ _) rfl rfl fun _ => ?_
      peel
      refine Wr.elem (Wr.base hi hg (by decide) (write_class_array hr (by omega) hi hg _ _)) fun _ => ?_
      peel
      refine Wr.eLenAttr (w := W.int16 H) strict_int16 rfl rfl fun _ => ?_
      peel
      refine Wr.eLen (w := W.int16 H) strict_int16 fun _ => ?_
      peel
      refine Wr.elem (Wr.base hi hg (by decide) (write_int_16 hk (by omega) _ _)) fun _ => ?_
      peel
      refine Wr.eAttr (w := fun o => W.classArray H rec o ver) (strict_classArray _ _) rfl rfl fun _ => ?_
      peel
      refine Wr.elem (Wr.base hi hg (by decide) (write_class_array hr (by omega) hi hg _ _)) fun _ => ?_
      peel
      refine Wr.eAttr (w := W.int32 H) strict_int32 rfl rfl fun _ => ?_
      peel
      refine Wr.elem (Wr.base hi hg (by decide) (write_int_32 hk (by omega) _ _)) fun _ => ?_
      peel
      refine Wr.eAttr (w := W.int32 H) strict_int32 rfl rfl fun _ => ?_
      peel
      refine Wr.elem (Wr.base hi hg (by decide) (write_int_32 hk (by omega) _ _)) fun _ => ?_
      peel
      refine Wr.eAttr (w := W.int32 H) strict_int32 rfl rfl fun _ => ?_
      peel
      refine Wr.elem (Wr.base hi hg (by decide) (write_int_32 hk (by omega) _ _)) fun _ => ?_
      peel
      refine Wr.eAttr (w := W.int32 H) strict_int32 rfl rfl fun _ => ?_
      peel
      refine Wr.elem (Wr.base hi hg (by decide) (write_int_32 hk (by omega) _ _)) fun _ => ?_
      peel
      refine Wr.eAttr (w := W.int32 H) strict_int32 rfl rfl fun _ => ?_
      peel
      refine Wr.elem (Wr.base hi hg (by decide) (write_int_32 hk (by omega) _ _)) fun _ => ?_
      peel
      refine Wr.eAttr (w := W.int32 H) strict_int32 rfl rfl fun _ => ?_
      peel
      refine Wr.elem (Wr.base hi hg (by decide) (write_int_32 hk (by omega) _ _)) fun _ => ?_
      peel
      refine Wr.eAttr (w := W.int32 H) strict_int32 rfl rfl fun _ => ?_
      peel
      refine Wr.elem (Wr.base hi hg (by decide) (write_int_32 hk (by omega) _ _)) fun _ => ?_
      peel
      refine Wr.eAttr (w := fun o => W.cls rec o ver) (strict_cls _ _) rfl rfl fun _ => ?_
      peel
      refine Wr.elem (Wr.base hi hg (by decide) (write_class hr (by omega) _ _ _)) fun _ => ?_
      peel
      exact Wr.done' (by join_end)
    | true =>
      refine Wr.thenT rfl ?_
      peel
      refine Wr.assoc ?_
      refine Wr.lenItemAttr rfl rfl fun _ => ?_
      peel
      refine Wr.assoc ?_
      refine Wr.lenItem fun _ => ?_
      peel
      refine Wr.assoc ?_
      refine Wr.lenAttr rfl rfl fun _ => ?_
      peel
      refine Wr.assoc ?_
      refine Wr.len fun used => ?_
      peel
      refine Wr.join ?_
      refine Wr.eAttr (w := W.string 8) (strict_string 8) rfl rfl fun _ => ?_
      peel
      refine Wr.elem (Wr.base hi hg (by decide) (write_string (by omega) _ _)) fun _ => ?_
      peel
      refine Wr.elem (Wr.base hi hg (by decide) (write_int_16 hk (by omega) _ _)) fun _ => ?_
      peel
      refine Wr.elem (Wr.base hi hg (by decide) (write_int_16 hk (by omega) _ _)) fun _ => ?_
      peel
      refine Wr.eAttr (w := W.int32Array H) strict_int32Array rfl rfl fun _ => ?_
      peel
      refine Wr.elem (Wr.base hi hg (by decide) (write_int_32_array hk (by omega) hi hg _)) fun _ => ?_
      peel
      refine Wr.eAttr (w := W.int32Array H) strict_int32Array rfl rfl fun _ => ?_
      peel
      refine Wr.elem (Wr.base hi hg (by decide) (write_int_32_array hk (by omega) hi hg _)) fun _ => ?_
      peel
      refine Wr.eAttr (w := fun o => W.classArray H rec o ver) (strict_classArray _ _) rfl rfl fun _ => ?_
      peel
      refine Wr.elem (Wr.base hi hg (by decide) (write_class_array hr (by omega) hi hg _ _)) fun _ => ?_
      peel
      refine Wr.eLenAttr (w := W.int16 H) strict_int16 rfl rfl fun _ => ?_
      peel
      refine Wr.eLen (w := W.int16 H) strict_int16 fun _ => ?_
      peel
      refine Wr.elem (Wr.base hi hg (by decide) (write_int_16 hk (by omega) _ _)) fun _ => ?_
      peel
      refine Wr.eAttr (w := fun o => W.classArray H rec o ver) (strict_classArray _ _) rfl rfl fun _ => ?_
      peel
      refine Wr.elem (Wr.base hi hg (by decide) (write_class_array hr (by omega) hi hg _ _)) fun _ => ?_
      peel
      refine Wr.eLenAttr (w := W.int16 H) strict_int16 rfl rfl fun _ => ?_
      peel
      refine Wr.eLen (w := W.int16 H) strict_int16 fun _ => ?_
      peel
      refine Wr.elem (Wr.base hi hg (by decide) (write_int_16 hk (by omega) _ _)) fun _ => ?_
      peel
      refine Wr.eAttr (w := fun o => W.classArray H rec o ver) (strict_classArray _ _) rfl rfl fun _ => ?_
      peel
      refine Wr.elem (Wr.base hi hg (by decide) (write_class_array hr (by omega) hi hg _ _)) fun _ => ?_
      peel
      refine Wr.eLenAttr (w := W.int16 H) strict_int16 rfl rfl fun _ => ?_
      peel
      refine Wr.eLen (w := W.int16 H) strict_int16 fun _ => ?_
      peel
      refine Wr.elem (Wr.base hi hg (by decide) (write_int_16 hk (by omega) _ _)) fun _ => ?_
      peel
      refine Wr.ePointers (Wr.property hi (by decide +kernel) (DatFile_graphic_pointers (by omega))) fun _ => ?_
      peel
      refine Wr.elem (Wr.base hi hg (by decide) (write_int_32_seq hk (by omega) hi hg _)) fun _ => ?_
      peel
      refine Wr.eAttr (w := fun o => W.classArray H rec o ver) (strict_classArray _ _) rfl rfl fun _ => ?_
      peel
      refine Wr.elem (Wr.base hi hg (by decide) (write_class_array hr (by omega) hi hg _ _)) fun _ => ?_
      peel
      refine Wr.eAttr (w := fun o => W.cls rec o ver) (strict_cls _ _) rfl rfl fun _ => ?_
      peel
      refine Wr.elem (Wr.base hi hg (by decide) (write_class hr (by omega) _ _ _)) fun _ => ?_
      peel
      refine Wr.eAttr (w := fun o => W.cls rec o ver) (strict_cls _ _) rfl rfl fun _ => ?_
      peel
      refine Wr.elem (Wr.base hi hg (by decide) (write_class hr (by omega) _ _ _)) fun _ => ?_
      peel
      refine Wr.eLenAttr (w := W.int32 H) strict_int32 rfl rfl fun _ => ?_
      peel
      refine Wr.eLen (w := W.int32 H) strict_int32 fun _ => ?_
      peel
      refine Wr.elem (Wr.base hi hg (by decide) (write_int_32 hk (by omega) _ _)) fun _ => ?_
      peel
      refine Wr.eAttr (w := fun o => W.classArray H rec o ver) (strict_classArray _ _) rfl rfl fun _ => ?_
      peel
      refine Wr.elem (Wr.base hi hg (by decide) (write_class_array hr (by omega) hi hg _ _)) fun _ => ?_
      peel
      refine Wr.eLenAttr (w := W.int32 H) strict_int32 rfl rfl fun _ => ?_
      peel
      refine Wr.eLen (w := W.int32 H) strict_int32 fun _ => ?_
      peel
      refine Wr.elem (Wr.base hi hg (by decide) (write_int_32 hk (by omega) _ _)) fun _ => ?_
      peel
      refine Wr.eAttr (w := fun o => W.classArray H rec o ver) (strict_classArray _ _) rfl rfl fun _ => ?_
      peel
      refine Wr.elem (Wr.base hi hg (by decide) (write_class_array hr (by omega) hi hg _ _)) fun _ => ?_
      peel
      refine Wr.eLenAttr (w := W.int16 H) strict_int16 rfl rfl fun _ => ?_
      peel
      refine Wr.eLen (w := W.int16 H) strict_int16 fun _ => ?_
      peel
      refine Wr.elem (Wr.base hi hg (by decide) (write_int_16 hk (by omega) _ _)) fun _ => ?_
      peel
      refine Wr.eAttr (w := fun o => W.classArray H rec o ver) (strict_classArray _ _) rfl rfl fun _ => ?_
      peel
      refine Wr.elem (Wr.base hi hg (by decide) (write_class_array hr (by omega) hi hg _ _)) fun _ => ?_
      peel
      refine Wr.eLenAttr (w := W.int16 H) strict_int16 rfl rfl fun _ => ?_
      peel
      refine Wr.eLen (w := W.int16 H) strict_int16 fun _ => ?_
      peel
      refine Wr.elem (Wr.base hi hg (by decide) (write_int_16 hk (by omega) _ _)) fun _ => ?_
      peel
      refine Wr.eAttr (w := fun o => W.classArray H rec o ver) (strict_classArray _ _) rfl rfl fun _ => ?_
      peel
      refine Wr.elem (Wr.base hi hg (by decide) (write_class_array hr (by omega) hi hg _ _)) fun _ => ?_
      peel
      refine Wr.eAttr (w := W.int32 H) strict_int32 rfl rfl fun _ => ?_
      peel
      refine Wr.elem (Wr.base hi hg (by decide) (write_int_32 hk (by omega) _ _)) fun _ => ?_
      peel
      refine Wr.eAttr (w := W.int32 H) strict_int32 rfl rfl fun _ => ?_
      peel
      refine Wr.elem (Wr.base hi hg (by decide) (write_int_32 hk (by omega) _ _)) fun _ => ?_
      peel
      refine Wr.eAttr (w := W.int32 H) strict_int32 rfl rfl fun _ => ?_
      peel
      refine Wr.elem (Wr.base hi hg (by decide) (write_int_32 hk (by omega) _ _)) fun _ => ?_
      peel
      refine Wr.eAttr (w := W.int32 H) strict_int32 rfl rfl fun _ => ?_
      peel
      refine Wr.elem (Wr.base hi hg (by decide) (write_int_32 hk (by omega) _ _)) fun _ => ?_
      peel
      refine Wr.eAttr (w := W.int32 H) strict_int32 rfl rfl fun _ => ?_
      peel
      refine Wr.elem (Wr.base hi hg (by decide) (write_int_32 hk (by omega) _ _)) fun _ => ?_
      peel
      refine Wr.eAttr (w := W.int32 H) strict_int32 rfl rfl fun _ => ?_
      peel
      refine Wr.elem (Wr.base hi hg (by decide) (write_int_32 hk (by omega) _ _)) fun _ => ?_
      peel
      refine Wr.eAttr (w := W.int32 H) strict_int32 rfl rfl fun _ => ?_
      peel
      refine Wr.elem (Wr.base hi hg (by decide) (write_int_32 hk (by omega) _ _)) fun _ => ?_
      peel
      refine Wr.eAttr (w := fun o => W.cls rec o ver) (strict_cls _ _) rfl rfl fun _ => ?_
      peel
      refine Wr.elem (Wr.base hi hg (by decide) (write_class hr (by omega) _ _ _)) fun _ => ?_
      peel
      exact Wr.done' (by join_end)
  · rw [if_pos (by simpa using hab)]
    by_cases h0 : a = b
    · refine Wr.thenT (by simp; omega) ?_
      peel
      refine Wr.branchF (by simp; omega) ?_
      exact Wr.fail _
    · refine Wr.thenF (by simp; omega) ?_
      peel
      refine Wr.branchF (by simp; omega) ?_
      exact Wr.fail _

end Genie.Src
