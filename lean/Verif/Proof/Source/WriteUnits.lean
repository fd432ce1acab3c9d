import Verif.Proof.Source.WriteRules
/-!
# The source of `to_bytes` of the parts of a unit does what the model says

Written by `tools/gen_source_writers.py`.
-/

namespace Genie.Src

/-- `ResourceStorage.to_bytes` — `/repo/src/genieutils/unit.py:28-29`. -/
theorem ResourceStorage_to_bytes : WritesAs n!"ResourceStorage" ResourceStorage.write := by
  intro H s r n rec self ver hk hr h2 hn hi
  have hg : IsGenie n!"ResourceStorage" := IsGenie.of (by decide +kernel)
  write_fun
  refine Wr.pack ?_
  refine Wr.pArg (Wr.attr rfl rfl) fun _ => ?_
  peel
  refine Wr.pArg (Wr.attr rfl rfl) fun _ => ?_
  peel
  refine Wr.pArg (Wr.attr rfl rfl) fun _ => ?_
  peel
  refine Wr.packEnd (by decide) (by pack_args) fun _ => ?_
  peel
  exact Wr.done' rfl

/-- `DamageGraphic.to_bytes` — `/repo/src/genieutils/unit.py:53-54`. -/
theorem DamageGraphic_to_bytes : WritesAs n!"DamageGraphic" DamageGraphic.write := by
  intro H s r n rec self ver hk hr h2 hn hi
  have hg : IsGenie n!"DamageGraphic" := IsGenie.of (by decide +kernel)
  write_fun
  refine Wr.pack ?_
  refine Wr.pArg (Wr.attr rfl rfl) fun _ => ?_
  peel
  refine Wr.pArg (Wr.attr rfl rfl) fun _ => ?_
  peel
  refine Wr.pArg (Wr.attr rfl rfl) fun _ => ?_
  peel
  refine Wr.packEnd (by decide) (by pack_args) fun _ => ?_
  peel
  exact Wr.done' rfl

/-- `DeadFish.to_bytes` — `/repo/src/genieutils/unit.py:112-128`. -/
theorem DeadFish_to_bytes : WritesAs n!"DeadFish" DeadFish.write := by
  intro H s r n rec self ver hk hr h2 hn hi
  have hg : IsGenie n!"DeadFish" := IsGenie.of (by decide +kernel)
  write_fun
  refine Wr.pack ?_
  refine Wr.pArg (Wr.attr rfl rfl) fun _ => ?_
  peel
  refine Wr.pArg (Wr.attr rfl rfl) fun _ => ?_
  peel
  refine Wr.pArg (Wr.attr rfl rfl) fun _ => ?_
  peel
  refine Wr.pArg (Wr.attr rfl rfl) fun _ => ?_
  peel
  refine Wr.pArg (Wr.attr rfl rfl) fun _ => ?_
  peel
  refine Wr.pArg (Wr.attr rfl rfl) fun _ => ?_
  peel
  refine Wr.pArg (Wr.attr rfl rfl) fun _ => ?_
  peel
  refine Wr.pArg (Wr.attr rfl rfl) fun _ => ?_
  peel
  refine Wr.pArg (Wr.attr rfl rfl) fun _ => ?_
  peel
  refine Wr.pArg (Wr.attr rfl rfl) fun _ => ?_
  peel
  refine Wr.pArg (Wr.attr rfl rfl) fun _ => ?_
  peel
  refine Wr.pArg (Wr.attr rfl rfl) fun _ => ?_
  peel
  refine Wr.pArg (Wr.attr rfl rfl) fun _ => ?_
  peel
  refine Wr.pArg (Wr.attr rfl rfl) fun _ => ?_
  peel
  refine Wr.packEnd (by decide) (by pack_args) fun _ => ?_
  peel
  exact Wr.done' rfl

/-- `Bird.to_bytes` — `/repo/src/genieutils/unit.py:176-191`. -/
theorem Bird_to_bytes : WritesAs n!"Bird" Bird.write := by
  intro H s r n rec self ver hk hr h2 hn hi
  have hg : IsGenie n!"Bird" := IsGenie.of (by decide +kernel)
  write_fun
  refine Wr.join ?_
  refine Wr.eAttr (w := W.int16 H) strict_int16 rfl rfl fun _ => ?_
  peel
  refine Wr.elem (Wr.base hi hg (by decide) (write_int_16 hk (by omega) _ _)) fun _ => ?_
  peel
  refine Wr.eAttr (w := W.float) strict_float rfl rfl fun _ => ?_
  peel
  refine Wr.elem (Wr.base hi hg (by decide) (write_float (by omega) _ _)) fun _ => ?_
  peel
  refine Wr.eAttr (w := W.float) strict_float rfl rfl fun _ => ?_
  peel
  refine Wr.elem (Wr.base hi hg (by decide) (write_float (by omega) _ _)) fun _ => ?_
  peel
  refine Wr.eIfLenAttr rfl rfl fun _ => ?_
  peel
  refine Wr.eIfLen fun _ => ?_
  refine Wr.kwVersion78 ?_
  refine Wr.pureBind (Wr.version_ge (by omega) _ _) ?_
  peel
  refine Wr.elem (Wr.base hi hg (by decide) (write_int_16_if hk (by omega) _ _ _)) fun _ => ?_
  peel
  refine Wr.eAttr (w := W.int16Array H) strict_int16Array rfl rfl fun _ => ?_
  peel
  refine Wr.elem (Wr.base hi hg (by decide) (write_int_16_array hk (by omega) hi hg _)) fun _ => ?_
  peel
  refine Wr.eAttr (w := W.int8 H) strict_int8 rfl rfl fun _ => ?_
  peel
  refine Wr.elem (Wr.base hi hg (by decide) (write_int_8 hk (by omega) _ _)) fun _ => ?_
  peel
  refine Wr.eAttr (w := W.int16 H) strict_int16 rfl rfl fun _ => ?_
  peel
  refine Wr.elem (Wr.base hi hg (by decide) (write_int_16 hk (by omega) _ _)) fun _ => ?_
  peel
  refine Wr.eAttr (w := W.int16 H) strict_int16 rfl rfl fun _ => ?_
  peel
  refine Wr.elem (Wr.base hi hg (by decide) (write_int_16 hk (by omega) _ _)) fun _ => ?_
  peel
  refine Wr.eAttr (w := W.int32 H) strict_int32 rfl rfl fun _ => ?_
  peel
  refine Wr.elem (Wr.base hi hg (by decide) (write_int_32 hk (by omega) _ _)) fun _ => ?_
  peel
  refine Wr.eAttr (w := W.int32 H) strict_int32 rfl rfl fun _ => ?_
  peel
  refine Wr.elem (Wr.base hi hg (by decide) (write_int_32 hk (by omega) _ _)) fun _ => ?_
  peel
  refine Wr.eAttr (w := W.int8 H) strict_int8 rfl rfl fun _ => ?_
  peel
  refine Wr.elem (Wr.base hi hg (by decide) (write_int_8 hk (by omega) _ _)) fun _ => ?_
  peel
  refine Wr.eLenAttr (w := W.int16 H) strict_int16 rfl rfl fun _ => ?_
  peel
  refine Wr.eLen (w := W.int16 H) strict_int16 fun _ => ?_
  peel
  refine Wr.elem (Wr.base hi hg (by decide) (write_int_16 hk (by omega) _ _)) fun _ => ?_
  peel
  refine Wr.eAttr (w := fun o => W.classArray H rec o ver) (strict_classArray _ _) rfl rfl fun _ => ?_
  peel
  refine Wr.elem (Wr.base hi hg (by decide) (write_class_array hr (by omega) hi hg _ _)) fun _ => ?_
  peel
  exact Wr.done' (by join_end)

/-- `AttackOrArmor.to_bytes` — `/repo/src/genieutils/unit.py:211-212`. -/
theorem AttackOrArmor_to_bytes : WritesAs n!"AttackOrArmor" AttackOrArmor.write := by
  intro H s r n rec self ver hk hr h2 hn hi
  have hg : IsGenie n!"AttackOrArmor" := IsGenie.of (by decide +kernel)
  write_fun
  refine Wr.pack ?_
  refine Wr.pArg (Wr.attr rfl rfl) fun _ => ?_
  peel
  refine Wr.pArg (Wr.attr rfl rfl) fun _ => ?_
  peel
  refine Wr.packEnd (by decide) (by pack_args) fun _ => ?_
  peel
  exact Wr.done' rfl

/-- `Type50.to_bytes` — `/repo/src/genieutils/unit.py:312-347`. -/
theorem Type50_to_bytes : WritesAs n!"Type50" Type50.write := by
  intro H s r n rec self ver hk hr h2 hn hi
  have hg : IsGenie n!"Type50" := IsGenie.of (by decide +kernel)
  write_fun
  refine Wr.join ?_
  refine Wr.nested ?_
  refine Wr.eAttr (w := W.int16 H) strict_int16 rfl rfl fun _ => ?_
  peel
  refine Wr.elem (Wr.base hi hg (by decide) (write_int_16 hk (by omega) _ _)) fun _ => ?_
  peel
  refine Wr.eLenAttr (w := W.int16 H) strict_int16 rfl rfl fun _ => ?_
  peel
  refine Wr.eLen (w := W.int16 H) strict_int16 fun _ => ?_
  peel
  refine Wr.elem (Wr.base hi hg (by decide) (write_int_16 hk (by omega) _ _)) fun _ => ?_
  peel
  refine Wr.eAttr (w := fun o => W.classArray H rec o ver) (strict_classArray _ _) rfl rfl fun _ => ?_
  peel
  refine Wr.elem (Wr.base hi hg (by decide) (write_class_array hr (by omega) hi hg _ _)) fun _ => ?_
  peel
  refine Wr.eLenAttr (w := W.int16 H) strict_int16 rfl rfl fun _ => ?_
  peel
  refine Wr.eLen (w := W.int16 H) strict_int16 fun _ => ?_
  peel
  refine Wr.elem (Wr.base hi hg (by decide) (write_int_16 hk (by omega) _ _)) fun _ => ?_
  peel
  refine Wr.eAttr (w := fun o => W.classArray H rec o ver) (strict_classArray _ _) rfl rfl fun _ => ?_
  peel
  refine Wr.elem (Wr.base hi hg (by decide) (write_class_array hr (by omega) hi hg _ _)) fun _ => ?_
  peel
  refine Wr.eAttr (w := W.int16 H) strict_int16 rfl rfl fun _ => ?_
  peel
  refine Wr.elem (Wr.base hi hg (by decide) (write_int_16 hk (by omega) _ _)) fun _ => ?_
  peel
  refine Wr.eAttr (w := W.float) strict_float rfl rfl fun _ => ?_
  peel
  refine Wr.elem (Wr.base hi hg (by decide) (write_float (by omega) _ _)) fun _ => ?_
  peel
  refine Wr.eAttr (w := W.float) strict_float rfl rfl fun _ => ?_
  peel
  refine Wr.elem (Wr.base hi hg (by decide) (write_float (by omega) _ _)) fun _ => ?_
  peel
  refine Wr.eAttr (w := W.float) strict_float rfl rfl fun _ => ?_
  peel
  refine Wr.elem (Wr.base hi hg (by decide) (write_float (by omega) _ _)) fun _ => ?_
  peel
  refine Wr.eAttr (w := W.float) strict_float rfl rfl fun _ => ?_
  peel
  refine Wr.elem (Wr.base hi hg (by decide) (write_float (by omega) _ _)) fun _ => ?_
  peel
  refine Wr.eAttr (w := W.int16 H) strict_int16 rfl rfl fun _ => ?_
  peel
  refine Wr.elem (Wr.base hi hg (by decide) (write_int_16 hk (by omega) _ _)) fun _ => ?_
  peel
  refine Wr.eAttr (w := W.int16 H) strict_int16 rfl rfl fun _ => ?_
  peel
  refine Wr.elem (Wr.base hi hg (by decide) (write_int_16 hk (by omega) _ _)) fun _ => ?_
  peel
  refine Wr.eAttr (w := W.int8 H) strict_int8 rfl rfl fun _ => ?_
  peel
  refine Wr.elem (Wr.base hi hg (by decide) (write_int_8 hk (by omega) _ _)) fun _ => ?_
  peel
  refine Wr.eAttr (w := W.int16 H) strict_int16 rfl rfl fun _ => ?_
  peel
  refine Wr.elem (Wr.base hi hg (by decide) (write_int_16 hk (by omega) _ _)) fun _ => ?_
  peel
  refine Wr.eAttr (w := W.floatArray H) strict_floatArray rfl rfl fun _ => ?_
  peel
  refine Wr.elem (Wr.base hi hg (by decide) (write_float_array (by omega) hi hg _)) fun _ => ?_
  peel
  refine Wr.eAttr (w := W.int8 H) strict_int8 rfl rfl fun _ => ?_
  peel
  refine Wr.elem (Wr.base hi hg (by decide) (write_int_8 hk (by omega) _ _)) fun _ => ?_
  peel
  refine Wr.eAttr (w := W.float) strict_float rfl rfl fun _ => ?_
  peel
  refine Wr.elem (Wr.base hi hg (by decide) (write_float (by omega) _ _)) fun _ => ?_
  peel
  refine Wr.eAttr (w := W.float) strict_float rfl rfl fun _ => ?_
  peel
  refine Wr.elem (Wr.base hi hg (by decide) (write_float (by omega) _ _)) fun _ => ?_
  peel
  refine Wr.eAttr (w := W.int16 H) strict_int16 rfl rfl fun _ => ?_
  peel
  refine Wr.elem (Wr.base hi hg (by decide) (write_int_16 hk (by omega) _ _)) fun _ => ?_
  peel
  refine Wr.eAttr (w := W.int16 H) strict_int16 rfl rfl fun _ => ?_
  peel
  refine Wr.elem (Wr.base hi hg (by decide) (write_int_16 hk (by omega) _ _)) fun _ => ?_
  peel
  refine Wr.eAttr (w := W.int16 H) strict_int16 rfl rfl fun _ => ?_
  peel
  refine Wr.elem (Wr.base hi hg (by decide) (write_int_16 hk (by omega) _ _)) fun _ => ?_
  peel
  refine Wr.eAttr (w := W.float) strict_float rfl rfl fun _ => ?_
  peel
  refine Wr.elem (Wr.base hi hg (by decide) (write_float (by omega) _ _)) fun _ => ?_
  peel
  refine Wr.eAttr (w := W.float) strict_float rfl rfl fun _ => ?_
  peel
  refine Wr.elem (Wr.base hi hg (by decide) (write_float (by omega) _ _)) fun _ => ?_
  peel
  refine Wr.eAttr (w := W.float) strict_float rfl rfl fun _ => ?_
  peel
  refine Wr.elem (Wr.base hi hg (by decide) (write_float (by omega) _ _)) fun _ => ?_
  peel
  refine Wr.ifVersionElem (by omega) (fun _ => ?_) (fun _ => ?_)
  · peel
    refine Wr.nested ?_
    refine Wr.assoc ?_
    refine Wr.eAttr (w := W.float) strict_float rfl rfl fun _ => ?_
    peel
    refine Wr.assoc ?_
    refine Wr.elem (Wr.base hi hg (by decide) (write_float (by omega) _ _)) fun _ => ?_
    peel
    refine Wr.assoc ?_
    refine Wr.eAttr (w := W.float) strict_float rfl rfl fun _ => ?_
    peel
    refine Wr.assoc ?_
    refine Wr.elem (Wr.base hi hg (by decide) (write_float (by omega) _ _)) fun _ => ?_
    peel
    refine Wr.assoc ?_
    refine Wr.eAttr (w := W.int16 H) strict_int16 rfl rfl fun _ => ?_
    peel
    refine Wr.assoc ?_
    refine Wr.elem (Wr.base hi hg (by decide) (write_int_16 hk (by omega) _ _)) fun _ => ?_
    peel
    refine Wr.assoc ?_
    refine Wr.eAttr (w := W.float) strict_float rfl rfl fun _ => ?_
    peel
    refine Wr.assoc ?_
    refine Wr.elem (Wr.base hi hg (by decide) (write_float (by omega) _ _)) fun _ => ?_
    peel
    refine Wr.assoc ?_
    refine Wr.eAttr (w := W.int16 H) strict_int16 rfl rfl fun _ => ?_
    peel
    refine Wr.assoc ?_
    refine Wr.elem (Wr.base hi hg (by decide) (write_int_16 hk (by omega) _ _)) fun _ => ?_
    peel
    exact Wr.done' (by join_end)
  · peel
    refine Wr.known ?_
    exact Wr.done' (by join_end)

/-- `Projectile.to_bytes` — `/repo/src/genieutils/unit.py:380-388`. -/
theorem Projectile_to_bytes : WritesAs n!"Projectile" Projectile.write := by
  intro H s r n rec self ver hk hr h2 hn hi
  have hg : IsGenie n!"Projectile" := IsGenie.of (by decide +kernel)
  write_fun
  refine Wr.pack ?_
  refine Wr.pArg (Wr.attr rfl rfl) fun _ => ?_
  peel
  refine Wr.pArg (Wr.attr rfl rfl) fun _ => ?_
  peel
  refine Wr.pArg (Wr.attr rfl rfl) fun _ => ?_
  peel
  refine Wr.pArg (Wr.attr rfl rfl) fun _ => ?_
  peel
  refine Wr.pArg (Wr.attr rfl rfl) fun _ => ?_
  peel
  refine Wr.pArg (Wr.attr rfl rfl) fun _ => ?_
  peel
  refine Wr.packEnd (by decide) (by pack_args) fun _ => ?_
  peel
  exact Wr.done' rfl

/-- `ResourceCost.to_bytes` — `/repo/src/genieutils/unit.py:410-411`. -/
theorem ResourceCost_to_bytes : WritesAs n!"ResourceCost" ResourceCost.write := by
  intro H s r n rec self ver hk hr h2 hn hi
  have hg : IsGenie n!"ResourceCost" := IsGenie.of (by decide +kernel)
  write_fun
  refine Wr.pack ?_
  refine Wr.pArg (Wr.attr rfl rfl) fun _ => ?_
  peel
  refine Wr.pArg (Wr.attr rfl rfl) fun _ => ?_
  peel
  refine Wr.pArg (Wr.attr rfl rfl) fun _ => ?_
  peel
  refine Wr.packEnd (by decide) (by pack_args) fun _ => ?_
  peel
  exact Wr.done' rfl

/-- `Creatable.to_bytes_78` — `/repo/src/genieutils/unit.py:765-793`. -/
theorem Creatable_to_bytes_78 : WritesAs' n!"Creatable" n!"to_bytes_78" Creatable.write78 := by
  intro H s r n rec self ver hk hr h2 hn hi
  have hg : IsGenie n!"Creatable" := IsGenie.of (by decide +kernel)
  write_fun
  refine Wr.join ?_
  refine Wr.eAttr (w := fun o => W.classArray H rec o ver) (strict_classArray _ _) rfl rfl fun _ => ?_
  peel
  refine Wr.elem (Wr.base hi hg (by decide) (write_class_array hr (by omega) hi hg _ _)) fun _ => ?_
  peel
  refine Wr.packElem ?_
  refine Wr.pItemAttr rfl rfl fun _ => ?_
  peel
  refine Wr.pItem fun _ => ?_
  peel
  refine Wr.pArg (Wr.attr rfl rfl) fun _ => ?_
  peel
  refine Wr.pItemAttr rfl rfl fun _ => ?_
  peel
  refine Wr.pItem fun _ => ?_
  peel
  refine Wr.pArg (Wr.attr rfl rfl) fun _ => ?_
  peel
  refine Wr.pItemAttr rfl rfl fun _ => ?_
  peel
  refine Wr.pItem fun _ => ?_
  peel
  refine Wr.pArg (Wr.attr rfl rfl) fun _ => ?_
  peel
  refine Wr.pArg (Wr.attr rfl rfl) fun _ => ?_
  peel
  refine Wr.pArg (Wr.attr rfl rfl) fun _ => ?_
  peel
  refine Wr.pArg (Wr.attr rfl rfl) fun _ => ?_
  peel
  refine Wr.pArg (Wr.attr rfl rfl) fun _ => ?_
  peel
  refine Wr.pArg (Wr.attr rfl rfl) fun _ => ?_
  peel
  refine Wr.pArg (Wr.attr rfl rfl) fun _ => ?_
  peel
  refine Wr.pArg (Wr.attr rfl rfl) fun _ => ?_
  peel
  refine Wr.pArg (Wr.attr rfl rfl) fun _ => ?_
  peel
  refine Wr.pArg (Wr.attr rfl rfl) fun _ => ?_
  peel
  refine Wr.pArg (Wr.attr rfl rfl) fun _ => ?_
  peel
  refine Wr.pArg (Wr.attr rfl rfl) fun _ => ?_
  peel
  refine Wr.pArg (Wr.attr rfl rfl) fun _ => ?_
  peel
  refine Wr.pArg (Wr.attr rfl rfl) fun _ => ?_
  peel
  refine Wr.pArg (Wr.attr rfl rfl) fun _ => ?_
  peel
  refine Wr.pArg (Wr.attr rfl rfl) fun _ => ?_
  peel
  refine Wr.pArg (Wr.attr rfl rfl) fun _ => ?_
  peel
  refine Wr.pArg (Wr.attr rfl rfl) fun _ => ?_
  peel
  refine Wr.pStar (Wr.attr rfl rfl) fun _ => ?_
  peel
  refine Wr.pIter fun _ => ?_
  peel
  refine Wr.pArg (Wr.attr rfl rfl) fun _ => ?_
  peel
  refine Wr.pArg (Wr.attr rfl rfl) fun _ => ?_
  peel
  refine Wr.pArg (Wr.attr rfl rfl) fun _ => ?_
  peel
  refine Wr.pArg (Wr.attr rfl rfl) fun _ => ?_
  peel
  refine Wr.packEnd (by decide) (by pack_args) fun _ => ?_
  peel
  exact Wr.done' (by join_end)

/-- `Creatable.to_bytes_84` — `/repo/src/genieutils/unit.py:795-832`. -/
theorem Creatable_to_bytes_84 : WritesAs' n!"Creatable" n!"to_bytes_84" Creatable.write84 := by
  intro H s r n rec self ver hk hr h2 hn hi
  have hg : IsGenie n!"Creatable" := IsGenie.of (by decide +kernel)
  write_fun
  refine Wr.join ?_
  refine Wr.eAttr (w := fun o => W.classArray H rec o ver) (strict_classArray _ _) rfl rfl fun _ => ?_
  peel
  refine Wr.elem (Wr.base hi hg (by decide) (write_class_array hr (by omega) hi hg _ _)) fun _ => ?_
  peel
  refine Wr.packElem ?_
  refine Wr.pItemAttr rfl rfl fun _ => ?_
  peel
  refine Wr.pItem fun _ => ?_
  peel
  refine Wr.pArg (Wr.attr rfl rfl) fun _ => ?_
  peel
  refine Wr.pItemAttr rfl rfl fun _ => ?_
  peel
  refine Wr.pItem fun _ => ?_
  peel
  refine Wr.pArg (Wr.attr rfl rfl) fun _ => ?_
  peel
  refine Wr.pItemAttr rfl rfl fun _ => ?_
  peel
  refine Wr.pItem fun _ => ?_
  peel
  refine Wr.pArg (Wr.attr rfl rfl) fun _ => ?_
  peel
  refine Wr.pArg (Wr.attr rfl rfl) fun _ => ?_
  peel
  refine Wr.pArg (Wr.attr rfl rfl) fun _ => ?_
  peel
  refine Wr.pArg (Wr.attr rfl rfl) fun _ => ?_
  peel
  refine Wr.pArg (Wr.attr rfl rfl) fun _ => ?_
  peel
  refine Wr.pArg (Wr.attr rfl rfl) fun _ => ?_
  peel
  refine Wr.pArg (Wr.attr rfl rfl) fun _ => ?_
  peel
  refine Wr.pArg (Wr.attr rfl rfl) fun _ => ?_
  peel
  refine Wr.pArg (Wr.attr rfl rfl) fun _ => ?_
  peel
  refine Wr.pArg (Wr.attr rfl rfl) fun _ => ?_
  peel
  refine Wr.pArg (Wr.attr rfl rfl) fun _ => ?_
  peel
  refine Wr.pArg (Wr.attr rfl rfl) fun _ => ?_
  peel
  refine Wr.pArg (Wr.attr rfl rfl) fun _ => ?_
  peel
  refine Wr.pArg (Wr.attr rfl rfl) fun _ => ?_
  peel
  refine Wr.pArg (Wr.attr rfl rfl) fun _ => ?_
  peel
  refine Wr.pArg (Wr.attr rfl rfl) fun _ => ?_
  peel
  refine Wr.pArg (Wr.attr rfl rfl) fun _ => ?_
  peel
  refine Wr.pArg (Wr.attr rfl rfl) fun _ => ?_
  peel
  refine Wr.pArg (Wr.attr rfl rfl) fun _ => ?_
  peel
  refine Wr.pArg (Wr.attr rfl rfl) fun _ => ?_
  peel
  refine Wr.pArg (Wr.attr rfl rfl) fun _ => ?_
  peel
  refine Wr.pArg (Wr.attr rfl rfl) fun _ => ?_
  peel
  refine Wr.pArg (Wr.attr rfl rfl) fun _ => ?_
  peel
  refine Wr.pArg (Wr.attr rfl rfl) fun _ => ?_
  peel
  refine Wr.pArg (Wr.attr rfl rfl) fun _ => ?_
  peel
  refine Wr.pArg (Wr.attr rfl rfl) fun _ => ?_
  peel
  refine Wr.pArg (Wr.attr rfl rfl) fun _ => ?_
  peel
  refine Wr.pStar (Wr.attr rfl rfl) fun _ => ?_
  peel
  refine Wr.pIter fun _ => ?_
  peel
  refine Wr.pArg (Wr.attr rfl rfl) fun _ => ?_
  peel
  refine Wr.pArg (Wr.attr rfl rfl) fun _ => ?_
  peel
  refine Wr.pArg (Wr.attr rfl rfl) fun _ => ?_
  peel
  refine Wr.pArg (Wr.attr rfl rfl) fun _ => ?_
  peel
  refine Wr.packEnd (by decide) (by pack_args) fun _ => ?_
  peel
  exact Wr.done' (by join_end)

/-- `Creatable.to_bytes_88` — `/repo/src/genieutils/unit.py:834-870`. -/
theorem Creatable_to_bytes_88 : WritesAs' n!"Creatable" n!"to_bytes_88" Creatable.write88 := by
  intro H s r n rec self ver hk hr h2 hn hi
  have hg : IsGenie n!"Creatable" := IsGenie.of (by decide +kernel)
  write_fun
  refine Wr.join ?_
  refine Wr.eAttr (w := fun o => W.classArray H rec o ver) (strict_classArray _ _) rfl rfl fun _ => ?_
  peel
  refine Wr.elem (Wr.base hi hg (by decide) (write_class_array hr (by omega) hi hg _ _)) fun _ => ?_
  peel
  refine Wr.eLenAttr (w := W.int16 H) strict_int16 rfl rfl fun _ => ?_
  peel
  refine Wr.eLen (w := W.int16 H) strict_int16 fun _ => ?_
  peel
  refine Wr.elem (Wr.base hi hg (by decide) (write_int_16 hk (by omega) _ _)) fun _ => ?_
  refine Wr.add ?_
  peel
  refine Wr.eAttr (w := fun o => W.classArray H rec o ver) (strict_classArray _ _) rfl rfl fun _ => ?_
  peel
  refine Wr.elem (Wr.base hi hg (by decide) (write_class_array hr (by omega) hi hg _ _)) fun _ => ?_
  refine Wr.add ?_
  peel
  refine Wr.packElem ?_
  refine Wr.pArg (Wr.attr rfl rfl) fun _ => ?_
  peel
  refine Wr.pArg (Wr.attr rfl rfl) fun _ => ?_
  peel
  refine Wr.pArg (Wr.attr rfl rfl) fun _ => ?_
  peel
  refine Wr.pArg (Wr.attr rfl rfl) fun _ => ?_
  peel
  refine Wr.pArg (Wr.attr rfl rfl) fun _ => ?_
  peel
  refine Wr.pArg (Wr.attr rfl rfl) fun _ => ?_
  peel
  refine Wr.pArg (Wr.attr rfl rfl) fun _ => ?_
  peel
  refine Wr.pArg (Wr.attr rfl rfl) fun _ => ?_
  peel
  refine Wr.pArg (Wr.attr rfl rfl) fun _ => ?_
  peel
  refine Wr.pArg (Wr.attr rfl rfl) fun _ => ?_
  peel
  refine Wr.pArg (Wr.attr rfl rfl) fun _ => ?_
  peel
  refine Wr.pArg (Wr.attr rfl rfl) fun _ => ?_
  peel
  refine Wr.pArg (Wr.attr rfl rfl) fun _ => ?_
  peel
  refine Wr.pArg (Wr.attr rfl rfl) fun _ => ?_
  peel
  refine Wr.pArg (Wr.attr rfl rfl) fun _ => ?_
  peel
  refine Wr.pArg (Wr.attr rfl rfl) fun _ => ?_
  peel
  refine Wr.pArg (Wr.attr rfl rfl) fun _ => ?_
  peel
  refine Wr.pArg (Wr.attr rfl rfl) fun _ => ?_
  peel
  refine Wr.pArg (Wr.attr rfl rfl) fun _ => ?_
  peel
  refine Wr.pArg (Wr.attr rfl rfl) fun _ => ?_
  peel
  refine Wr.pArg (Wr.attr rfl rfl) fun _ => ?_
  peel
  refine Wr.pArg (Wr.attr rfl rfl) fun _ => ?_
  peel
  refine Wr.pArg (Wr.attr rfl rfl) fun _ => ?_
  peel
  refine Wr.pArg (Wr.attr rfl rfl) fun _ => ?_
  peel
  refine Wr.pArg (Wr.attr rfl rfl) fun _ => ?_
  peel
  refine Wr.pArg (Wr.attr rfl rfl) fun _ => ?_
  peel
  refine Wr.pStar (Wr.attr rfl rfl) fun _ => ?_
  peel
  refine Wr.pIter fun _ => ?_
  peel
  refine Wr.pArg (Wr.attr rfl rfl) fun _ => ?_
  peel
  refine Wr.pArg (Wr.attr rfl rfl) fun _ => ?_
  peel
  refine Wr.pArg (Wr.attr rfl rfl) fun _ => ?_
  peel
  refine Wr.pArg (Wr.attr rfl rfl) fun _ => ?_
  peel
  refine Wr.packEnd (by decide) (by pack_args) fun _ => ?_
  refine Wr.add ?_
  peel
  exact Wr.done' (by join_end)

/-- `Creatable.to_bytes` — `/repo/src/genieutils/unit.py:758-763`. -/
theorem Creatable_to_bytes : WritesAs n!"Creatable" Creatable.write := by
  intro H s r n rec self ver hk hr h2 hn hi
  have hg : IsGenie n!"Creatable" := IsGenie.of (by decide +kernel)
  write_fun
  refine Wr.ifVersion (by omega) (fun _ => ?_) (fun _ => ?_)
  · peel
    first | refine Wr.mapOk (φ := PVal.bytes) (Wr.method hi ?_) fun _ => ?_ | (refine Wr.assoc ?_; refine Wr.mapOk (φ := PVal.bytes) (Wr.method hi ?_) fun _ => ?_)
    · exact Creatable_to_bytes_88 ver hk hr h2 (by omega) hi
    · peel
      exact Wr.done' rfl
  · peel
    refine Wr.ifVersion (by omega) (fun _ => ?_) (fun _ => ?_)
    · peel
      first | refine Wr.mapOk (φ := PVal.bytes) (Wr.method hi ?_) fun _ => ?_ | (refine Wr.assoc ?_; refine Wr.mapOk (φ := PVal.bytes) (Wr.method hi ?_) fun _ => ?_)
      · exact Creatable_to_bytes_84 ver hk hr h2 (by omega) hi
      · peel
        exact Wr.done' rfl
    · peel
      first | refine Wr.mapOk (φ := PVal.bytes) (Wr.method hi ?_) fun _ => ?_ | (refine Wr.assoc ?_; refine Wr.mapOk (φ := PVal.bytes) (Wr.method hi ?_) fun _ => ?_)
      · exact Creatable_to_bytes_78 ver hk hr h2 (by omega) hi
      · peel
        exact Wr.done' rfl

/-- `BuildingAnnex.to_bytes` — `/repo/src/genieutils/unit.py:893-898`. -/
theorem BuildingAnnex_to_bytes : WritesAs n!"BuildingAnnex" BuildingAnnex.write := by
  intro H s r n rec self ver hk hr h2 hn hi
  have hg : IsGenie n!"BuildingAnnex" := IsGenie.of (by decide +kernel)
  write_fun
  refine Wr.pack ?_
  refine Wr.pArg (Wr.attr rfl rfl) fun _ => ?_
  peel
  refine Wr.pArg (Wr.attr rfl rfl) fun _ => ?_
  peel
  refine Wr.pArg (Wr.attr rfl rfl) fun _ => ?_
  peel
  refine Wr.packEnd (by decide) (by pack_args) fun _ => ?_
  peel
  exact Wr.done' rfl

/-- `Building.to_bytes` — `/repo/src/genieutils/unit.py:1010-1040`. -/
theorem Building_to_bytes : WritesAs n!"Building" Building.write := by
  intro H s r n rec self ver hk hr h2 hn hi
  have hg : IsGenie n!"Building" := IsGenie.of (by decide +kernel)
  write_fun
  refine Wr.join ?_
  refine Wr.packElem ?_
  refine Wr.pArg (Wr.attr rfl rfl) fun _ => ?_
  peel
  refine Wr.pArg (Wr.attr rfl rfl) fun _ => ?_
  peel
  refine Wr.pArg (Wr.attr rfl rfl) fun _ => ?_
  peel
  refine Wr.pArg (Wr.attr rfl rfl) fun _ => ?_
  peel
  refine Wr.pArg (Wr.attr rfl rfl) fun _ => ?_
  peel
  refine Wr.pArg (Wr.attr rfl rfl) fun _ => ?_
  peel
  refine Wr.pArg (Wr.attr rfl rfl) fun _ => ?_
  peel
  refine Wr.pArg (Wr.attr rfl rfl) fun _ => ?_
  peel
  refine Wr.pArg (Wr.attr rfl rfl) fun _ => ?_
  peel
  refine Wr.pArg (Wr.attr rfl rfl) fun _ => ?_
  peel
  refine Wr.pArg (Wr.attr rfl rfl) fun _ => ?_
  peel
  refine Wr.pArg (Wr.attr rfl rfl) fun _ => ?_
  peel
  refine Wr.pArg (Wr.attr rfl rfl) fun _ => ?_
  peel
  refine Wr.pArg (Wr.attr rfl rfl) fun _ => ?_
  peel
  refine Wr.packEnd (by decide) (by pack_args) fun _ => ?_
  peel
  refine Wr.eAttr (w := fun o => W.classArray H rec o ver) (strict_classArray _ _) rfl rfl fun _ => ?_
  peel
  refine Wr.elem (Wr.base hi hg (by decide) (write_class_array hr (by omega) hi hg _ _)) fun _ => ?_
  refine Wr.add ?_
  peel
  refine Wr.packElem ?_
  refine Wr.pArg (Wr.attr rfl rfl) fun _ => ?_
  peel
  refine Wr.pArg (Wr.attr rfl rfl) fun _ => ?_
  peel
  refine Wr.pArg (Wr.attr rfl rfl) fun _ => ?_
  peel
  refine Wr.pArg (Wr.attr rfl rfl) fun _ => ?_
  peel
  refine Wr.pArg (Wr.attr rfl rfl) fun _ => ?_
  peel
  refine Wr.pArg (Wr.attr rfl rfl) fun _ => ?_
  peel
  refine Wr.pArg (Wr.attr rfl rfl) fun _ => ?_
  peel
  refine Wr.pArg (Wr.attr rfl rfl) fun _ => ?_
  peel
  refine Wr.pArg (Wr.attr rfl rfl) fun _ => ?_
  peel
  refine Wr.pArg (Wr.attr rfl rfl) fun _ => ?_
  peel
  refine Wr.pStar (Wr.attr rfl rfl) fun _ => ?_
  peel
  refine Wr.pIter fun _ => ?_
  peel
  refine Wr.packEnd (by decide) (by pack_args) fun _ => ?_
  refine Wr.add ?_
  peel
  exact Wr.done' (by join_end)

end Genie.Src
