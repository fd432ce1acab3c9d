#!/usr/bin/env python3
"""Writes lean/Verif/Proof/Records/Writes.lean (proofs that each writer follows the layout of its class)."""
import sys
sys.path.insert(0, '/verif/tools')
from gen_layout import ORDER, PLAIN
HAND = {}
HAND['TerrainRestriction'] = '''theorem TerrainRestriction.writes (v : Version) (x : TerrainRestriction) : Writes (x.toBytes v) (x.layout v) := by
  unfold TerrainRestriction.toBytes TerrainRestriction.layout
  rw [ite_not, List.flatten_cons]
  refine Writes.requires ?_
  writes
'''
HAND['RandomMaps'] = '''theorem RandomMaps.writes (v : Version) (x : RandomMaps) : Writes (x.toBytes v) (x.layout v) := by
  unfold RandomMaps.toBytes RandomMaps.layout
  rw [ite_not, List.flatten_cons]
  refine Writes.requires ?_
  writes
'''
HAND['Tech'] = '''theorem Tech.writes (v : Version) (x : Tech) : Writes (x.toBytes v) (x.layout v) := by
  unfold Tech.toBytes Tech.layout
  refine Writes.ite (ge88_iff v) (fun _ _ => ?_) (fun _ _ => ?_)
  · unfold Tech.toBytes88; writes
  · unfold Tech.toBytes84 Tech.location84
    cases x.research_locations <;> dsimp only <;> writes
'''
HAND['Task'] = '''theorem Task.writes (v : Version) (x : Task) : Writes (x.toBytes v) (x.layout v) := by
  unfold Task.toBytes Task.layout
  by_cases h : 88 ≤ v.num
  · rw [if_pos ((ge88_iff v).2 h)]
    simp only [if_pos h]
    exact Writes.block _ (by decide +kernel)
  · rw [if_neg (fun k => h ((ge88_iff v).1 k))]
    simp only [if_neg h]
    exact Writes.block _ (by decide +kernel)
'''
HAND['UnitHeaders'] = '''theorem UnitHeaders.writes (v : Version) (x : UnitHeaders) : Writes (x.toBytes v) (x.layout v) := by
  unfold UnitHeaders.toBytes UnitHeaders.layout
  refine Writes.append (Writes.u8 _) ?_
  unfold writeIf Layout.part
  by_cases h : x.exists_ ≠ 0
  · simp only [if_pos h]
    cases x.task_list with
    | none => exact Writes.nil
    | some l => exact Writes.append (Writes.countI16 _) (by rw [joinB_single]; writes)
  · simp only [if_neg h]; exact Writes.nil
'''
HAND['Bird'] = '''theorem Bird.writes (v : Version) (x : Bird) : Writes (x.toBytes v) (x.layout v) := by
  unfold Bird.toBytes Bird.layout
  writes
'''
HAND['Type50'] = '''theorem Type50.writes (v : Version) (x : Type50) : Writes (x.toBytes v) (x.layout v) := by
  unfold Type50.toBytes Type50.layout
  rw [joinB_nest_left]
  dsimp only [List.cons_append, List.nil_append]
  writes
  unfold Layout.since
  exact Writes.ite (ge84_iff v) (fun _ _ => by writes) (fun _ _ => Writes.nil)
'''
HAND['TrainLocation'] = '''theorem TrainLocation.writes (v : Version) (x : TrainLocation) : Writes (x.toBytes v) (x.layout v) := by
  unfold TrainLocation.toBytes TrainLocation.layout
  exact Writes.ite (ge88_iff v) (fun _ _ => Writes.block _ (by decide +kernel)) (fun _ _ => Writes.block _ (by decide +kernel))
'''
HAND['Creatable'] = '''theorem Creatable.writes (v : Version) (x : Creatable) : Writes (x.toBytes v) (x.layout v) := by
  unfold Creatable.toBytes Creatable.layout
  by_cases h88 : 88 ≤ v.num
  · rw [if_pos ((ge88_iff v).2 h88), if_pos h88]
    unfold Creatable.toBytes88
    refine Writes.append (by writes) ?_
    writes
  · rw [if_neg (fun k => h88 ((ge88_iff v).1 k)), if_neg h88]
    by_cases h84 : 84 ≤ v.num
    · rw [if_pos ((ge84_iff v).2 h84)]
      unfold Creatable.toBytes84
      refine Writes.append (by writes) ?_
      rw [joinB_single]
      cases x.train_locations with
      | nil => exact Writes.fail
      | cons t ts => dsimp only; rw [if_pos h84]; exact Writes.block _ (by decide +kernel)
    · rw [if_neg (fun k => h84 ((ge84_iff v).1 k))]
      unfold Creatable.toBytes78
      refine Writes.append (by writes) ?_
      rw [joinB_single]
      cases x.train_locations with
      | nil => exact Writes.fail
      | cons t ts => dsimp only; rw [if_neg h84]; exact Writes.block _ (by decide +kernel)
'''
HAND['Unit'] = '''theorem Unit.writes (v : Version) (x : Unit) : Writes (x.toBytes v) (x.layout v) := by
  have e20 : x.type ≠ UnitType.AoeTrees ∧ x.type ≥ UnitType.Flag ↔ x.type ≠ 90 ∧ 20 ≤ x.type := Iff.rfl
  have e30 : x.type ≠ UnitType.AoeTrees ∧ x.type ≥ UnitType.Flag ∧ x.type ≥ UnitType.DeadFish ↔ x.type ≠ 90 ∧ 30 ≤ x.type := by
    unfold UnitType.AoeTrees UnitType.Flag UnitType.DeadFish; omega
  have e40 : x.type ≠ UnitType.AoeTrees ∧ x.type ≥ UnitType.Flag ∧ x.type ≥ UnitType.Bird ↔ x.type ≠ 90 ∧ 40 ≤ x.type := by
    unfold UnitType.AoeTrees UnitType.Flag UnitType.Bird; omega
  have e50 : x.type ≠ UnitType.AoeTrees ∧ x.type ≥ UnitType.Flag ∧ x.type ≥ UnitType.Combatant ↔ x.type ≠ 90 ∧ 50 ≤ x.type := by
    unfold UnitType.AoeTrees UnitType.Flag UnitType.Combatant; omega
  have e60 : x.type ≠ UnitType.AoeTrees ∧ x.type ≥ UnitType.Flag ∧ x.type = UnitType.Projectile ↔ x.type = 60 := by
    unfold UnitType.AoeTrees UnitType.Flag UnitType.Projectile; omega
  have e70 : x.type ≠ UnitType.AoeTrees ∧ x.type ≥ UnitType.Flag ∧ x.type ≥ UnitType.Creatable ↔ x.type ≠ 90 ∧ 70 ≤ x.type := by
    unfold UnitType.AoeTrees UnitType.Flag UnitType.Creatable; omega
  have e80 : x.type ≠ UnitType.AoeTrees ∧ x.type ≥ UnitType.Flag ∧ x.type = UnitType.Building ↔ x.type = 80 := by
    unfold UnitType.AoeTrees UnitType.Flag UnitType.Building; omega
  have p1 := Writes.part e20 (fun y => Writes.f32 y) x.speed
  have p2 := Writes.part e30 (fun y => Writes.classI (f := DeadFish.toBytes) (v := v) y) x.dead_fish
  have p3 := Writes.part e40 (fun y => Writes.classI (f := Bird.toBytes) (v := v) y) x.bird
  have p4 := Writes.part e50 (fun y => Writes.classI (f := Type50.toBytes) (v := v) y) x.type_50
  have p5 := Writes.part e60 (fun y => Writes.classI (f := Projectile.toBytes) (v := v) y) x.projectile
  have p6 := Writes.part e70 (fun y => Writes.classI (f := Creatable.toBytes) (v := v) y) x.creatable
  have p7 := Writes.part e80 (fun y => Writes.classI (f := Building.toBytes) (v := v) y) x.building
  unfold Unit.toBytes Unit.layout
  by_cases h : 88 ≤ v.num
  · rw [if_pos ((ge88_iff v).2 h)]
    unfold Unit.toBytes88
    simp only [if_pos h, List.append_nil]
    refine Writes.bindPart p1 (by inFlatten) fun s1 h1 => ?_
    refine Writes.bindPart p2 (by inFlatten) fun s2 h2 => ?_
    refine Writes.bindPart p3 (by inFlatten) fun s3 h3 => ?_
    refine Writes.bindPart p4 (by inFlatten) fun s4 h4 => ?_
    refine Writes.bindPart p5 (by inFlatten) fun s5 h5 => ?_
    refine Writes.bindPart p6 (by inFlatten) fun s6 h6 => ?_
    refine Writes.bindPart p7 (by inFlatten) fun s7 h7 => ?_
    rw [h1] at p1; rw [h2] at p2; rw [h3] at p3; rw [h4] at p4; rw [h5] at p5; rw [h6] at p6; rw [h7] at p7
    rw [joinB_nest]
    writes
    all_goals first
      | assumption
      | (simp only [List.append_assoc, List.cons_append, List.nil_append]; exact Writes.block _ (by decide +kernel))
  · rw [if_neg (fun k => h ((ge88_iff v).1 k))]
    unfold Unit.toBytes84
    simp only [if_neg h]
    refine Writes.bindPart p1 (by inFlatten) fun s1 h1 => ?_
    refine Writes.bindPart p2 (by inFlatten) fun s2 h2 => ?_
    refine Writes.bindPart p3 (by inFlatten) fun s3 h3 => ?_
    refine Writes.bindPart p4 (by inFlatten) fun s4 h4 => ?_
    refine Writes.bindPart p5 (by inFlatten) fun s5 h5 => ?_
    refine Writes.bindPart p6 (by inFlatten) fun s6 h6 => ?_
    refine Writes.bindPart p7 (by inFlatten) fun s7 h7 => ?_
    rw [h1] at p1; rw [h2] at p2; rw [h3] at p3; rw [h4] at p4; rw [h5] at p5; rw [h6] at p6; rw [h7] at p7
    rw [joinB_nest]
    writes
    all_goals first
      | assumption
      | (simp only [List.append_assoc, List.cons_append, List.nil_append]; exact Writes.block _ (by decide +kernel))
'''
HAND['Civ'] = '''theorem Civ.writes (v : Version) (x : Civ) : Writes (x.toBytes v) (x.layout v) := by
  unfold Civ.toBytes Civ.layout Civ.unit_pointers
  writes
  exact Writes.pointers rfl fun _ => rfl
'''
def main():
    o = '''import Verif.Proof.Writes
/-! # Every class writes its layout (generated by `tools/gen_writes.py`) -/

namespace Genie
'''
    for c in ORDER:
        if c == 'DatFile': continue
        if c in HAND: o += '\n' + HAND[c]
        else:
            o += f'''
theorem {c}.writes (v : Version) (x : {c}) : Writes (x.toBytes v) (x.layout v) := by
  unfold {c}.toBytes {c}.layout
  writes
'''
        o += f'instance : HasLayout {c}.toBytes {c}.layout := ⟨{c}.writes⟩\n'
    o += '\nend Genie\n'
    open('/verif/lean/Verif/Proof/Records/Writes.lean', 'w').write(o)
main()
