#!/usr/bin/env python3
"""Generates lean/Verif/Spec/Classes.lean (the table of all record classes) and
lean/Verif/Proof/Classes.lean."""
import re, os
ROOT = os.path.join(os.path.dirname(__file__), '..', 'lean', 'Verif')
CL = '''EffectCommand Effect SoundItem Sound PlayerColour GraphicDelta GraphicAngleSound Graphic
TerrainPassGraphic FrameData Terrain TileSize TerrainBlock MapUnit MapTerrain MapLand MapElevation MapInfo RandomMaps
ResearchResourceCost ResearchLocation Tech Common TechTreeAge BuildingConnection UnitConnection ResearchConnection TechTree
ResourceStorage DamageGraphic DeadFish Task Bird AttackOrArmor Type50 Projectile ResourceCost TrainLocation Creatable
BuildingAnnex Building Unit UnitHeaders Civ'''.split()
def table(head, f, tr):
    return head + ''.join(f'  | .{c} => {f(c)}\n' for c in CL) + f'  | .TerrainRestriction n => {tr}\n\n'
def main():
    o = '''import Verif.Spec.Versioned
/-!
# The table of all record classes

One constructor per class of the package with `from_bytes` and `to_bytes`, except `DatFile` (whose reader
sets the version itself).  `TerrainRestriction n` is the class read with `from_bytes_with_count(content, n)`.
(Generated by `tools/gen_classes.py`.)
-/

namespace Genie

/-- The record classes. -/
inductive RecordClass where
'''
    o += ''.join(f'  | {c}\n' for c in CL) + '  | TerrainRestriction (terrain_count : Nat)\n\nnamespace RecordClass\n\n'
    o += table('/-- The objects of a class. -/\nabbrev Obj : RecordClass → Type\n', lambda c: 'Genie.' + c, 'Genie.TerrainRestriction').replace('Restriction n =>', 'Restriction _ =>')
    o += table('/-- `from_bytes` of a class. -/\ndef fromBytes : (c : RecordClass) → Reader c.Obj\n', lambda c: f'Genie.{c}.fromBytes', 'Genie.TerrainRestriction.fromBytesWithCount n')
    o += table('/-- `to_bytes` of a class. -/\ndef toBytes : (c : RecordClass) → Version → c.Obj → Py Bytes\n', lambda c: f'Genie.{c}.toBytes', 'Genie.TerrainRestriction.toBytes').replace('Restriction n =>', 'Restriction _ =>')
    o += table('/-- The objects of a class that a file of the given version can hold. -/\ndef WF : (c : RecordClass) → Version → c.Obj → Prop\n', lambda c: f'Genie.{c}.WF', 'fun v => Genie.TerrainRestriction.WF v n')
    o += 'end RecordClass\nend Genie\n'
    open(f'{ROOT}/Spec/Classes.lean', 'w').write(o)
    o = '''import Verif.Spec.Classes
import Verif.Proof.Records.DatFile
/-! # The class lemmas, for the whole table (generated by `tools/gen_classes.py`) -/

namespace Genie.RecordClass

theorem rw (c : RecordClass) {v : Version} {x : c.Obj} (h : c.WF v x) :
    RW v c.fromBytes (c.toBytes v x) x := by
  cases c with
'''
    o += ''.join(f'  | {c} => exact Genie.{c}.rw h\n' for c in CL) + '  | TerrainRestriction n => exact Genie.TerrainRestriction.rw h\n\n'
    o += '''theorem good (c : RecordClass) (v : Version) :
    Good v c.fromBytes (c.WF v) (fun x bs => c.toBytes v x = .ok bs) := by
  cases c with
'''
    o += ''.join(f'  | {c} => exact Genie.{c}.good v\n' for c in CL) + '''  | TerrainRestriction n =>
    exact Good.mono (Genie.TerrainRestriction.good v n) (fun _ h => h) (fun _ _ _ h => h.2)

end Genie.RecordClass
'''
    open(f'{ROOT}/Proof/Classes.lean', 'w').write(o)
if __name__ == "__main__": main()
