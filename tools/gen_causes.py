#!/usr/bin/env python3
"""Writes lean/Verif/Proof/Records/Plain.lean: which classes cause only the exceptions of single values."""
import sys
sys.path.insert(0, '/verif/tools')
from gen_layout import ORDER
SPECIAL = ['TerrainRestriction', 'RandomMaps', 'Creatable', 'Unit', 'Civ', 'DatFile']
def main():
    o = '''import Verif.Proof.Causes
/-! # Classes whose records cause only the exceptions of single values (generated by `tools/gen_causes.py`) -/

namespace Genie

'''
    for c in ORDER:
        if c in SPECIAL: continue
        if c == 'UnitHeaders':
            p = '''  unfold UnitHeaders.layout
  exact Plain.append (Plain.u8 _) (Plain.part (fun _ => Plain.append (Plain.countI16 _) (Plain.classesI _)) _)
'''
        else: p = f'  unfold {c}.layout; plain\n'
        o += f'''theorem {c}.plain (v : Version) (x : {c}) : Plain (x.layout v) := by
{p}instance : PlainLayout {c}.layout := ⟨{c}.plain⟩

'''
    o += 'end Genie\n'
    open('/verif/lean/Verif/Proof/Records/Plain.lean', 'w').write(o)
main()
