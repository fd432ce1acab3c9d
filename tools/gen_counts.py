#!/usr/bin/env python3
"""Writes lean/Verif/Spec/Counts.lean: the counted lists of each class, with the largest number of elements."""
import re, sys
sys.path.insert(0, '/verif/tools')
from gen_layout import ORDER
from gen_classes import CL
from gen_sizes import body, flat
M = {'countU8': 255, 'countI16': 32767, 'countI32': 2147483647, 'countU32': 4294967295}
def counts(b): return [(M[k], f) for k, f in re.findall(r'(countU8|countI16|countI32|countU32) x\.(\w+)', b)]
def lst(cs): return '[' + ', '.join(f'({m}, x.{f}.length)' for m, f in cs) + ']'
def main():
    o = '''import Verif.Spec.Classes
/-!
# The counted lists

Lists whose number of elements is written in front of them: the largest number that can be written, and the actual number
(generated by `tools/gen_counts.py`).
-/

namespace Genie.RecordClass

/-- The counted lists of a record (not of the records in it). -/
def counted : (c : RecordClass) → Version → c.Obj → List (Nat × Nat)
'''
    for c in CL:
        b = body(c); cs = counts(b)
        if c == 'Tech':
            o += f'  | .Tech, v, (x : Genie.Tech) => if 88 ≤ v.num then {lst(cs)} else []\n'
        elif c == 'Creatable':
            o += f'  | .Creatable, v, (x : Genie.Creatable) => if 88 ≤ v.num then {lst(cs)} else []\n'
        elif c == 'Bird':
            assert [f for _, f in cs] == ['drop_sites', 'tasks']
            o += '  | .Bird, v, (x : Genie.Bird) => (32767, x.tasks.length) :: if 78 ≤ v.num then [(32767, x.drop_sites.length)] else []\n'
        elif c == 'UnitHeaders':
            o += '''  | .UnitHeaders, _, (x : Genie.UnitHeaders) =>
    if x.exists_ = 0 then [] else match x.task_list with | none => [] | some tasks => [(32767, tasks.length)]
'''
        elif cs: o += f'  | .{c}, _, (x : Genie.{c}) => {lst(cs)}\n'
    o += '  | _, _, _ => []\n\nend Genie.RecordClass\n\nnamespace Genie\n\n'
    TXT = open('/verif/lean/Verif/Spec/Layout.lean').read()
    b = re.search(r'^def DatFile\.layoutAt.*?:=\n(.*?)(?=\n\n)', TXT, re.M | re.S).group(1)
    cs = counts(b)
    assert cs[0][1] == 'terrain_restrictions'
    o += '/-- The counted lists of a file. -/\ndef DatFile.counted (x : DatFile) : List (Nat × Nat) :=\n  ' + lst(cs).replace('), (32767, x.player', '),\n   (32767, (x.terrain_restrictions.headD default).passable_buildable_dmg_multiplier.length), (32767, x.player').replace('), (', '),\n   (') + '\n\nend Genie\n'
    open('/verif/lean/Verif/Spec/Counts.lean', 'w').write(o)
main()
