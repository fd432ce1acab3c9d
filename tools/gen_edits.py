#!/usr/bin/env python3
"""Writes lean/Verif/Spec/Edits.lean: the places of a file (records within records) and the fields of every record."""
import sys
sys.path.insert(0, '/verif/tools')
from edits_common import *
from gen_classes import CL
ALL = CL + ['TerrainRestriction', 'DatFile']
def node(c): return '.file' if c == 'DatFile' else ('(.record (.TerrainRestriction n))' if c == 'TerrainRestriction' else f'(.record .{c})')
def nodep(c): return '.file' if c == 'DatFile' else ('.record (.TerrainRestriction _)' if c == 'TerrainRestriction' else f'.record .{c}')
ITEM = {'IsU8': 'u8', 'IsI16': 'i16', 'IsI32': 'i32', 'IsU32': 'u32', 'IsF32': 'f32'}
# slots: (name, parent, child, args, get, set)
def slots():
    out = []
    for c in ALL:
        for f, t in fields(c):
            k, since, d = classify(c, f, t)
            if k == 'records': out.append(('list', c, f, d[2]))
            elif k == 'slots': out.append(('slots', c, f, d[1]))
            elif k == 'record': out.append(('one', c, f, d))
            elif k == 'part': out.append(('part', c, f, d))
            elif (c, f) == ('Graphic', 'angle_sounds'): out.append(('list', c, f, 'GraphicAngleSound'))
            elif (c, f) == ('RandomMaps', 'map_info_2'): out.append(('list', c, f, 'MapInfo'))
            elif (c, f) == ('Tech', 'research_locations'): out.append(('list', c, f, 'ResearchLocation'))
            elif (c, f) == ('Creatable', 'train_locations'): out.append(('list', c, f, 'TrainLocation'))
            elif (c, f) == ('Unit', 'creatable'): out.append(('part', c, f, 'Creatable'))
            elif (c, f) == ('UnitHeaders', 'task_list'): out.append(('tasks', c, f, 'Task'))
            elif (c, f) == ('TerrainRestriction', 'terrain_pass_graphics'): out.append(('list', c, f, 'TerrainPassGraphic'))
            elif (c, f) == ('DatFile', 'terrain_restrictions'): out.append(('restr', c, f, 'TerrainRestriction'))
    return out
def obj(c): return f'Genie.{c}'
def main():
    S = slots()
    o = '''import Verif.Spec.ClassLayout
/-!
# Places in a file, and the fields of the records

What a user edits: a record somewhere in a file (`data.techs[22].resource_costs[0]`), and in it a field
(`.amount = 69`) or a list (generated by `tools/gen_edits.py`).

In Python, an edit changes the objects in place.  Here it gives a new file: a record is replaced in the record that contains it.
This is the same, provided that no object occurs in two places; the readers build a new object for every place.
-/

namespace Genie
open Layout

/-- The file, or a record in it. -/
inductive Node where
  | file
  | record (c : RecordClass)

namespace Node

/-- The objects. -/
abbrev Obj : Node → Type
  | file => DatFile
  | record c => c.Obj

/-- The items. -/
def layout : (n : Node) → Version → n.Obj → List Item
  | file => DatFile.layoutAt
  | record c => c.layout

/-- `to_bytes` (a file uses its own version). -/
def toBytes : (n : Node) → Version → n.Obj → Py Bytes
  | file => fun _ d => DatFile.toBytes d
  | record c => c.toBytes

/-- Well-formed, as part of a file of version `v`.  (A `Creatable` in a unit has the unit's hot key, before 8.8.) -/
def WF (v : Version) : (n : Node) → n.Obj → Prop
  | file => DatFile.WFAt v
  | record .Creatable => fun x => ∃ hot_key, Creatable.WFWith v hot_key x
  | record c => c.WF v

end Node

/-- The record at place `i` of a list with empty slots. -/
def slotAt (l : List (Option α)) (i : Nat) : Option α := l[i]?.join

/-- A record directly inside another one (or inside the file). -/
inductive Slot : Node → Node → Type where
'''
    for k, c, f, d in S:
        a = {'list': '(i : Nat) ', 'slots': '(i : Nat) ', 'tasks': '(i : Nat) ', 'restr': '(n i : Nat) '}.get(k, '')
        if c == 'TerrainRestriction': a = '(n i : Nat) '
        o += f'  | {c}_{f} {a}: Slot {node(c)} {node(d)}\n'
    o += '''
namespace Slot

/-- The record that is there, if any. -/
def get : Slot a b → a.Obj → Option b.Obj
'''
    for k, c, f, d in S:
        x = f'(x : {obj(c)})'
        ii = ' _ i' if c == 'TerrainRestriction' else ' i'
        if k == 'list': o += f'  | {c}_{f}{ii}, {x} => x.{f}[i]?\n'
        elif k == 'slots': o += f'  | {c}_{f} i, {x} => slotAt x.{f} i\n'
        elif k == 'one': o += f'  | {c}_{f}, {x} => some x.{f}\n'
        elif k == 'part': o += f'  | {c}_{f}, {x} => x.{f}\n'
        elif k == 'tasks': o += f'  | {c}_{f} i, {x} => x.{f}.bind (·[i]?)\n'
        else: o += f'  | {c}_{f} n i, {x} => x.{f}[i]?.filter (·.passable_buildable_dmg_multiplier.length = n)\n'
    o += '\n/-- Put another record there. -/\ndef set : Slot a b → a.Obj → b.Obj → a.Obj\n'
    for k, c, f, d in S:
        x = f'(x : {obj(c)}), (y : {obj(d)})'
        ii = ' _ i' if c == 'TerrainRestriction' else ' i'
        if k == 'list': o += f'  | {c}_{f}{ii}, {x} => {{ x with {f} := x.{f}.set i y }}\n'
        elif k == 'slots': o += f'  | {c}_{f} i, {x} => {{ x with {f} := x.{f}.set i (some y) }}\n'
        elif k == 'one': o += f'  | {c}_{f}, {x} => {{ x with {f} := y }}\n'
        elif k == 'part': o += f'  | {c}_{f}, {x} => {{ x with {f} := some y }}\n'
        elif k == 'tasks': o += f'  | {c}_{f} i, {x} => {{ x with {f} := x.{f}.map (·.set i y) }}\n'
        else: o += f'  | {c}_{f} _ i, {x} => {{ x with {f} := x.{f}.set i y }}\n'
    o += '''
/-- The record is stored in one piece: before 8.8 the single research location of a tech, and the single train location of a
unit, are not. -/
def Stored (v : Version) : Slot a b → Prop
  | Tech_research_locations _ => 88 ≤ v.num
  | Creatable_train_locations _ => 88 ≤ v.num
  | _ => True

/-- The new record does not affect anything outside itself.  The only cases where it could: a unit has the hot key of its first
train location, and a file has the number of terrains of its first terrain restriction. -/
def Keeps : Slot a b → a.Obj → b.Obj → Prop
  | Unit_creatable, (x : Genie.Unit), (y : Genie.Creatable) =>
    y.train_locations.head?.map (·.hot_key_id) = (x.creatable.bind (·.train_locations.head?)).map (·.hot_key_id)
  | DatFile_terrain_restrictions n _, _, (y : Genie.TerrainRestriction) => y.passable_buildable_dmg_multiplier.length = n
  | _, _, _ => True

end Slot

/-- A place: step by step from a record (or the file) to a record in it. -/
inductive Place : Node → Node → Type where
  | here : Place a a
  | step (s : Slot a b) (p : Place b c) : Place a c

namespace Place

/-- The record at the place. -/
def get : Place a b → a.Obj → Option b.Obj
  | here, x => some x
  | step s p, x => (s.get x).bind p.get

/-- Put another record there. -/
def set : Place a b → a.Obj → b.Obj → a.Obj
  | here, _, y => y
  | step s p, x, y => match s.get x with
    | none => x
    | some m => s.set x (p.set m y)

/-- Every record on the way is stored in one piece. -/
def Stored (v : Version) : Place a b → Prop
  | here => True
  | step s p => s.Stored v ∧ p.Stored v

/-- The new record does not affect anything outside the place. -/
def Keeps : Place a b → a.Obj → b.Obj → Prop
  | here, _, _ => True
  | step s p, x, y => match s.get x with
    | none => False
    | some m => p.Keeps m y ∧ s.Keeps x (p.set m y)

end Place

/-- The new record agrees with the old one in what its surroundings depend on: the hot key of a unit's first train location is
also that of the unit, and the number of terrains of the first terrain restriction is also stored in the file itself. -/
def Node.Kept : (n : Node) → n.Obj → n.Obj → Prop
  | .record .TrainLocation, (x : Genie.TrainLocation), (y : Genie.TrainLocation) => y.hot_key_id = x.hot_key_id
  | .record .Creatable, (x : Genie.Creatable), (y : Genie.Creatable) =>
    y.train_locations.head?.map (·.hot_key_id) = x.train_locations.head?.map (·.hot_key_id)
  | .record (.TerrainRestriction _), (x : Genie.TerrainRestriction), (y : Genie.TerrainRestriction) =>
    y.passable_buildable_dmg_multiplier.length = x.passable_buildable_dmg_multiplier.length
  | _, _, _ => True

/-- A numeric field of fixed size, with its name. -/
structure IntField (α : Type) where
  name : String
  width : Nat
  signed : Bool
  get : α → Int
  set : α → Int → α

/-- A float field (which may be absent). -/
structure FloatField (α : Type) where
  name : String
  get : α → Option PyFloat
  set : α → PyFloat → α

/-- A text field. -/
structure TextField (α : Type) where
  name : String
  get : α → PyStr
  set : α → PyStr → α

/-- A list: its elements, what is written for each of them, and which can be stored. -/
structure ListField (α : Type) where
  name : String
  Elem : Type
  get : α → List Elem
  set : α → List Elem → α
  items : Elem → List Item
  ok : Elem → Prop

namespace Node

'''
    def table(name, doc, ty, ent):
        nonlocal o
        o += f'/-- {doc} -/\ndef {name} (v : Version) : (n : Node) → List ({ty} n.Obj)\n'
        for c in ALL:
            es = [(s, e) for s, e in ent(c) if e]
            if not es: continue
            groups = []
            for s, e in es:
                if groups and groups[-1][0] == s: groups[-1][1].append(e)
                else: groups.append((s, [e]))
            # keep order simple: unconditional first
            un = [e for s, e in es if s is None]
            co = {}
            for s, e in es:
                if s is not None: co.setdefault(s, []).append(e)
            r = '[\n      ' + ',\n      '.join(un) + ']'
            for s, ee in co.items():
                cond = f'{s} ≤ v.num' if not isinstance(s, str) else s
                r += f' ++\n    if {cond} then [\n      ' + ',\n      '.join(ee) + '] else []'
            o += f'  | {nodep(c)} => {r}\n'
        o += '  | _ => []\n\n'
    def num(c):
        r = []
        for f, t in fields(c):
            k, s, d = classify(c, f, t)
            if k == 'int' and (c, f) not in CONTROL:
                r.append((s, f'⟨"{f}", {d[0]}, {d[1]}, fun (x : {obj(c)}) => x.{f}, fun x y => {{ x with {f} := y }}⟩'))
        return r
    def flo(c):
        r = []
        for f, t in fields(c):
            k, s, d = classify(c, f, t)
            if k == 'float': r.append((s, f'⟨"{f}", fun (x : {obj(c)}) => some x.{f}, fun x y => {{ x with {f} := y }}⟩'))
            if (c, f) == ('Unit', 'speed'): r.append((s, f'⟨"{f}", fun (x : {obj(c)}) => x.{f}, fun x y => {{ x with {f} := some y }}⟩'))
        return r
    def tex(c):
        r = []
        for f, t in fields(c):
            k, s, d = classify(c, f, t)
            if k == 'text': r.append((s, f'⟨"{f}", fun (x : {obj(c)}) => x.{f}, fun x y => {{ x with {f} := y }}⟩'))
        return r
    def lst(c, f, el, items, ok): return f'⟨"{f}", {el}, fun (x : {obj(c)}) => x.{f}, fun x l => {{ x with {f} := l }}, {items}, {ok}⟩'
    def entry(c, f, k, d):
        if k == 'scalars':
            return lst(c, f, 'PyFloat' if d[2] == 'IsF32' else 'Int', ITEM[d[2]], d[2])
        return lst(c, f, obj(d[2]), f'{d[2]}.layout v', f'{d[2]}.WF v')
    def fixed(c, alsoonly=None):
        r = []
        for f, t in fields(c):
            k, s, d = classify(c, f, t)
            if k in ('scalars', 'records') and d[0] == 'Exactly' and (c, f) not in PACKED_LISTS:
                r.append((s, f'({d[1]}, {entry(c, f, k, d)})'))
            if (c, f) == ('Bird', 'drop_sites'): r.append(('v.num < 78', '(3, ' + lst(c, f, 'Int', 'i16', 'IsI16') + ')'))
        if c == 'Bird': return r
        return r
    def counted(c):
        r = []
        for f, t in fields(c):
            k, s, d = classify(c, f, t)
            if c == 'MapInfo': continue
            if (c, f) == ('RandomMaps', 'map_info_1'): continue
            if k in ('scalars', 'records') and d[0] == 'UpTo':
                r.append((s, f'({d[1]}, {entry(c, f, k, d)})'))
            if (c, f) == ('Bird', 'drop_sites'): r.append((78, '(32767, ' + lst(c, f, 'Int', 'i16', 'IsI16') + ')'))
            if (c, f) == ('Tech', 'research_locations'): r.append((88, '(32767, ' + lst(c, f, obj('ResearchLocation'), 'ResearchLocation.layout v', 'ResearchLocation.WF v') + ')'))
            if (c, f) == ('Creatable', 'train_locations'): r.append((88, '(32767, ' + lst(c, f, obj('TrainLocation'), 'TrainLocation.layout v', 'TrainLocation.WF v') + ')'))
        return r
    def slotl(c):
        r = []
        for f, t in fields(c):
            k, s, d = classify(c, f, t)
            if k == 'slots':
                r.append((s, f'({d[0]}, ' + lst(c, f, f'(Option {obj(d[1])})', f'fun o => eachPresent ({d[1]}.layout v) [o]', f'IfSome ({d[1]}.WF v)') + ')'))
        return r
    table('intFields', 'The integer fields that a file of version `v` stores and that do not decide about anything else (such as a unit\'s type,\nwhich decides which parts it has).', 'IntField', num)
    table('floatFields', 'The float fields that a file of version `v` stores.', 'FloatField', flo)
    table('textFields', 'The text fields.', 'TextField', tex)
    pass
    table('fixedLists', 'The lists of fixed length, with that length, except for those in struct-packed blocks.', 'Nat × ListField', fixed)
    table('countedLists', 'The lists whose length is written in front of them, with the largest length.  (Without the lists of a random map, and the two\nlists of random maps and the terrain tables, which have to be edited together.)', 'Nat × ListField', counted)
    table('slotLists', 'The lists with empty slots, with the largest length.', 'Nat × ListField', slotl)
    o = o.replace('List (Nat × ListField n.Obj)', 'List (Nat × ListField n.Obj)')
    o += 'end Node\n\nend Genie\n'
    open(ROOT + 'Spec/Edits.lean', 'w').write(o)
if __name__ == '__main__': main()
