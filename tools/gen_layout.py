#!/usr/bin/env python3
"""Writes lean/Verif/Spec/Layout.lean: the item sequence of each record.  The straight-line records are derived from the
class writers; the records with version- or type-dependent parts are given here by hand (HAND)."""
import re, sys
sys.path.insert(0, '/verif/tools')
from gen_records import TXT, FMT
PLAIN = ['EffectCommand','Effect','SoundItem','Sound','PlayerColour','GraphicDelta','GraphicAngleSound','Graphic',
 'TerrainPassGraphic','FrameData','Terrain','TileSize','TerrainBlock','MapUnit','MapTerrain','MapLand','MapElevation','MapInfo',
 'ResearchResourceCost','ResearchLocation','Common','TechTreeAge','BuildingConnection','UnitConnection','ResearchConnection',
 'TechTree','ResourceStorage','DamageGraphic','DeadFish','AttackOrArmor','Projectile','ResourceCost','BuildingAnnex','Building']
def body(name):
    m = re.search(r'^def %s \(version[^\n]*:=(?: do)?\n(.*?)(?=\n\n)' % re.escape(name), TXT, re.M | re.S)
    return m.group(1)
def split(s):
    out, d, cur = [], 0, ''
    for ch in s:
        if ch in '([{': d += 1
        if ch in ')]}': d -= 1
        if ch == ',' and d == 0: out.append(cur.strip()); cur = ''
        else: cur += ch
    if cur.strip(): out.append(cur.strip())
    return out
W = {'writeInt8':'u8','writeInt16':'i16','writeInt32':'i32','writeFloat':'f32','writeDebugString':'text'}
C = {'writeInt8':'countU8','writeInt16':'countI16','writeInt32':'countI32'}
def sub(e): return e.replace('self.', 'x.')
def vals(v): return re.sub(r'\s+', ' ', sub(v))
def item(e):
    e = ' '.join(e.split())
    if m := re.match(r'(\w+) (self\.\w+)\.length( \(signed := false\))?$', e):
        return f'{"countU32" if m[3] else C[m[1]]} {sub(m[2])}'
    if m := re.match(r'writeInt32 (self\.\w+) \(signed := false\)$', e): return f'u32 {sub(m[1])}'
    if m := re.match(r'(\w+)Array (self\.\w+)$', e): return f'each {W[m[1]]} {sub(m[2])}'
    if m := re.match(r'writeClassArray (\w+)\.toBytes (self\.\w+) version$', e): return f'each ({m[1]}.layout v) {sub(m[2])}'
    if m := re.match(r'writeClass (\w+)\.toBytes (self\.\w+) version$', e): return f'{m[1]}.layout v {sub(m[2])}'
    if m := re.match(r'structPack (\w+) \((.*)\)$', e): return f'block "{FMT[m[1]]}" ({vals(m[2])})'
    m = re.match(r'(\w+) (self\.\w+)$', e); return f'{W[m[1]]} {sub(m[2])}'
def wrap(s, ind=4, width=124):
    out, cur = [], ''
    for w in s.split(' '):
        if len(cur) + len(w) + 1 > width - ind: out.append(cur); cur = w
        else: cur = (cur + ' ' + w) if cur else w
    out.append(cur)
    return ('\n' + ' ' * (ind + 2)).join(out)
def items(b):
    b = b.strip()
    if b.startswith('structPack'): return None, item(b)
    m = re.match(r'joinB \[(.*)\]$', b, re.S)
    return [item(e) for e in split(m.group(1))], None
def emit(cls, b):
    its, single = items(b)
    s = f'/-- Items of a `{cls}`. -/\ndef {cls}.layout (v : Version) (x : {cls}) : List Item :=\n'
    if single: return s + '  ' + wrap(single, 2) + '\n'
    return s + '  List.flatten [\n' + ',\n'.join('    ' + wrap(i) for i in its) + ']\n'
def fl(its): return 'List.flatten [\n' + ',\n'.join('    ' + wrap(i) for i in its) + ']'
def args(name, which=0):
    ms = re.findall(r'structPack (\w+) \((.*?)\)\]?(?=,\n|\n|$)', body(name), re.S)
    f, a = ms[which]
    return FMT[f], vals(a)
out = {c: emit(c, body(c + '.toBytes')) for c in PLAIN}
H = {}
f84, a84 = args('Task.toBytes84'); f88, a88 = args('Task.toBytes88')
assert f88 == f84 + 'h' and a88 == a84[:-1] + ', .int x.enabled]'
H['Task'] = f'''/-- Items of a `Task`: `enabled` exists since 8.8 only. -/
def Task.layout (v : Version) (x : Task) : List Item :=
  block (if 88 ≤ v.num then "{f88}" else "{f84}")
    ({wrap(a84)}
      ++ if 88 ≤ v.num then [.int x.enabled] else [])
'''
its, _ = items(body('Tech.toBytes88')); its84, _ = items(re.search(r'joinB \[.*\]', body('Tech.toBytes84').replace('writeInt16 research_location,', 'writeInt16 self.research_location_,').replace('writeInt16 research_time,', 'writeInt16 self.research_time_,').replace('writeInt8 button_id,', 'writeInt8 self.button_id_,').replace('writeInt32 hot_key,', 'writeInt32 self.hot_key_,'), re.S).group(0))
loc = {'i16 x.research_location_':'i16 (x.location84.location_id)','i16 x.research_time_':'i16 (x.location84.research_time)','u8 x.button_id_':'u8 (x.location84.button_id)','i32 x.hot_key_':'i32 (x.location84.hot_key_id)'}
its84 = [loc.get(i, i) for i in its84]
H['Tech'] = f'''/-- The research location that a file before 8.8 has room for: the first one, or a default if there is none. -/
def Tech.location84 (x : Tech) : ResearchLocation :=
  match x.research_locations with
  | [] => {{ location_id := -1, research_time := 0, button_id := 0, hot_key_id := -1 }}
  | r :: _ => r

/-- Items of a `Tech`: before 8.8 the fields of a single research location are spread over the record. -/
def Tech.layout (v : Version) (x : Tech) : List Item :=
  if 88 ≤ v.num then {fl(its)}
  else {fl(its84)}
'''
birdl = fl([item(e) if not e.startswith('writeInt16If') else 'since v 78 (countI16 x.drop_sites)' for e in split(re.match(r'joinB \[(.*)\]$', body('Bird.toBytes').strip(), re.S).group(1))])
H['Bird'] = f'''/-- Items of a `Bird`: the number of drop sites is stored since 7.8. -/
def Bird.layout (v : Version) (x : Bird) : List Item :=
  {birdl}
'''
parts = split(re.match(r'joinB \[(.*)\]$', body('Type50.toBytes').strip(), re.S).group(1))
p1, _ = items(parts[0]); p2, _ = items(re.search(r'joinB \[.*?\]', parts[1], re.S).group(0))
H['Type50'] = f'''/-- Items of a `Type50`: the last five exist since 8.4. -/
def Type50.layout (v : Version) (x : Type50) : List Item :=
  {fl(p1 + ['since v 84 (List.flatten [' + ', '.join(p2) + '])'])}
'''
g84, b84 = args('TrainLocation.toBytes', 1) if False else ('hhb', None)
H['TrainLocation'] = '''/-- Items of a `TrainLocation`: the hot key exists since 8.8. -/
def TrainLocation.layout (v : Version) (x : TrainLocation) : List Item :=
  if 88 ≤ v.num then block "hhbl" [.int x.train_time, .int x.unit_id, .int x.button_id, .int x.hot_key_id]
  else block "hhb" [.int x.train_time, .int x.unit_id, .int x.button_id]
'''
def cre(n):
    f, a = args('Creatable.toBytes' + n)
    return f, a
c78, v78 = cre('78'); c84, v84 = cre('84'); c88, v88 = cre('88')
loc = '[.int train_location.train_time, .int train_location.unit_id, .int train_location.button_id, '
assert v78.startswith(loc) and v84.startswith(loc) and v84[len(loc):] == v88[1:], (v84, v88)
v78 = v78.replace('train_location.', 't.'); v84 = v84.replace('train_location.', 't.')
H['Creatable'] = f'''/-- Items of a `Creatable`: before 8.8 there is exactly one train location, spread over the record; some fields exist
since 8.4. -/
def Creatable.layout (v : Version) (x : Creatable) : List Item :=
  each (ResourceCost.layout v) x.resource_costs ++
  if 88 ≤ v.num then List.flatten [
    countI16 x.train_locations,
    each (TrainLocation.layout v) x.train_locations,
    block "{c88}" ({wrap(v88, 6)})]
  else match x.train_locations with
    | [] => requires False .indexError
    | t :: _ =>
      if 84 ≤ v.num then block "{c84}"
        ({wrap(v84, 6)})
      else block "{c78}"
        ({wrap(v78, 6)})
'''
u84f, u84 = args('Unit.toBytes84'); u88f, u88 = args('Unit.toBytes88')
assert u84.replace('.int x.hot_key, ', '') == u88, (u84, u88)
i = u84.index('.int x.hot_key, ')
uvals = u84[:i].rstrip(', ') + '] ++ (if 88 ≤ v.num then [] else [.int x.hot_key]) ++ [' + u84[i + len('.int x.hot_key, '):]
ub = body('Unit.toBytes88') if False else re.search(r'^def Unit\.toBytes88 .*?\n\n', TXT, re.M | re.S).group(0)
m = re.search(r'    joinB \[\n(.*?)      \.ok speed', ub, re.S)
ui = [item(e) for e in split(m.group(1))]
H['Unit'] = f'''/-- Items of a `Unit`: the hot key is stored in the unit before 8.8; which of the optional parts are written depends on the
unit type. -/
def Unit.layout (v : Version) (x : Unit) : List Item :=
  {fl([f'block (if 88 ≤ v.num then "{u88f}" else "{u84f}") ({uvals})'] + ui + [
  'part (x.type ≠ 90 ∧ 20 ≤ x.type) f32 x.speed',
  'part (x.type ≠ 90 ∧ 30 ≤ x.type) (DeadFish.layout v) x.dead_fish',
  'part (x.type ≠ 90 ∧ 40 ≤ x.type) (Bird.layout v) x.bird',
  'part (x.type ≠ 90 ∧ 50 ≤ x.type) (Type50.layout v) x.type_50',
  'part (x.type = 60) (Projectile.layout v) x.projectile',
  'part (x.type ≠ 90 ∧ 70 ≤ x.type) (Creatable.layout v) x.creatable',
  'part (x.type = 80) (Building.layout v) x.building'])}
'''
H['UnitHeaders'] = '''/-- Items of a `UnitHeaders`. -/
def UnitHeaders.layout (v : Version) (x : UnitHeaders) : List Item :=
  u8 x.exists_ ++ part (x.exists_ ≠ 0) (fun tasks => countI16 tasks ++ each (Task.layout v) tasks) x.task_list
'''
ci = [e for e in split(re.match(r'joinB \[(.*)\]$', body('Civ.toBytes').strip(), re.S).group(1))]
ci = ['pointers x.units' if 'unit_pointers' in e else 'eachPresent (Unit.layout v) x.units' if 'Opt' in e else item(e) for e in ci]
H['Civ'] = f'''/-- Items of a `Civ`. -/
def Civ.layout (v : Version) (x : Civ) : List Item :=
  {fl(ci)}
'''
H['TerrainRestriction'] = '''/-- Items of a `TerrainRestriction`. -/
def TerrainRestriction.layout (v : Version) (x : TerrainRestriction) : List Item :=
  List.flatten [
    requires (x.passable_buildable_dmg_multiplier.length = x.terrain_pass_graphics.length) .assertionError,
    each f32 x.passable_buildable_dmg_multiplier,
    each (TerrainPassGraphic.layout v) x.terrain_pass_graphics]
'''
H['RandomMaps'] = '''/-- Items of a `RandomMaps`. -/
def RandomMaps.layout (v : Version) (x : RandomMaps) : List Item :=
  List.flatten [
    requires (x.map_info_1.length = x.map_info_2.length) .assertionError,
    countU32 x.map_info_1,
    i32 x.random_maps_ptr,
    each (MapInfo.layout v) x.map_info_1,
    each (MapInfo.layout v) x.map_info_2]
'''
db = re.search(r'^def DatFile\.toBytes .*?\n\n', TXT, re.M | re.S).group(0)
di = split(re.search(r'    joinB \[\n(.*)\]', db, re.S).group(1))
rep = []
for e in di:
    if e.startswith('writeString'): rep.append('[.fixedText 8 x.version]')
    elif 'terrain_restrictions_size' in e: rep.append('countI16 x.terrain_restrictions')
    elif 'terrains_used' in e: rep.append('[.count 2 true x.terrainCount]')
    elif 'graphic_pointers' in e and 'pass' not in e: rep.append('pointers x.graphics')
    elif 'Opt' in e: rep.append('eachPresent (Graphic.layout v) x.graphics')
    else: rep.append(item(e))
H['DatFile'] = f'''/-- The number of terrains: that of the first terrain restriction. -/
def DatFile.terrainCount (x : DatFile) : Nat :=
  match x.terrain_restrictions with
  | [] => 0
  | r :: _ => r.passable_buildable_dmg_multiplier.length

/-- Items of a whole file of version `v`. -/
def DatFile.layoutAt (v : Version) (x : DatFile) : List Item :=
  {fl(['requires (x.float_ptr_terrain_tables.length = x.terrain_pass_graphic_pointers.length) .assertionError','requires (x.terrain_pass_graphic_pointers.length = x.terrain_restrictions.length) .assertionError'] + rep)}

/-- The version strings that can be written (`UNDEFINED` can, but is not accepted when reading). -/
def writableVersions : List (PyStr × Version) := (lit "UNDEFINED", .UNDEFINED) :: versionNames

/-- Items of a whole file: the version string decides the version. -/
def DatFile.layout (x : DatFile) : List Item :=
  match writableVersions.lookup x.version with
  | none => requires False .valueError
  | some v => x.layoutAt v
'''
ORDER = ['EffectCommand','Effect','SoundItem','Sound','PlayerColour','GraphicDelta','GraphicAngleSound','Graphic',
 'TerrainPassGraphic','TerrainRestriction','FrameData','Terrain','TileSize','TerrainBlock','MapUnit','MapTerrain','MapLand','MapElevation','MapInfo','RandomMaps',
 'ResearchResourceCost','ResearchLocation','Tech','Common','TechTreeAge','BuildingConnection','UnitConnection','ResearchConnection',
 'TechTree','Task','UnitHeaders','ResourceStorage','DamageGraphic','DeadFish','Bird','AttackOrArmor','Type50','Projectile','ResourceCost','TrainLocation','Creatable','BuildingAnnex','Building','Unit','Civ','DatFile']
if __name__ == '__main__':
    o = '''import Verif.Spec.Items
import Verif.Spec.Versioned
/-!
# The layout of every record

Which items a record consists of, in which order (generated by `tools/gen_layout.py`, then read against the repository).
Nothing here can fail or depends on how the code evaluates things: it is a list.
-/

namespace Genie
open Layout
set_option linter.unusedVariables false

'''
    for c in ORDER: o += (H.get(c) or out[c]) + '\n'
    o += 'end Genie\n'
    open('/verif/lean/Verif/Spec/Layout.lean', 'w').write(o)
