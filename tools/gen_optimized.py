#!/usr/bin/env python3
"""Emit lean/Verif/Model/Optimized.lean: the readers and writers as `python -O` runs them (without `assert`).

The definitions that contain an assert, or call one that does, are copied from the model with the assert left out and
the names changed; everything else is shared with the model.
"""
import re, pathlib
M = pathlib.Path(__file__).resolve().parent.parent / 'lean' / 'Verif' / 'Model'
READ = [('Common', 'readDebugString'), ('Effect', 'Effect.fromBytes'), ('Sound', 'SoundItem.fromBytes'), ('Sound', 'Sound.fromBytes'),
        ('Graphic', 'Graphic.fromBytes'), ('TerrainBlock', 'Terrain.fromBytes'), ('TerrainBlock', 'TerrainBlock.fromBytes'),
        ('Tech', 'Tech.fromBytes84'), ('Tech', 'Tech.fromBytes88'), ('Tech', 'Tech.fromBytes'),
        ('Unit', 'Unit.fromBytes84'), ('Unit', 'Unit.fromBytes88'), ('Unit', 'Unit.fromBytes'), ('Civ', 'Civ.fromBytes'),
        ('Datfile', 'DatFile.fromBytes')]
WRITE = [('TerrainRestriction', 'TerrainRestriction.toBytes'), ('RandomMaps', 'RandomMaps.toBytes'), ('Datfile', 'DatFile.toBytesGiven')]
names = [n for _, n in READ + WRITE]

def grab(mod, name):
    s = (M / (mod + '.lean')).read_text()
    i = s.index('\ndef ' + name + ' ') + 1
    d = s.rindex('/--', 0, i)
    doc = s[d:i].strip()
    j = s.find('\n\n', i)
    return doc, s[i:j].strip()

out = ['import Verif.Model.Datfile', '/-!', '# `python -O`', '',
       'With `-O` Python leaves out `assert`.  The readers and writers that contain an assert, or call one that does, once more without it',
       '(generated by `tools/gen_optimized.py` from the model; all other functions are shared).', '-/', '', 'namespace Genie', '']
for mod, name in READ + WRITE:
    doc, body = grab(mod, name)
    for n in sorted(names, key=len, reverse=True):
        body = re.sub(r'(?<![\w.])' + re.escape(n) + r'(?![\w])', n + 'O', body)
    if name == 'readDebugString':
        body = body.replace("""  let tmp_size ← readInt16 (signed := false)
  if tmp_size ≠ 0x0A60 then raise .assertionError
  else do
    let size ← readInt16 (signed := false)
    let c ← consumeRange size.toNat
    noteLossy (decide (rstripNul c ≠ c))
    liftPy (String_from_bytes c)""", """  let _tmp_size ← readInt16 (signed := false)
  let size ← readInt16 (signed := false)
  let c ← consumeRange size.toNat
  noteLossy (decide (rstripNul c ≠ c))
  liftPy (String_from_bytes c)""")
    b0 = body
    body = re.sub(r'  if self\.[^\n]*then \.error \.assertionError\n  else joinB', '  joinB', body)
    body = re.sub(r'    if ¬ \(self\.float_ptr(.|\n)*?\.error \.assertionError\n    else\n', '', body)
    assert 'assertionError' not in body
    assert name not in ('TerrainRestriction.toBytes', 'RandomMaps.toBytes', 'DatFile.toBytesGiven') or body != b0
    ref = re.search(r'`(/repo[^`]*)`', doc)
    out += ['/-- `%s` — `%s`, without `assert`. -/' % (name.replace('fromBytes', 'from_bytes').replace('toBytesGiven', 'to_bytes').replace('toBytes', 'to_bytes').replace('readDebugString', 'read_debug_string'), ref.group(1)), body, '']
out += ['/-- `DatFile.to_bytes()` — `/repo/src/genieutils/datfile.py:120-160`, without `assert`. -/',
        'def DatFile.toBytesO (self : DatFile) : Py Bytes := self.toBytesGivenO .UNDEFINED', '', 'end Genie', '']
(M / 'Optimized.lean').write_text('\n'.join(out))
