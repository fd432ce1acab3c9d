#!/usr/bin/env python3
"""Generates the well-formedness specifications and the two class lemmas (`X.rw`, `X.good`) of the
records whose readers are straight-line code.

Reads  lean/Verif/Model/*.lean
Writes lean/Verif/Spec/Records.lean and lean/Verif/Proof/Records/*.lean
Everything it writes is checked by Lean; nothing here is trusted.
"""
import re, sys, os
ROOT = os.path.join(os.path.dirname(__file__), '..', 'lean', 'Verif')

SCALAR = {
    'readInt8': ('IsU8', 'int8', 'u8', 255, 'isU8_len'),
    'readInt16': ('IsI16', 'int16', 'i16', 32767, 'isI16_len'),
    'readInt16 (signed := false)': ('IsU16', 'uint16', 'u16', 65535, 'isU16_len'),
    'readInt32': ('IsI32', 'int32', 'i32', 2147483647, 'isI32_len'),
    'readInt32 (signed := false)': ('IsU32', 'uint32', 'u32', 4294967295, 'isU32_len'),
    'readFloat': ('IsF32', 'float', None, None, None),
    'readDebugString': ('IsDebugStr', 'debugString', None, None, None),
}
TUPLE = {}
for n in (2, 3, 5, 6, 10): TUPLE[f'readInt8Array{n}'] = (n, 'IsU8', f'int8Array{n}')
for n in (2, 3, 4, 6): TUPLE[f'readInt16Array{n}'] = (n, 'IsI16', f'int16Array{n}')
TUPLE['readInt32Array10'] = (10, 'IsI32', 'int32Array10')
for n in (2, 3): TUPLE[f'readFloatArray{n}'] = (n, 'IsF32', f'floatArray{n}')
ARR = {'readInt8Array': ('IsU8', 'int8Array'), 'readInt16Array': ('IsI16', 'int16Array'),
       'readInt32Array': ('IsI32', 'int32Array'), 'readFloatArray': ('IsF32', 'floatArray')}
CONST = {'TILE_TYPE_COUNT': 19, 'TERRAIN_COUNT': 200, 'TERRAIN_UNITS_SIZE': 30}
CODEP = {'b': 'IsI8', 'h': 'IsI16', 'l': 'IsI32', 'f': 'IsF32'}

def load():
    txt = ''
    for f in sorted(os.listdir(f'{ROOT}/Model')):
        txt += open(f'{ROOT}/Model/{f}').read()
    return txt
TXT = load()
FMT = dict(re.findall(r'^def (\w+) : String := "<(\w+)"', TXT, re.M))

def struct_fields(cls):
    m = re.search(r'^structure %s where\n(.*?)deriving' % cls, TXT, re.M | re.S)
    return [tuple(l.strip().split(' : ', 1)) for l in m.group(1).strip().split('\n')]

def reader(name):
    m = re.search(r'^def %s\b.*? := do\n(.*?)\n\n' % re.escape(name), TXT, re.M | re.S)
    body = m.group(1)
    i = body.index('  return {')
    steps = []
    for l in body[:i].strip('\n').split('\n'):
        l = l.strip()
        if m := re.match(r'let vs ← unpackFrom (\w+) (\w+)$', l):
            steps.append(('unpack', m.group(1)))
        elif m := re.match(r'pop(Int|Float) vs fun (\w+) vs =>$', l):
            steps.append(('pop', m.group(2)))
        elif l == 'popDone vs do':
            steps.append(('done',))
        elif m := re.match(r'let (\w+) ← (.*)$', l):
            steps.append(('read', m.group(1), m.group(2)))
        else:
            steps.append(('other', l))
    ret = {}
    for f, e in re.findall(r'^    (\w+) := (.*?),?(?: \})?$', body[i:], re.M):
        ret[f] = e
    return steps, ret

def analyse(cls, rd=None):
    """list of steps with the field they feed; list of WF clauses"""
    steps, ret = reader(rd or cls + '.fromBytes')
    feeds = {}          # local variable -> (field, index or None)
    for f, e in ret.items():
        if e.startswith('['):
            for k, v in enumerate(e[1:-1].split(', ')): feeds[v] = (f, k)
        else: feeds[e] = (f, None)
    counts = {}
    for s in steps:
        if s[0] == 'read':
            w = s[2].split()
            if w[0] in ARR: counts.setdefault(w[1], s[1])
            if w[0] == 'readClassArray': counts.setdefault(w[2], s[1])
    return steps, ret, feeds, counts

def wf_clauses(cls, rd=None):
    steps, ret, feeds, counts = analyse(cls, rd)
    kinds = {s[1]: s[2] for s in steps if s[0] == 'read'}
    cl = {}
    codes = None; seen = set()
    for s in steps:
        if s[0] == 'unpack': codes = list(FMT[s[1]])
        elif s[0] == 'pop':
            c = codes.pop(0); f, k = feeds.get(s[1], (None, None))
            if f is None: continue
            if k is None: cl[f] = f'{CODEP[c]} x.{f}'
            else: cl[f] = f'Exactly {k+1} {CODEP[c]} x.{f}'
        elif s[0] == 'read':
            v, e = s[1], s[2]
            if v not in feeds: continue
            f, k = feeds[v]
            if e in SCALAR:
                if v in counts:
                    cl[f] = f'x.{f} = x.{feeds[counts[v]][0]}.length'
                else: cl[f] = f'{SCALAR[e][0]} x.{f}'
            elif e in TUPLE: cl[f] = f'Exactly {TUPLE[e][0]} {TUPLE[e][1]} x.{f}'
            else:
                w = e.split()
                if w[0] in ARR: p, cnt = ARR[w[0]][0], w[1]
                elif w[0] == 'readClassArray': p, cnt = f'({w[1].split(".")[0]}.WF v)', w[2]
                elif w[0] in ('readClassArray3', 'readClassArray4'):
                    p, cnt = f'({w[1].split(".")[0]}.WF v)', int(w[0][-1])
                elif w[0] == 'readClass':
                    cl[f] = f'{w[1].split(".")[0]}.WF v x.{f}'; continue
                else: raise Exception(f'{cls}: {e}')
                if isinstance(cnt, int): cl[f] = f'Exactly {cnt} {p} x.{f}'
                elif cnt in CONST: cl[f] = f'Exactly {CONST[cnt]} {p} x.{f}'
                else:
                    if counts[cnt] != v:
                        cl[f] = f'x.{f}.length = x.{feeds[counts[cnt]][0]}.length ∧ AllOf {p} x.{f}'
                    else: cl[f] = f'UpTo {SCALAR[kinds[cnt]][3]} {p} x.{f}'
    return [(f, cl[f]) for f, _ in struct_fields(cls)]

def spec(cls):
    o = f'/-- Values of `{cls}` the format can hold. -/\nstructure {cls}.WF (v : Version) (x : {cls}) : Prop where\n'
    for f, c in wf_clauses(cls): o += f'  {f} : {c}\n'
    return o

def codes_list(fmt): return '[' + ', '.join('Code.' + c for c in FMT[fmt]) + ']'

def proofs(cls, has_assert=False):
    steps, ret, feeds, counts = analyse(cls)
    fields = struct_fields(cls)
    kinds = {s[1]: s[2] for s in steps if s[0] == 'read'}
    tupf = {}
    for v, (f, k) in feeds.items():
        if k is not None: tupf.setdefault(f, []).append((k, v))
    # ---- RW
    o = f'theorem {cls}.rw {{v : Version}} {{x : {cls}}} (h : {cls}.WF v x) :\n'
    o += f'    RW v {cls}.fromBytes ({cls}.toBytes v x) x := by\n'
    o += f'  obtain ⟨{", ".join("x_" + f for f, _ in fields)}⟩ := x\n'
    o += f'  obtain ⟨{", ".join("h_" + f for f, _ in fields)}⟩ := h\n'
    o += f'  dsimp only at {" ".join("h_" + f for f, _ in fields)}\n'
    for f, kv in tupf.items():
        n = len(kv); es = [f'x_{f}_{i}' for i in range(n)]
        o += f'  obtain ⟨hl_{f}, h_{f}⟩ := h_{f}\n'
        o += f'  obtain ⟨{", ".join(es)}, rfl⟩ := length_eq_{n} hl_{f}\n'
    o += f'  unfold {cls}.fromBytes {cls}.toBytes\n'
    if has_assert: o += '  rw [if_neg (by ' + has_assert + ')]\n'
    i = 0
    only = len([s for s in steps if s[0] in ('read', 'unpack')]) == 1 and steps[0][0] == 'unpack'
    def rwlist(f, p, cnt, cls2=None):
        pass
    while i < len(steps):
        s = steps[i]
        if s[0] == 'unpack':
            codes = FMT[s[1]]; ms = []
            for j, c in enumerate(codes):
                v = steps[i + 1 + j][1]; f, k = feeds[v]
                ms.append(f'h_{f}' if k is None else f'h_{f} _ (by simp)')
            t = f'RW.unpack (cs := {codes_list(s[1])}) (by decide) (by decide)\n      ⟨{", ".join(ms)}, trivial⟩'
            o += f'  refine RW.{"map" if only else "bind"} ({t}) ?_\n'
            o += '  dsimp only [popInt, popFloat, popDone, List.map, List.cons_append, List.nil_append]\n'
            i += len(codes) + 2; continue
        assert s[0] == 'read', s
        v, e = s[1], s[2]
        if e in SCALAR:
            if v in counts:
                lf = feeds[counts[v]][0]
                t = f'RW.{SCALAR[e][1]} ({SCALAR[e][4]} h_{lf}.1)'
                if v in feeds: o += f'  subst h_{feeds[v][0]}\n'
            else: t = f'RW.{SCALAR[e][1]} h_{feeds[v][0]}'
        elif e in TUPLE: t = f'RW.{TUPLE[e][2]} h_{feeds[v][0]}'
        else:
            w = e.split(); f = feeds[v][0]
            if w[0] == 'readClass': t = f'RW.class_ ({w[1].split(".")[0]}.rw h_{f})'
            elif w[0][:-1] == 'readClassArray':
                t = f'RW.classArray{w[0][-1]} h_{f}.1 fun y hy => {w[1].split(".")[0]}.rw (h_{f}.2 y hy)'
            else:
                cnt = w[1] if w[0] in ARR else w[2]
                if cnt in CONST: pn = f'(by rw [h_{f}.1]; rfl)'
                elif counts[cnt] != v: pn = f'(by rw [h_{f}.1])'
                else: pn = 'rfl'
                if w[0] in ARR: t = f'RW.{ARR[w[0]][1]} {pn} h_{f}.2'
                else: t = f'RW.classArray {pn} fun y hy => {w[1].split(".")[0]}.rw (h_{f}.2 y hy)'
        o += f'  refine RW.bind ({t}) ?_\n'
        i += 1
    o += '  exact Reads.pure rfl\n' if only else '  exact RW.pure rfl\n'
    # ---- Good
    o += f'\ntheorem {cls}.good (v : Version) :\n'
    o += f'    Good v {cls}.fromBytes ({cls}.WF v) (fun x bs => {cls}.toBytes v x = .ok bs) := by\n'
    o += f'  unfold {cls}.fromBytes\n'
    i = 0
    evid = {}   # field -> proof of WF clause
    ks = []     # (kind) evidence names in order
    pre = []
    while i < len(steps):
        s = steps[i]
        if s[0] == 'unpack':
            codes = FMT[s[1]]
            o += f'  refine Good.bind (Good.unpack (cs := {codes_list(s[1])}) (by decide)) fun vs hm => ?_\n'
            for j, c in enumerate(codes):
                v = steps[i + 1 + j][1]
                o += f'  obtain ⟨{v}, vs, rfl, h_{v}, hm⟩ := hm.pop{c.upper()}\n'
            o += '  obtain rfl := hm.done\n  dsimp only [popInt, popFloat, popDone]\n'
            ks.append('plain'); i += len(codes) + 2; continue
        v, e = s[1], s[2]
        if e in SCALAR: o += f'  refine Good.bind Good.{SCALAR[e][1]} fun {v} h_{v} => ?_\n'; ks.append('plain')
        elif e in TUPLE: o += f'  refine Good.bind Good.{TUPLE[e][2]} fun {v} h_{v} => ?_\n'; ks.append('plain')
        else:
            w = e.split()
            if w[0] == 'readClass': t = f'Good.class_ ({w[1].split(".")[0]}.good v)'; ks.append('plain')
            elif w[0][:-1] == 'readClassArray':
                t = f'Good.{w[0][4].lower() + w[0][5:]} ({w[1].split(".")[0]}.good v)'; ks.append('plain')
            elif w[0] in ARR:
                t = f'Good.{ARR[w[0]][1]} _'
                ks.append('const' if w[1] in CONST else 'first' if counts[w[1]] == v else 'second')
            else:
                t = f'Good.classArray _ ({w[1].split(".")[0]}.good v)'
                ks.append('const' if w[2] in CONST else 'first' if counts[w[2]] == v else 'second')
            o += f'  refine Good.bind ({t}) fun {v} h_{v} => ?_\n'
        i += 1
    ev = []
    for f, _ in fields:
        ex = ret[f]
        if ex.startswith('['):
            vs = ex[1:-1].split(', ')
            ev.append('⟨rfl, by simp [AllOf, ' + ', '.join(f'h_{v}' for v in vs) + ']⟩')
            continue
        v = ex
        e = kinds.get(v)
        if e is None or e in TUPLE: ev.append(f'h_{v}'); continue
        if e in SCALAR:
            if v in counts: ev.append(f'by have := h_{counts[v]}.1; unfold {SCALAR[e][0]} at h_{v}; dsimp only; omega')
            else: ev.append(f'h_{v}')
            continue
        w = e.split()
        if w[0] == 'readClass' or w[0][:-1] == 'readClassArray': ev.append(f'h_{v}'); continue
        cnt = w[1] if w[0] in ARR else w[2]
        if cnt in CONST: ev.append(f'h_{v}')
        elif counts[cnt] != v: ev.append(f'⟨h_{v}.1.trans h_{counts[cnt]}.1.symm, h_{v}.2⟩')
        else: ev.append(f'upTo_{SCALAR[kinds[cnt]][2]} h_{cnt} h_{v}')
    o += '  refine Good.pure ⟨' + ', '.join(ev) + '⟩ ?_\n'
    pats = []
    for j in reversed(range(len(ks))):
        k = ks[j]
        if k == 'plain': pats.append(f'b{j} k{j}')
        elif k == 'first': pats.append(f'b{j} ⟨rfl, k{j}⟩')
        else: pats.append(f'b{j} ⟨l{j}, k{j}⟩')
    o += '  rintro ' + ' '.join(pats) + '\n'
    o += f'  unfold {cls}.toBytes\n'
    if has_assert:
        o += '  rw [if_neg (by dsimp only; omega)]\n'
    if only:
        o += '  rw [List.append_nil]; exact k0\n'
    else:
        # second lists: rewrite the count
        ex = 'rfl'
        for j in reversed(range(len(ks))): ex = f'(joinB_cons_ok k{j} {ex})'
        o += f'  exact {ex[1:-1]}\n'
    return o

GROUPS = [
  ('Misc', ['Model.Effect', 'Model.Sound', 'Model.PlayerColour', 'Model.Graphic', 'Model.TerrainRestriction'],
   ['EffectCommand', 'Effect', 'SoundItem', 'Sound', 'PlayerColour', 'GraphicDelta', 'GraphicAngleSound',
    'TerrainPassGraphic']),
  ('Terrain', ['Model.TerrainBlock'], ['FrameData', 'Terrain', 'TileSize', 'TerrainBlock']),
  ('RandomMaps', ['Model.RandomMaps'], ['MapUnit', 'MapTerrain', 'MapLand', 'MapElevation', 'MapInfo', 'RandomMaps']),
  ('TechTree', ['Model.TechTree', 'Model.Tech'], ['ResearchResourceCost', 'ResearchLocation', 'Common', 'TechTreeAge',
     'BuildingConnection', 'UnitConnection', 'ResearchConnection', 'TechTree']),
  ('UnitParts', ['Model.Unit'], ['ResourceStorage', 'DamageGraphic', 'DeadFish', 'AttackOrArmor', 'Projectile',
     'ResourceCost', 'BuildingAnnex', 'Building']),
]

def main():
    o = 'import Verif.Spec.Basic\n'
    for _, imps, _ in GROUPS:
        for i in imps: o += f'import Verif.{i}\n'
    o += '''/-!
# Well-formedness of the plain records

What values each field of each record can hold in the file format: integer ranges, floats that are
single-precision numbers, strings that fit a debug string, list lengths that fit their count field
(or are fixed).  (Generated by `tools/gen_records.py`; records with version- or type-dependent parts
are specified by hand in `Verif/Spec/Versioned.lean`.)
-/

namespace Genie

'''
    for _, _, cs in GROUPS:
        for c in cs: o += spec(c) + '\n'
    o += 'end Genie\n'
    open(f'{ROOT}/Spec/Records.lean', 'w').write(o)
    os.makedirs(f'{ROOT}/Proof/Records', exist_ok=True)
    for g, imps, cs in GROUPS:
        o = 'import Verif.Proof.Containers\nimport Verif.Spec.Records\n'
        o += f'''/-! # Write-read and read-write lemmas of the plain records ({g}); generated by `tools/gen_records.py` -/

namespace Genie

'''
        for c in cs:
            o += proofs(c, 'dsimp only; rw [h_map_info_2.1]; simp' if c == 'RandomMaps' else False) + '\n'
        o += 'end Genie\n'
        open(f'{ROOT}/Proof/Records/{g}.lean', 'w').write(o)

if __name__ == '__main__': main()
