#!/usr/bin/env python3
"""Writes lean/Verif/Proof/Source/WriteRecords.lean and WriteUnits.lean: for every `to_bytes` function a proof that its source does what the
function of Verif/Model/HeapWriters.lean does.  The proofs follow the elements of the model function."""
import re
src = open('/verif/lean/Verif/Model/HeapWriters.lean').read()
SPECIAL = {'Tech.write', 'Unit.write', 'Tech.write84', 'UnitHeaders.write', 'DatFile.write', 'Unit.write84', 'Unit.write88', 'TerrainRestriction.write', 'RandomMaps.write', 'TrainLocation.write', 'Civ.write'}
UNIT_PART = {'ResourceStorage', 'DamageGraphic', 'DeadFish', 'Bird', 'AttackOrArmor', 'Type50', 'Projectile', 'ResourceCost', 'TrainLocation', 'Creatable', 'BuildingAnnex', 'Building'}

def tokens(t):
    return re.findall(r'"[^"]*"|:=|[()\[\],]|[^\s()\[\],"]+', t)

class P:
    def __init__(self, t): self.t = tokens(t); self.i = 0
    def peek(self): return self.t[self.i] if self.i < len(self.t) else None
    def next(self): self.i += 1; return self.t[self.i - 1]
    def expr(self):
        if self.peek() == 'if':
            self.next(); c = self.app(); assert self.next() == 'then'
            a = self.expr(); assert self.next() == 'else'
            return ('if', c, a, self.expr())
        return self.app()
    def app(self):
        xs = []
        while self.peek() not in (None, ')', ']', ',', 'then', 'else', ':='):
            xs.append(self.atom())
        return xs[0] if len(xs) == 1 else xs
    def atom(self):
        x = self.next()
        if x == '(':
            if self.t[self.i + 1] == ':=':
                n = self.next(); self.next(); v = self.app(); assert self.next() == ')'
                return ('named', n, v)
            e = self.expr(); assert self.next() == ')'
            return e
        if x == '[':
            xs = []
            while self.peek() != ']':
                xs.append(self.expr())
                if self.peek() == ',': self.next()
            self.next()
            return ('list', xs)
        return x

SIMPLE = {
    'W.float': ('W.float', 'strict_float', 'write_float (by omega) _ _'),
    'W.debugString': ('W.debugString', 'strict_debugString', 'write_debug_string hk (by omega) hi hg _'),
    'W.int8': ('W.int8 H', 'strict_int8', 'write_int_8 hk (by omega) _ _'),
    'W.int16': ('W.int16 H', 'strict_int16', 'write_int_16 hk (by omega) _ _'),
    'W.int32': ('W.int32 H', 'strict_int32', 'write_int_32 hk (by omega) _ _'),
    'W.int8Array': ('W.int8Array H', 'strict_int8Array', 'write_int_8_array hk (by omega) hi hg _'),
    'W.int16Array': ('W.int16Array H', 'strict_int16Array', 'write_int_16_array hk (by omega) hi hg _'),
    'W.int32Array': ('W.int32Array H', 'strict_int32Array', 'write_int_32_array hk (by omega) hi hg _'),
    'W.floatArray': ('W.floatArray H', 'strict_floatArray', 'write_float_array (by omega) hi hg _'),
}

def is_attr(e): return isinstance(e, list) and e[0] == 'W.attr' and e[2] == 'self'
def is_len(e): return isinstance(e, list) and e[0] == 'W.nat' and e[1][0] == 'W.len' and is_attr(e[1][2])

def elem(e, out, ver='version'):
    """the steps for one element of joinA"""
    if isinstance(e, tuple) and e[0] == 'if':
        assert e[1][0] == 'version.ge'
        out.append('refine Wr.ifVersionElem (by omega) (fun _ => ?_) (fun _ => ?_)')
        for b in (e[2], e[3]):
            sub = ['peel']
            elem(b, sub)
            sub = [y for x in sub for y in (['refine Wr.assoc ?_', x] if x.startswith(('refine Wr.eAttr', 'refine Wr.elem')) else [x])]
            sub.append('@end')
            out.append(sub)
        return 'split'
    if e[0] == '.ok':
        out.append('refine Wr.known ?_'); return
    if e[0] == 'joinB':
        out.append('refine Wr.nested ?_')
        for x in e[1][1]: elem(x, out)
        return
    if e[0] == 'W.pack':
        out.append('refine Wr.packElem ?_')
        pack(e, out); return
    h = e[0]
    if h in SIMPLE:
        w, st, lem = SIMPLE[h]
        arg = e[1] if h in ('W.float', 'W.debugString') else e[2]
        if isinstance(e[-1], tuple) and e[-1][0] == 'named':
            assert e[-1][1:] == ('signed', 'false'), e
            w, st, lem = f'fun o => {w} o false', f'({st}s false)', lem.split()[0] + '_signed hk (by omega) _ _ false'
    elif h == 'W.cls':
        arg = e[2]; w, st, lem = f'fun o => W.cls rec o {ver}', '(strict_cls _ _)', 'write_class hr (by omega) _ _ _'
    elif h == 'W.classArray':
        arg = e[3]; w, st, lem = f'fun o => W.classArray H rec o {ver}', '(strict_classArray _ _)', 'write_class_array hr (by omega) hi hg _ _'
    elif h == 'W.string':
        arg = e[2]; w, st, lem = f'W.string 8', '(strict_string _)', 'write_string (by omega) _ _'
    elif h == 'W.int16If':
        arg = e[2]; w, st, lem = f'fun o => W.int16If H o (ver.ge {e[3][1]})', '(strict_int16If _)', 'write_int_16_if hk (by omega) _ _ _'
    elif h == 'W.pointers':
        out.append('refine Wr.pointers hk hi hg (by omega) rfl rfl rfl rfl (fun _ => ?_)'); out.append('peel'); return
    else:
        raise Exception(str(e))
    if is_attr(arg):
        out.append(f'refine Wr.eAttr (w := {w}) {st} rfl rfl fun _ => ?_'); out.append('peel')
    elif is_len(arg) and h == 'W.int16If':
        out += ['refine Wr.eIfLenAttr rfl rfl fun _ => ?_', 'peel', 'refine Wr.eIfLen fun _ => ?_', 'refine Wr.kwVersion78 ?_']
        out += ['refine Wr.pureBind (Wr.version_ge (by omega) _ _) ?_', 'peel']
    elif is_len(arg):
        out.append(f'refine Wr.eLenAttr (w := {w}) {st} rfl rfl fun _ => ?_'); out.append('peel')
        out.append(f'refine Wr.eLen (w := {w}) {st} fun _ => ?_'); out.append('peel')
    elif arg[0] == '.ok':
        pass
    else:
        raise Exception(str(e))
    out.append(f'refine Wr.elem (Wr.base hi hg (by decide) ({lem})) fun _ => ?_'); out.append('peel')

def pack(e, out):
    for a in e[2][1]:
        if a[0] == 'W.arg' and is_attr(a[1]):
            out.append('refine Wr.pArg (Wr.attr rfl rfl) fun _ => ?_'); out.append('peel')
        elif a[0] == 'W.arg' and a[1][0] == 'W.attrOf':
            out.append('refine Wr.pItemAttr rfl rfl fun _ => ?_'); out.append('peel')
            out.append('refine Wr.pItem fun _ => ?_'); out.append('peel')
            out.append('refine Wr.pArg (Wr.attr rfl rfl) fun _ => ?_'); out.append('peel')
        elif a[0] == 'W.iter':
            out.append('refine Wr.pStar (Wr.attr rfl rfl) fun _ => ?_'); out.append('peel')
            out.append('refine Wr.pIter fun _ => ?_'); out.append('peel')
        else:
            raise Exception(str(a))
    out.append('refine Wr.packEnd (by decide) (by pack_args) fun _ => ?_'); out.append('peel')

def render(out, ind, flat):
    s = ''
    for x in out:
        if isinstance(x, list):
            body = render(x, ind + '  ', flat)
            s += ind + '· ' + body[len(ind) + 2:]
        elif x == '@end':
            s += ind + "exact Wr.done' (by join_end)\n"
        else:
            s += ind + x + '\n'
    return s

HEAD = '''import Verif.Proof.Source.%s
/-!
# The source of `to_bytes` %s does what the model says

Written by `tools/gen_source_writers.py`.
-/

namespace Genie.Src

'''
files = {'WriteRecords': '', 'WriteUnits': ''}
for m in re.finditer(r"/-- (`\w+\.to_bytes\w*` — `[^`]*`)\.[^\n]*-/\ndef (\w+)\.(write\d*) [^\n]*?:=( do)?\n((?:  .*\n?)+)", src):
    doc, c, f, do, body = m[1], m[2], m[3], m[4], m[5]
    if f'{c}.{f}' in SPECIAL:
        print('special', c, f); continue
    fn = 'to_bytes' + (('_' + f[5:]) if f != 'write' else '')
    p = P(body); e = p.expr(); assert p.i == len(p.t), (c, p.t[p.i:])
    out = []
    end = True
    if isinstance(e, tuple) and e[0] == 'if':
        def disp(e, out):
            if isinstance(e, tuple) and e[0] == 'if':
                out.append('refine Wr.ifVersion (by omega) (fun _ => ?_) (fun _ => ?_)')
                for b in (e[2], e[3]):
                    sub = ['peel']; disp(b, sub); out.append(sub)
            else:
                g = e[0].split('.')[1]
                out.append('first | refine Wr.mapOk (φ := PVal.bytes) (Wr.method hi ?_) fun _ => ?_ | (refine Wr.assoc ?_; refine Wr.mapOk (φ := PVal.bytes) (Wr.method hi ?_) fun _ => ?_)')
                out.append([f'exact {c}_to_bytes_{g[5:]} ver hk hr h2 (by omega) hi'])
                out.append(['peel', "exact Wr.done' rfl"])
        disp(e, out); end = False
    elif e[0] == 'joinB':
        out.append('refine Wr.join ?_')
        for i, x in enumerate(e[1][1]):
            if elem(x, out) == 'split':
                assert i == len(e[1][1]) - 1; end = False
            if i > 0 and (c, f) in (('Building', 'write'), ('Creatable', 'write88')):
                assert out[-1] == 'peel'
                out[-1:] = ['refine Wr.add ?_', 'peel']
    elif e[0] == 'W.pack':
        out.append('refine Wr.pack ?_')
        pack(e, out); out.append("exact Wr.done' rfl"); end = False
    else:
        raise Exception(c)
    if end: out.append('@end')
    room = 4 if f == 'write' else 3
    stmt = (f"/-- {doc}. -/\ntheorem {c}_{fn} : WritesAs n!\"{c}\" {c}.{f} := by\n" if f == 'write' else
            f"/-- {doc}. -/\ntheorem {c}_{fn} : WritesAs' n!\"{c}\" n!\"{fn}\" {c}.{f} := by\n")
    t = stmt + "  intro H s r n rec self ver hk hr h2 hn hi\n"
    t += f"  have hg : IsGenie n!\"{c}\" := IsGenie.of (by decide +kernel)\n  write_fun\n"
    t += render(out, '  ', True).replace(' version)', ' ver)') + '\n'
    files['WriteUnits' if c in UNIT_PART else 'WriteRecords'] += t
open('/verif/lean/Verif/Proof/Source/WriteRecords.lean', 'w').write(HEAD % ('WriteRules', 'of the record classes') + files['WriteRecords'] + 'end Genie.Src\n')
open('/verif/lean/Verif/Proof/Source/WriteUnits.lean', 'w').write(HEAD % ('WriteRules', 'of the parts of a unit') + files['WriteUnits'] + 'end Genie.Src\n')
