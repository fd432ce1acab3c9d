#!/usr/bin/env python3
"""Writes lean/Verif/Spec/Sizes.lean (the number of bytes of each record, as arithmetic in list and text lengths),
lean/Verif/Spec/ClassLayout.lean (tables over RecordClass) and lean/Verif/Proof/Records/Sizes.lean."""
import re, struct, sys
sys.path.insert(0, '/verif/tools')
from gen_layout import ORDER
from gen_classes import CL
TXT = open('/verif/lean/Verif/Spec/Layout.lean').read()
def body(c):
    return re.search(r'^def %s\.layout \(v : Version\)[^\n]*:=\n(.*?)(?=\n\n)' % c, TXT, re.M | re.S).group(1)
def split(s):
    out, d, cur = [], 0, ''
    for ch in s:
        if ch in '([{': d += 1
        if ch in ')]}': d -= 1
        if ch == ',' and d == 0: out.append(cur.strip()); cur = ''
        else: cur += ch
    if cur.strip(): out.append(cur.strip())
    return out
K = {'u8':1,'i16':2,'i32':4,'u32':4,'f32':4,'countU8':1,'countI16':2,'countI32':4,'countU32':4}
CONST = {}   # class -> constant size
def term(i):
    """(constant, [terms])"""
    i = ' '.join(i.split())
    if i.startswith('block'):
        return struct.calcsize('<' + re.match(r'block "(\w+)"', i)[1]), []
    if i.startswith('requires'): return 0, []
    if m := re.match(r'text (x\.\w+)$', i): return 4, [f'utf8Len {m[1]}']
    if m := re.match(r'each (\w+) (x\.\w+)$', i): return 0, [f'{K[m[1]]} * {m[2]}.length' if K[m[1]] > 1 else f'{m[2]}.length']
    if m := re.match(r'each \((\w+)\.layout v\) (x\.\w+)$', i):
        if m[1] in CONST: return 0, [f'{CONST[m[1]]} * {m[2]}.length']
        return 0, [f'({m[2]}.map ({m[1]}.size v)).sum']
    if m := re.match(r'(\w+)\.layout v (x\.\w+)$', i):
        if m[1] in CONST: return CONST[m[1]], []
        return 0, [f'{m[1]}.size v {m[2]}']
    m = re.match(r'(\w+) ', i); return K[m[1]], []
def total(its):
    k, ts = 0, []
    for i in its:
        a, b = term(i); k += a; ts += b
    return k, ts
def show(k, ts): return ' + '.join(([str(k)] if k or not ts else []) + ts)
def flat(b):
    b = b.strip()
    if b.startswith('block'): return [b]
    m = re.match(r'List\.flatten \[(.*)\]$', b, re.S); return split(m[1])
H = {}
def cs(f): return struct.calcsize('<' + f)
def wrap(s, ind=2, width=124):
    out, cur = [], ''
    for w in s.split(' '):
        if len(cur) + len(w) + 1 > width - ind: out.append(cur); cur = w
        else: cur = (cur + ' ' + w) if cur else w
    out.append(cur)
    return ('\n' + ' ' * (ind + 2)).join(out)
def hand(c):
    b = body(c)
    if c == 'Task':
        f88, f84 = re.findall(r'"(\w+)"', b); return f'if 88 ≤ v.num then {cs(f88)} else {cs(f84)}'
    if c == 'Tech':
        m = re.match(r'\s*if 88 ≤ v\.num then (List\.flatten \[.*?\])\n  else (List\.flatten \[.*\])$', b, re.S)
        return f'if 88 ≤ v.num then {show(*total(flat(m[1])))} else {show(*total(flat(m[2])))}'
    if c == 'UnitHeaders':
        return '1 + if x.exists_ = 0 then 0 else match x.task_list with | none => 0 | some tasks => 2 + (tasks.map (Task.size v)).sum'
    if c == 'Bird':
        its = flat(b); its = [i for i in its if not i.startswith('since')]
        return show(*total(its)) + ' + (if 78 ≤ v.num then 2 else 0)'
    if c == 'Type50':
        its = flat(b); s = [i for i in its if i.startswith('since')][0]; its = [i for i in its if not i.startswith('since')]
        k, ts = total(flat(re.match(r'since v 84 \((.*)\)$', s, re.S)[1])); assert not ts
        return show(*total(its)) + f' + (if 84 ≤ v.num then {k} else 0)'
    if c == 'TrainLocation': return 'if 88 ≤ v.num then 9 else 5'
    if c == 'Creatable':
        f88, f84, f78 = re.findall(r'"(\w+)"', b)
        return f'6 * x.resource_costs.length + (if 88 ≤ v.num then {2 + cs(f88)} + 9 * x.train_locations.length else if 84 ≤ v.num then {cs(f84)} else {cs(f78)})'
    if c == 'Unit':
        f88, f84 = re.findall(r'"(\w+)"', b)
        its = flat(b); parts = [' '.join(i.split()) for i in its if i.startswith('part')]; its = [i for i in its if not i.startswith('part')][1:]
        k, ts = total(its)
        r = f'(if 88 ≤ v.num then {k+cs(f88)} else {k+cs(f84)}) + ' + ' + '.join(ts)
        for p in parts:
            m = re.match(r'part \((.*?)\) (?:f32|\((\w+)\.layout v\)) (x\.\w+)$', p)
            if m[2] is None: s = '4'
            elif m[2] in CONST: s = str(CONST[m[2]])
            else: s = f'{m[2]}.size v y'
            f = f'({m[2]}.size v)' if 'size' in s else f'(fun _ => {s})'
            r += f' + partSize ({m[1]}) {f} {m[3]}'
        return r
    if c == 'Civ':
        its = flat(b); its = [' '.join(i.split()) for i in its]
        rest = [i for i in its if not re.match('pointers|eachPresent', i)]
        p = [i for i in its if re.match('pointers|eachPresent', i)]; assert len(p) == 2, p
        return show(*total(rest)) + ' + 4 * x.units.length + ((x.units.filterMap id).map (Unit.size v)).sum'
HAND = ['Task','Tech','UnitHeaders','Bird','Type50','TrainLocation','Creatable','Unit','Civ']
def main():
    o = '''import Verif.Spec.Layout
/-!
# The number of bytes of every record

As arithmetic in the lengths of the lists and the UTF-8 lengths of the texts (generated by `tools/gen_sizes.py`).
-/

namespace Genie
set_option linter.unusedVariables false

/-- Bytes of an optional part that is written under a condition. -/
def partSize (c : Prop) [Decidable c] (f : α → Nat) (o : Option α) : Nat :=
  if c then (match o with | none => 0 | some a => f a) else 0

'''
    done = []
    for c in ORDER:
        if c == 'DatFile': continue
        if c in HAND: e = hand(c)
        else:
            k, ts = total(flat(body(c))); e = show(k, ts)
            if not ts: CONST[c] = k
        o += f'/-- Bytes of a `{c}`. -/\ndef {c}.size (v : Version) (x : {c}) : Nat :=\n  {wrap(e)}\n\n'
        done.append(c)
    b = re.search(r'^def DatFile\.layoutAt.*?:=\n(.*?)(?=\n\n)', TXT, re.M | re.S).group(1)
    its = [' '.join(i.split()) for i in flat(b)]
    rest = [i for i in its if not re.match(r'pointers|eachPresent|\[', i)]
    k, ts = total(rest)
    e = show(k + 2, ts) + ' + max 8 (utf8Len x.version) + 4 * x.graphics.length + ((x.graphics.filterMap id).map (Graphic.size v)).sum'
    o += f'/-- Bytes of a whole file of version `v`. -/\ndef DatFile.size (v : Version) (x : DatFile) : Nat :=\n  {wrap(e)}\n\n'
    o += 'end Genie\n'
    open('/verif/lean/Verif/Spec/Sizes.lean', 'w').write(o)
    o = '''import Verif.Spec.Classes
import Verif.Spec.Sizes
/-! # Layout and size, as tables over the record classes (generated by `tools/gen_sizes.py`) -/

namespace Genie.RecordClass

'''
    def table(head, f):
        return head + ''.join(f'  | .{c} => {f(c)}\n' for c in CL) + f'  | .TerrainRestriction _ => {f("TerrainRestriction")}\n\n'
    o += table('/-- The items of a record. -/\ndef layout : (c : RecordClass) → Version → c.Obj → List Item\n', lambda c: f'Genie.{c}.layout')
    o += table('/-- The number of bytes of a record. -/\ndef size : (c : RecordClass) → Version → c.Obj → Nat\n', lambda c: f'Genie.{c}.size')
    o += '''/-- The classes whose records always have the same number of bytes, and this number. -/
def constantSize : RecordClass → Option Nat
'''
    for c in CL:
        if c in CONST: o += f'  | .{c} => some {CONST[c]}\n'
    o += '  | _ => none\n\nend Genie.RecordClass\n'
    open('/verif/lean/Verif/Spec/ClassLayout.lean', 'w').write(o)
def fmts(t): return re.findall(r'"([a-z]{2,})"', t)
FN = {}
def fmtlemmas(t):
    o, names = '', []
    for f in fmts(t):
        if f not in FN:
            FN[f] = f'fmtSize{len(FN)}'
            o += f'theorem {FN[f]} : ((Layout.codes "{f}").map Code.size).sum = {cs(f)} := by decide +kernel\n'
        names.append(FN[f])
    return o, names
def lemmas(t):
    return [f'{c}.{k}' for c in CONST for k in ('sum_size', 'size_const') if re.search(r'\b%s\.layout' % c, t)]
def proofs():
    o = '''import Verif.Proof.Sizes
import Verif.Proof.Records.WritesDat
import Verif.Spec.ClassLayout
/-! # The size of every record that can be written (generated by `tools/gen_sizes.py`) -/
set_option linter.unusedSimpArgs false

namespace Genie

'''
    for c in ORDER:
        if c == 'DatFile': continue
        b = body(c)
        fl, names = fmtlemmas(b)
        o += fl
        names += lemmas(b)
        simp = f'simp only [{", ".join(names)}] <;> ' if names else ''; fin = 'split <;> omega' if c in ('Type50', 'Bird') else 'omega'
        if c in PH: o += PH[c].replace('FMTS', ', '.join(names))
        else: o += f'''theorem {c}.sized (v : Version) (x : {c}) : Sized (x.layout v) (x.size v) := by
  unfold {c}.layout {c}.size
  apply Sized.cast
  · sizes
  · {simp}{fin}
'''
        o += f'instance : HasSize {c}.layout {c}.size := ⟨{c}.sized⟩\n'
        if c in CONST:
            o += f'theorem {c}.sum_size (v : Version) (l : List {c}) : (l.map ({c}.size v)).sum = {CONST[c]} * l.length := sum_map_const {CONST[c]} l\n'
            o += f'theorem {c}.size_const (v : Version) (x : {c}) : x.size v = {CONST[c]} := rfl\n'
        o += '\n'
    b = re.search(r'^def DatFile\.layoutAt.*?:=\n(.*?)(?=\n\n)', TXT, re.M | re.S).group(1)
    o += f'''set_option maxRecDepth 4000 in
theorem DatFile.sizedAt (v : Version) (x : DatFile) : Sized (x.layoutAt v) (x.size v) := by
  unfold DatFile.layoutAt DatFile.size
  apply Sized.cast
  · sizes <;> exact Sized.item _
  · simp only [{', '.join(lemmas(b))}, Item.size, if_neg (show ¬ (8 : Nat) = 0 by decide)]; omega

'''
    o += '''namespace RecordClass

theorem writes (c : RecordClass) (v : Version) (x : c.Obj) : Writes (c.toBytes v x) (c.layout v x) := by
  cases c with
''' + ''.join(f'  | {c} => exact Genie.{c}.writes v x\n' for c in CL) + '  | TerrainRestriction n => exact Genie.TerrainRestriction.writes v x\n\n'
    o += '''theorem sized (c : RecordClass) (v : Version) (x : c.Obj) : Sized (c.layout v x) (c.size v x) := by
  cases c with
''' + ''.join(f'  | {c} => exact Genie.{c}.sized v x\n' for c in CL) + '  | TerrainRestriction n => exact Genie.TerrainRestriction.sized v x\n\n'
    o += 'end RecordClass\nend Genie\n'
    open('/verif/lean/Verif/Proof/Records/Sizes.lean', 'w').write(o)
PH = {}
PH['Task'] = '''theorem Task.sized (v : Version) (x : Task) : Sized (x.layout v) (x.size v) := by
  unfold Task.layout Task.size
  by_cases h : 88 ≤ v.num
  · simp only [if_pos h]; exact Sized.block _ (by simp only [FMTS])
  · simp only [if_neg h]; exact Sized.block _ (by simp only [FMTS])
'''
PH['TrainLocation'] = PH['Task'].replace('Task', 'TrainLocation')
PH['Tech'] = '''theorem Tech.sized (v : Version) (x : Tech) : Sized (x.layout v) (x.size v) := by
  unfold Tech.layout Tech.size
  by_cases h : 88 ≤ v.num
  · simp only [if_pos h]
    apply Sized.cast
    · sizes
    · simp only [FMTS]; omega
  · simp only [if_neg h]
    apply Sized.cast
    · sizes
    · simp only [FMTS]; omega
'''
PH['UnitHeaders'] = '''theorem UnitHeaders.sized (v : Version) (x : UnitHeaders) : Sized (x.layout v) (x.size v) := by
  unfold UnitHeaders.layout UnitHeaders.size
  refine Sized.append (Sized.u8 _) ?_
  unfold Layout.part
  by_cases h : x.exists_ = 0
  · rw [if_neg (by simp [h]), if_pos h]; exact Sized.nil
  · rw [if_pos h, if_neg h]
    cases x.task_list with
    | none => exact Sized.nil
    | some l => exact Sized.append (Sized.countI16 _) (Sized.classesI _)
'''
PH['Creatable'] = '''theorem Creatable.sized (v : Version) (x : Creatable) : Sized (x.layout v) (x.size v) := by
  unfold Creatable.layout Creatable.size
  refine Sized.append ((Sized.classesI _).cast (ResourceCost.sum_size v _)) ?_
  refine Sized.ite (fun h88 => ?_) (fun h88 => ?_)
  · apply Sized.cast
    · sizes
    · have : (x.train_locations.map (TrainLocation.size v)).sum = 9 * x.train_locations.length := by
        rw [← sum_map_const]; congr 2; funext y; simp only [TrainLocation.size, if_pos h88]
      simp only [FMTS, this]; omega
  · cases x.train_locations with
    | nil => intro h; rw [causes_requires] at h; exact h.elim
    | cons t ts =>
      exact Sized.ite (fun _ => Sized.block _ (by simp only [FMTS])) (fun _ => Sized.block _ (by simp only [FMTS]))
'''
PH['Unit'] = '''theorem Unit.sized (v : Version) (x : Unit) : Sized (x.layout v) (x.size v) := by
  unfold Unit.layout Unit.size
  apply Sized.cast
  · sizes
  · have hb : ((Layout.codes (if 88 ≤ v.num then FMT88 else FMT84)).map Code.size).sum = if 88 ≤ v.num then SZ88 else SZ84 := by
      split <;> simp only [FMTS]
    have h1 : ∀ {c : Prop} [Decidable c] (o : Option DeadFish), partSize c (DeadFish.size v) o = partSize c (fun _ => 41) o := fun _ => rfl
    have h2 : ∀ {c : Prop} [Decidable c] (o : Option Projectile), partSize c (Projectile.size v) o = partSize c (fun _ => 9) o := fun _ => rfl
    simp only [FMTS, hb, h1, h2]
    generalize partSize (x.type ≠ 90 ∧ 20 ≤ x.type) (fun _ => 4) x.speed = p0
    generalize partSize (x.type ≠ 90 ∧ 30 ≤ x.type) (fun _ => 41) x.dead_fish = p1
    generalize partSize (x.type ≠ 90 ∧ 40 ≤ x.type) (Bird.size v) x.bird = p2
    generalize partSize (x.type ≠ 90 ∧ 50 ≤ x.type) (Type50.size v) x.type_50 = p3
    generalize partSize (x.type = 60) (fun _ => 9) x.projectile = p4
    generalize partSize (x.type ≠ 90 ∧ 70 ≤ x.type) (Creatable.size v) x.creatable = p5
    generalize partSize (x.type = 80) (Building.size v) x.building = p6
    clear hb h1 h2
    by_cases h : 88 ≤ v.num
    · simp only [if_pos h]; omega
    · simp only [if_neg h]; omega
'''
_u = fmts(body('Unit'))
PH['Unit'] = PH['Unit'].replace('FMT88', '"%s"' % _u[0]).replace('FMT84', '"%s"' % _u[1]).replace('SZ88', str(cs(_u[0]))).replace('SZ84', str(cs(_u[1])))
if __name__ == '__main__': main(); proofs()
