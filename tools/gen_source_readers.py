#!/usr/bin/env python3
"""Generates the proofs that the interpreted source (Verif/Model/Source*.lean) does what the heap readers (Verif/Model/HeapReaders.lean) do."""
import os
ROOT = os.path.join(os.path.dirname(__file__), '..', 'lean', 'Verif')

o = '''import Verif.Proof.Source.Handler
/-!
# The source of the array readers of `ByteHandler` does what the model says (generated by `tools/gen_source_readers.py`)
-/

namespace Genie.Src

'''
LINES = {'read_int_16_array': '164-168', 'read_int_32_array': '200-204', 'read_float_array': '223-227',
  'read_int_8_array_2': '119-122', 'read_int_8_array_3': '124-128', 'read_int_8_array_5': '130-136', 'read_int_8_array_10': '147-159',
  'read_int_16_array_2': '170-173', 'read_int_16_array_4': '181-186', 'read_int_16_array_6': '188-195', 'read_int_32_array_10': '206-218',
  'read_float_array_3': '234-238'}
def camel(f): return ''.join(w if i == 0 else w.capitalize() for i, w in enumerate(f.split('_')))
for f, l in LINES.items():
    base = f.split('_array')[0]
    kind = 'float' if 'float' in f else 'int'
    if f.endswith('_array'):
        o += f'''/-- `{f}` — `/repo/src/genieutils/common.py:{l}`. -/
theorem {f} {{n : Nat}} (hn : 3 ≤ n) (k : Int) :
    Same PVal.h (callN n .handler n!"ByteHandler" n!"{f}" ⟨[.h (.int k)], []⟩) (HReader.{camel(f)} k) := by
  call_fun
  exact fill_array (by omega) (HReader_{kind}_same ({base} (by omega))) _ _

'''
    else:
        n = int(f.rsplit('_', 1)[1])
        o += f'''/-- `{f}` — `/repo/src/genieutils/common.py:{l}`. -/
theorem {f} {{n : Nat}} (hn : 3 ≤ n) :
    Same PVal.h (callN n .handler n!"ByteHandler" n!"{f}" ⟨[], []⟩) HReader.{camel(f)} := by
  call_fun
''' + f'''  refine Same.bind (HReader_{kind}_same ({base} (by omega))) fun _ => ?_
  peel
''' * n + '''  exact (Same.allocH rfl).tail _

'''
o += 'end Genie.Src\n'
open(f'{ROOT}/Proof/Source/Tuples.lean', 'w').write(o)

# ---------------------------------------------------------------- from_bytes of every class, from the text of the heap readers
import re
src = open(f'{ROOT}/Model/HeapReaders.lean').read()
SCALAR = {'readInt8': 'read_int_8 (by omega)', 'readInt16': 'read_int_16 (by omega)', 'readInt32': 'read_int_32 (by omega)',
  'readInt16 (signed := false)': 'read_int_16_signed (by omega) false', 'readInt32 (signed := false)': 'read_int_32_signed (by omega) false',
  'readFloat': 'read_float (by omega)', 'readDebugString': 'read_debug_string (by omega)', 'readString 8': 'read_string (by omega) 8'}
FUN = {'build': 'from_bytes', 'build78': 'from_bytes_78', 'build84': 'from_bytes_84', 'build88': 'from_bytes_88', 'buildWithCount': 'from_bytes_with_count'}
depth = {}
def snake(h):
    h = re.sub(r'([A-Z])', r'_\1', h).lower()
    return re.sub(r'(?<=[a-z])(\d)', r'_\1', h)
def spec(t, d):
    """(proof of Same for a reader expression, depth it needs)"""
    t = t.strip()
    m = re.fullmatch(r'HReader\.(readClass\w*) (\w+)\.(build\w*)(.*)', t)
    if m:
        f, c, b, rest = m.groups()
        dd = depth[c + '.' + b]
        pr = f'{c}_{FUN[b]}'
        if f in ('readClass', 'readClassArray3', 'readClassArray4'): return f'{snake(f)} {pr} (by omega)', dd + 1
        if f == 'readClassArray': return f'read_class_array {pr} (by omega) (by omega) _ _', dd + 1
        if f == 'readClassArrayWithParam': return f'read_class_array_with_param {pr} (by omega) (by omega) _ _', dd + 1
        if f == 'readClassArrayWithPointers': return f'read_class_array_with_pointers {pr} (by omega) (by omega) _ _', dd + 1
        raise Exception(t)
    m = re.fullmatch(r'HReader\.(read\w+Array)( .*)', t)
    if m: return f'{snake(m[1])} (by omega) _', 3
    m = re.fullmatch(r'HReader\.(read\w+Array\d+)', t)
    if m: return f'{snake(m[1])} (by omega)', 3
    m = re.fullmatch(r'lift \((.*)\)', t) or re.fullmatch(r'lift (\w+)', t)
    if m and m[1] in SCALAR: return SCALAR[m[1]], 3
    if t == 'float readFloat': return 'HReader_float_same (read_float (by omega))', 2
    raise Exception(t)
mods = {'Records': [], 'Units': []}
cur = 'Records'
HAND = {}
for m in re.finditer(r'/-- (`(\w+)\.\w+` — [^\n]*)\ndef (\w+)\.(build\w*)( \((\w+) : Int\))? : HReader HVal := do\n(.*?)\n\n', src, re.S):
    doc, _, c, b, arg, argn, body = m.groups()
    key = c + '.' + b
    body = re.sub(r'\(\.record (.*?)\]\)', lambda x: '(.record' + re.sub(r'\s+', ' ', x[1]) + '])', body, flags=re.S)
    lines = body.split('\n')
    P, need, skip = [], 0, False
    def bind(pf): P.append(f'refine Same.bind ({pf}) fun _ => ?_'); P.append('peel')
    for i, l in enumerate(lines):
        l = l.strip()
        x = re.fullmatch(r'let (\w+) ← (.*)', l)
        if x:
            t = x[2]
            if t.startswith('lift (unpackFrom'): P.append('unpack_fun'); need = max(need, 1)
            elif t == 'lift getVersion':
                P.append('VERSION'); need = max(need, 1)
            elif t.startswith('alloc'): bind('Same.allocH (by rfl)')
            elif t.startswith('lift (readOr ('): P.append('READOR ' + t)
            elif t.startswith('HReader.readOrEmpty'):
                y = re.fullmatch(r'HReader\.readOrEmpty \((.*?)\) \((.*)\)', t)
                pf, n = spec(y[2], depth); need = max(need, n)
                P.append(f'refine Same.bind (φ := PVal.h) (Same.branch (ne_decide _) (fun _ => ?_) fun _ => ?_) fun _ => ?_')
                P.append(f'· peel\n    exact ({pf}).tail\'')
                P.append(f'· peel\n    exact (Same.allocH rfl).tail\'')
                P.append('peel')
            elif t.startswith('HReader.readIf'): P.append('READIF ' + t)
            elif t.startswith(('Creatable.', 'lift (liftPy')): P.append('? ' + t)
            else:
                pf, n = spec(t, depth); need = max(need, n); bind(pf)
        elif re.match(r'let \w+ : \w+ := ', l): pass
        elif l.startswith('HReader.popInt'): P.append('pop_int')
        elif l.startswith('HReader.popFloat'): P.append('pop_float')
        elif l.startswith('HReader.popDone'): P.append('pop_done')
        elif l.startswith('alloc'): P.append('exact (Same.allocH (by rfl)).tail _')
        elif l.startswith('if') or l.startswith('else'): P.append('DISPATCH ' + l)
        else: P.append('? ' + l)
    depth[key] = need + 1
    if any(p.startswith(('VERSION', 'READ', 'DISP', '?')) for p in P):
        HAND[key] = (P, need + 1, doc); 
        if key == 'UnitHeaders.build': depth[key] = depth['Task.build'] + 2
        if key in ('Unit.build84', 'Unit.build88'): depth[key] = depth['Creatable.build'] + 2
        if b == 'build' and 'DISP' in ''.join(P) and key != 'UnitHeaders.build': depth[key] = max(v for k, v in depth.items() if k.startswith(c + '.build') and k != key) + 1
    doc = f'/-- {doc}\n'
    a = f' (p : Int)' if arg else ''
    if arg:
        st = f'theorem {c}_{FUN[b]} : ∀ n, {depth[key]} ≤ n → ∀ p, Same PVal.h (callN n (.cls n!"{c}") n!"{c}" n!"{FUN[b]}" ⟨[.handler, .h (.int p)], []⟩) ({key} p) := by\n  intro n hn p'
    elif b == 'build':
        st = f'theorem {c}_from_bytes : ReadsAs {depth[key]} n!"{c}" {key} := by\n  intro n hn'
    else:
        st = f'theorem {c}_{FUN[b]} : ∀ n, {depth[key]} ≤ n → Same PVal.h (callN n (.cls n!"{c}") n!"{c}" n!"{FUN[b]}" ⟨[.handler], []⟩) {key} := by\n  intro n hn'
    if c == 'Unit': cur = 'Units'
    if len(lines) > 30: doc = 'set_option maxHeartbeats 0 in\n' + doc
    mods[cur].append((key, doc + st + f'\n  call_fun\n  unfold {key}\n' + '\n'.join('  ' + p for p in P) + '\n\n'))

GE = 'refine Same.bind Same.version fun v => ?_\n  peel\n  refine Same.pureBind (version_ge (by omega) v _) ?_\n  peel'
def hand(key, P):
    c, b = key.split('.')
    if key == 'Creatable.build':
        return ['rw [reread]', GE, 'refine Same.iteBind (by simp) (fun _ => ?_) fun _ => ?_', '· peel\n    exact Same.ret (Creatable_from_bytes_88 _ (by omega))', '· peel\n    refine Same.assoc ?_',
          '  refine Same.bind Same.version fun v => ?_\n    peel\n    refine Same.assoc ?_\n    refine Same.pureBind (version_ge (by omega) v _) ?_\n    peel\n    refine Same.assoc ?_',
          '  refine Same.iteBind (by simp) (fun _ => ?_) fun _ => ?_',
          '  · peel\n      refine Same.assoc ?_\n      exact (Creatable_from_bytes_84 _ (by omega)).map fun _ => rfl',
          '  · peel\n      exact (Creatable_from_bytes_78 _ (by omega)).tail _']
    if P[0] == 'VERSION':
        return [GE, 'refine Same.iteBind (by simp) (fun _ => ?_) fun _ => ?_', f'· peel\n    exact Same.ret ({c}_from_bytes_88 _ (by omega))',
          f'· peel\n    exact ({c}_from_bytes_84 _ (by omega)).tail _']
    R = []
    for p in P:
        if key == 'Bird.build' and p == 'VERSION': R.append(GE.replace('version_ge', 'version_gt'))
        elif key == 'Bird.build' and p.startswith('READOR'):
            R += ['refine Same.ifReadOr (by simp) (fun _ => rfl) (read_int_16 (by omega)) (fun _ => rfl) fun _ => ?_', 'peel']
        elif key == 'Type50.build' and p == 'VERSION':
            R.append(GE)
            R.append("by_cases hv : v.ge .VER_84 = true")
            R.append("· simp only [hv, readOr, if_true]\n    peel")
            for f in ['float', 'float', 'int_16', 'float', 'int_16']: R.append(f'  refine Same.assoc ?_\n    refine Same.bind (read_{f} (by omega)) fun _ => ?_\n    peel')
            R.append('  exact (Same.allocH (by rfl)).tail _')
            R.append("· simp only [hv, readOr]\n    peel\n    exact (Same.allocH (by rfl)).tail _")
            return R
        else: R.append(p)
    return R
DONE = {'Tech.build', 'Task.build', 'Bird.build', 'Type50.build', 'TrainLocation.build', 'Creatable.build'}
for k in HAND:
    if k not in DONE: continue
    for l in mods.values():
        for i, (kk, t) in enumerate(l):
            if kk == k:
                head = t[:t.index(f'  unfold {k}\n')] + f'  unfold {k}\n'
                l[i] = (k, head + '\n'.join('  ' + p for p in hand(k, HAND[k][0])) + '\n\n')
HEAD = """import Verif.Proof.Source.Rules
/-!
# The source of the `from_bytes` functions does what the model says (generated by `tools/gen_source_readers.py`)
-/

set_option linter.unusedVariables false

namespace Genie.Src

"""
open(f'{ROOT}/Proof/Source/Records.lean', 'w').write(HEAD + ''.join(t for k, t in mods['Records']) + 'end Genie.Src\n')

# ---------------------------------------------------------------- Unit, UnitHeaders, Civ, DatFile
UHEAD = """import Verif.Proof.Source.UnitRules
/-!
# The source of the `from_bytes` functions of `Unit`, `UnitHeaders`, `Civ` and `DatFile` does what the model says (generated by
`tools/gen_source_readers.py`)
-/

set_option linter.unusedVariables false

namespace Genie.Src

"""
def unit(key, P):
    R, first, i = [], True, 0
    for i, p in enumerate(P):
        if p.startswith('READIF'): break
        if p == 'pop_int' and first: first = False; R.append('refine Same.popInt (by assumption) (by decide) fun type_ _ _ => ?_\n  peel')
        else: R.append(p)
    reads, tail = [p for p in P if p.startswith('READIF')], [p for p in P[i:] if not p.startswith('READIF')]
    assert len(reads) == 7
    hot = tail[0]; tail = tail[1:]
    T = HOT84 + tail if key == 'Unit.build84' else HOT88 + ['  ' + l for l in tail] + ['· peel'] + ['  rw [pure_bind\']'] + ['  ' + l for l in tail]
    N = ['rw [storeHotKey_none]' if key == 'Unit.build84' else 'rw [readHotKey_none]']
    def ind(ls): return '\n'.join('    ' + l.replace('\n', '\n  ') for l in ls)
    none7 = ['refine Same.readIfFalse (by grind) ?_'] * 7
    cond = ['decide_eq_decide.mpr ⟨fun h => ⟨h1, h2, h⟩, fun h => h.2.2⟩']
    some7 = ['refine Same.readIfTrue ⟨h1, h2⟩ ?_', 'refine Same.assoc ?_', 'refine Same.bind (HReader_float_same (read_float (by omega))) fun _ => ?_', 'peel']
    for c in ['DeadFish', 'Bird', 'Type50', 'Projectile', 'Creatable', 'Building']:
        some7 += [f'refine Same.ifReadIn (decide_eq_decide.mpr ⟨fun h => ⟨h1, h2, h⟩, fun h => h.2.2⟩) (fun _ => rfl) (read_class {c}_from_bytes (by omega)) (fun _ => rfl) fun _ => ?_', 'peel']
    R.append('by_cases h1 : type_ ≠ UnitType.AoeTrees')
    R.append('· refine Same.branchTrue (by simpa [UnitType.AoeTrees] using h1) ?_')
    R.append('  peel\n    refine Same.assoc ?_')
    R.append('  by_cases h2 : type_ ≥ UnitType.Flag')
    R.append('  · refine Same.branchTrue (by simpa [UnitType.Flag] using h2) ?_\n      peel\n' + ind(['  ' + l.replace('\n', '\n  ') for l in some7 + T]))
    R.append('  · refine Same.branchFalse (by simpa [UnitType.Flag] using h2) ?_\n      peel\n' + ind(['  ' + l.replace('\n', '\n  ') for l in none7 + N + tail]))
    R.append('· refine Same.branchFalse (by simpa [UnitType.AoeTrees] using h1) ?_\n    peel\n' + ind(none7 + N + tail))
    return R
HOT84 = ['unfold Creatable.storeHotKey', "rw [bind_assoc']", 'refine Same.bind (Same.truth _) fun c => ?_', 'peel', 'refine Same.ifBlock (by simp) (fun _ => ?_) ?_', '· peel', '  refine Same.bind (Same.objAttr (by decide) (by decide +kernel)) fun tl => ?_', '  peel', '  refine Same.bind (Same.truth tl) fun t => ?_', '  peel', "  refine Same.ifBlock' (by simp) (fun _ => ?_) ?_", '  · peel', '    refine Same.assoc ?_', '    refine Same.bind (Same.allocH (by rfl)) fun _ => ?_', '    peel', '    refine Same.assoc ?_', '    refine Same.bind (Same.allocH (by rfl)) fun _ => ?_', '    peel', '    refine Same.assoc ?_', '    refine Same.bind Same.setAttr fun _ => ?_', '    peel', '    refine Same.bind (Same.objAttr (by decide) (by decide +kernel)) fun tl => ?_', '    peel', '    refine Same.bind (Same.item tl 0) fun _ => ?_', '    peel', '    exact Same.setAttr.tail _', '  · peel', '    refine Same.bind (Same.objAttr (by decide) (by decide +kernel)) fun tl => ?_', '    peel', '    refine Same.bind (Same.item tl 0) fun _ => ?_', '    peel', '    exact Same.setAttr.tail _', 'peel']
HOT88 = ['unfold Creatable.readHotKey', "simp only [bind_assoc']", 'refine Same.truthAnd ?_ fun t => ?_', '· peel', "  exact (Same.objAttr (by decide) (by decide +kernel)).tail'", 'peel', 'refine Same.iteThen (by simp) (fun _ => ?_) fun _ => ?_', "· rw [bind_assoc']", '  peel', '  refine Same.assoc ?_', '  refine Same.bind (Same.objAttr (by decide) (by decide +kernel)) fun tl => ?_', "  rw [bind_assoc']", '  peel', '  refine Same.assoc ?_', '  refine Same.bind (Same.item tl 0) fun _ => ?_', '  peel', '  refine Same.assoc ?_', '  refine Same.bind (Same.objAttr (by decide) (by decide +kernel)) fun hk => ?_', '  peel']
UNITS = []
for k, t in mods['Units']:
    if k in ('Unit.build84', 'Unit.build88'):
        head = t[:t.index(f'  unfold {k}\n')] + f'  unfold {k}\n'
        t = head + '\n'.join('  ' + p for p in unit(k, HAND[k][0])) + '\n\n'
    elif k == 'Unit.build':
        head = t[:t.index(f'  unfold {k}\n')] + f'  unfold {k}\n'
        t = head + '\n'.join('  ' + p for p in hand(k, HAND[k][0])) + '\n\n'
    elif k == 'UnitHeaders.build':
        head = t[:t.index(f'  unfold {k}\n')] + f'  unfold {k}\n'
        t = head + '''  refine Same.bind (read_int_8 (by omega)) fun _ => ?_
  peel
  refine Same.iteBind (ne_decide _) (fun _ => ?_) fun _ => ?_
  · peel
    refine Same.assoc ?_
    refine Same.bind (read_int_16 (by omega)) fun _ => ?_
    peel
    refine Same.assoc ?_
    refine Same.bind (read_class_array Task_from_bytes (by omega) (by omega) _ _) fun _ => ?_
    peel
    exact (Same.allocH (by rfl)).tail _
  · peel
    exact (Same.allocH (by rfl)).tail _

'''
    elif k == 'DatFile.build':
        t = t.replace('? lift (liftPy (Version.ofStr version))', 'refine Same.bind (Same.versionOf _) fun _ => ?_\n  peel')
        t = t.replace('? lift (setVersion content_version)', 'refine Same.bind (Same.setVersion _) fun _ => ?_\n  peel')
        import re as _re
        t = _re.sub(r'\? lift \(noteLossy.*', 'refine Same.ghost ?_', t)
    UNITS.append((k, t))
for n in ('84', '88'):
    head = f"import Verif.Proof.Source.UnitRules\n/-! # `Unit.from_bytes_{n}`, from the source -/\n\nset_option linter.unusedVariables false\n\nnamespace Genie.Src\n\n"
    open(f'{ROOT}/Proof/Source/Units{n}.lean', 'w').write(head + ''.join(t for k, t in UNITS if k == f'Unit.build{n}') + 'end Genie.Src\n')
head = UHEAD.replace('import Verif.Proof.Source.UnitRules', 'import Verif.Proof.Source.Units84\nimport Verif.Proof.Source.Units88')
head += '-- keeps the elaborator from evaluating it\nattribute [local irreducible] Genie.TerrainBlock.build\n\n'
open(f'{ROOT}/Proof/Source/Units.lean', 'w').write(head + ''.join(t for k, t in UNITS if k not in ('Unit.build84', 'Unit.build88')) + 'end Genie.Src\n')
