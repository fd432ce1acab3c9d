#!/usr/bin/env python3
"""Generates lean/Verif/Model/Asdict.lean (dataclasses.asdict of every class, from the class definitions in /repo, parsed not run),
lean/Verif/Proof/Asdict.lean (injectivity)."""
import sys, os
sys.argv = sys.argv[:1]
sys.path.insert(0, os.path.dirname(__file__))
import gen_model as gm
import ast
from gen_classes import CL
ROOT = os.path.join(os.path.dirname(__file__), '..', 'lean', 'Verif')
MODS = ['effect','sound','playercolour','graphic','terrainrestriction','terrainblock','randommaps','tech','techtree','task','unit','unitheaders','civ','datfile']
classes = {}
for m in MODS:
    mod = gm.Module(m)
    for n in mod.tree.body:
        if isinstance(n, ast.ClassDef) and any(isinstance(s, ast.AnnAssign) for s in n.body):
            classes[n.name] = gm.Class(mod, n)
OLD = {'Creatable', 'Unit', 'Civ', 'DatFile'}
def f(t):
    """(function of tree, injectivity lemma)"""
    if t == 'Int': return '.int'
    if t == 'PyFloat': return '.float'
    if t == 'PyStr': return '.str'
    return f'({t}.asdict old)' if t in OLD else f'{t}.asdict'
def inj(t):
    return {'Int': 'int_inj', 'PyFloat': 'float_inj', 'PyStr': 'str_inj'}.get(t) or (f'({t}.asdict_inj old)' if t in OLD else f'{t}.asdict_inj')
def tree(cn, fn, t):
    x = f'self.{gm.nm(fn)}'
    if (cn, fn) == ('Creatable', 'invulnerability_level'): return f'invulnerabilityTree old {x}'
    if t.startswith('List (Option '): return f'.list ({x}.map (optTree {f(t[13:].strip("()"))}))'
    if t.startswith('Option (List '): return f'optTree (fun l => .list (l.map {f(t[13:].strip("()"))})) {x}'
    if t.startswith('List '): return f'.list ({x}.map {f(t[5:].strip("()"))})'
    if t.startswith('Option '): return f'optTree {f(t[7:].strip("()"))} {x}'
    return f'{f(t)} {x}'
o = '''import Verif.Model.Datfile
import Verif.Py.Json
/-!
# `dataclasses.asdict` of every class

`dataclasses.asdict(obj)` maps a dataclass instance to the `dict` of its fields, in the order of their definition and under their names,
and recurses into lists and tuples; `None`, `int`, `float` and `str` are kept.  (`/repo/src/genieutils/scripts.py:19` calls it.)

Most fields hold what their annotation says.  The exception is `Creatable.invulnerability_level: float`: the reader for files before 8.4
stores the `int` literal `0` there (`/repo/src/genieutils/unit.py:551`), which prints as `0`, not `0.0`; the argument `old` says that the
object was read from such a file.  (Generated by `tools/gen_asdict.py`.)
-/

namespace Genie

/-- `X | None`. -/
def optTree (f : α → PyTree) : Option α → PyTree
  | none => .none
  | some x => f x

/-- `invulnerability_level`: the `int` literal `0` of `/repo/src/genieutils/unit.py:551` (represented by `0.0` in the model of the
reader), or a float. -/
def invulnerabilityTree (old : Bool) (x : PyFloat) : PyTree :=
  if old = true ∧ x = PyFloat.zero then .int 0 else .float x

'''
p = '''import Verif.Model.Asdict
import Verif.Spec.Classes
import Verif.Proof.Json
/-! # Trees determine the objects (generated by `tools/gen_asdict.py`) -/

namespace Genie
open PyTree

theorem int_inj {a b : Int} (h : PyTree.int a = .int b) : a = b := PyTree.int.inj h
theorem float_inj {a b : PyFloat} (h : PyTree.float a = .float b) : a = b := PyTree.float.inj h
theorem str_inj {a b : PyStr} (h : PyTree.str a = .str b) : a = b := PyTree.str.inj h

theorem list_map_inj {f : α → PyTree} (hf : ∀ {x y}, f x = f y → x = y) {a b : List α} (h : PyTree.list (a.map f) = .list (b.map f)) : a = b := by
  have h := PyTree.list.inj h
  induction a generalizing b with
  | nil => cases b with
    | nil => rfl
    | cons _ _ => cases h
  | cons x a ih => cases b with
    | nil => cases h
    | cons y b =>
      simp only [List.map_cons, List.cons.injEq] at h
      rw [hf h.1, ih h.2 (h := by rw [h.2])]

theorem optTree_inj {f : α → PyTree} (hf : ∀ {x y}, f x = f y → x = y) (hn : ∀ x, f x ≠ .none) {a b : Option α}
    (h : optTree f a = optTree f b) : a = b := by
  cases a with
  | none => cases b with
    | none => rfl
    | some y => exact absurd h.symm (hn y)
  | some x => cases b with
    | none => exact absurd h (hn x)
    | some y => rw [hf h]

theorem invulnerabilityTree_inj (old : Bool) {x y : PyFloat} (h : invulnerabilityTree old x = invulnerabilityTree old y) : x = y := by
  unfold invulnerabilityTree at h
  split at h <;> split at h
  · simp_all
  · cases h
  · cases h
  · exact float_inj h

theorem items_cons {k : PyStr} {t t' : PyTree} {ts ts' : List (PyStr × PyTree)} (h : (k, t) :: ts = (k, t') :: ts') : t = t' ∧ ts = ts' := by
  injection h with h1 h2
  exact ⟨(Prod.mk.inj h1).2, h2⟩

'''
def lemma(cn, fn, t):
    if (cn, fn) == ('Creatable', 'invulnerability_level'): return 'invulnerabilityTree_inj old'
    nn = '(fun _ h => by cases h)'
    if t.startswith('List (Option '):
        return f'list_map_inj (optTree_inj {inj(t[13:].strip("()"))} {nn})'
    if t.startswith('Option (List '):
        return f'optTree_inj (list_map_inj {inj(t[13:].strip("()"))}) {nn}'
    if t.startswith('List '): return f'list_map_inj {inj(t[5:].strip("()"))}'
    if t.startswith('Option '): return f'optTree_inj {inj(t[7:].strip("()"))} {nn}'
    return inj(t)
order = []
def visit(c):
    if c in order: return
    for _, t in classes[c].fields:
        for w in t.replace('(', ' ').replace(')', ' ').split():
            if w in classes: visit(w)
    order.append(c)
for c in classes: visit(c)
for c in order:
    C = classes[c]
    lo = C.node.decorator_list[0].lineno; hi = max(s.end_lineno for s in C.node.body if isinstance(s, ast.AnnAssign))
    arg = '(old : Bool) ' if c in OLD else ''
    o += f'/-- `dataclasses.asdict` of a `{c}` — fields as in `/repo/src/genieutils/{C.mod.name}.py:{lo}-{hi}`. -/\ndef {c}.asdict {arg}(self : {c}) : PyTree :=\n  .dict [\n'
    o += ',\n'.join(f'    (lit "{fn}", {tree(c, fn, t)})' for fn, t in C.fields) + ']\n\n'
    oldarg = ' old' if c in OLD else ''
    p += f'theorem {c}.asdict_inj {arg}{{a b : {c}}} (h : a.asdict{oldarg} = b.asdict{oldarg}) : a = b := by\n'
    p += '  have h := PyTree.dict.inj h\n  cases a; cases b\n  dsimp only at h\n'
    for i, (fn, t) in enumerate(C.fields):
        p += f'  obtain ⟨h{i}, h⟩ := items_cons h\n'
    for i, (fn, t) in enumerate(C.fields):
        p += f'  cases {lemma(c, fn, t)} h{i}\n'
    p += '  rfl\n\n'
o += 'end Genie\n'
names = lambda: None
p += '''namespace RecordClass

/-- `dataclasses.asdict`, for every record class. -/
def asdict (old : Bool) : (c : RecordClass) → c.Obj → PyTree
'''
for c in CL + ['TerrainRestriction']:
    p += f'  | .{c}{" _" if c == "TerrainRestriction" else ""} => Genie.{c}.asdict{" old" if c in OLD else ""}\n'
p += '\ntheorem asdict_inj (old : Bool) (c : RecordClass) {x y : c.Obj} (h : c.asdict old x = c.asdict old y) : x = y := by\n  cases c with\n'
for c in CL:
    p += f'  | {c} => exact Genie.{c}.asdict_inj{" old" if c in OLD else ""} h\n'
p += '  | TerrainRestriction n => exact Genie.TerrainRestriction.asdict_inj h\n\nend RecordClass\nend Genie\n'
STR = set()
for c in order:
    for _, t in classes[c].fields:
        ws = t.replace('(', ' ').replace(')', ' ').split()
        if 'PyStr' in ws or any(w in STR for w in ws): STR.add(c)
q = '''import Verif.Proof.Asdict
import Verif.Spec.Versioned
import Verif.Proof.Utf8
import Verif.Proof.Edits.Core
/-! # The strings of the trees (generated by `tools/gen_asdict.py`) -/

namespace Genie
open PyTree

theorem texts_nil : TextsItems [] := trivial
theorem texts_cons {k : PyStr} {t : PyTree} {ts : List (PyStr × PyTree)} (hk : (k.all isScalar) = true) (ht : t.Texts)
    (hts : TextsItems ts) : TextsItems ((k, t) :: ts) := ⟨List.all_eq_true.1 hk, ht, hts⟩
theorem texts_dict {ts : List (PyStr × PyTree)} (hts : TextsItems ts) : (PyTree.dict ts).Texts := hts
theorem texts_list {f : α → PyTree} {l : List α} (h : ∀ x ∈ l, (f x).Texts) : (PyTree.list (l.map f)).Texts := by
  simp only [Texts]
  induction l with
  | nil => trivial
  | cons x l ih => exact ⟨h x (by simp), ih fun y hy => h y (by simp [hy])⟩
theorem texts_opt {f : α → PyTree} {x : Option α} (h : ∀ y, x = some y → (f y).Texts) : (optTree f x).Texts := by
  cases x with
  | none => trivial
  | some y => exact h y rfl
theorem texts_inv (old : Bool) (x : PyFloat) : (invulnerabilityTree old x).Texts := by
  unfold invulnerabilityTree; split <;> trivial
theorem texts_str {s : PyStr} (h : IsDebugStr s) : (PyTree.str s).Texts := fun c hc => (isScalar_iff c).2 (h.1 c hc)

'''
LIM = ''
for c in order:
    C = classes[c]
    arg = '(old : Bool) ' if c in OLD else ''
    oldarg = ' old' if c in OLD else ''
    wf = 'DatFile.WFAt v' if c == 'DatFile' else f'{c}.WF v'
    if c in STR:
        q += f'theorem {c}.asdict_texts {arg}{{v : Version}} {{x : {c}}} (h : {wf} x) : (x.asdict{oldarg}).Texts := by\n'
    else:
        q += f'theorem {c}.asdict_texts {arg}(x : {c}) : (x.asdict{oldarg}).Texts := by\n'
    q += '  refine texts_dict ?_\n'
    for fn, t in C.fields:
        base = [w for w in t.replace('(', ' ').replace(')', ' ').split() if w not in ('List', 'Option')][0]
        def at(y, hy):
            if base in ('Int', 'PyFloat'): return 'trivial'
            if base in STR: return f'{base}.asdict_texts{" old" if base in OLD else ""} ({hy})'
            return f'{base}.asdict_texts{" old" if base in OLD else ""} {y}'
        g = gm.nm(fn)
        if (c, fn) == ('Creatable', 'invulnerability_level'): pf = 'texts_inv old _'
        elif (c, fn) == ('DatFile', 'version'): pf = 'version_texts h.version'
        elif base == 'PyStr': pf = f'texts_str h.{g}'
        elif t.startswith('List (Option '): pf = f'texts_list fun o ho => texts_opt fun y e => {at("y", f"(h.{g}.2 o ho) y e")}'
        elif t.startswith('Option (List '): pf = f'texts_opt fun l _ => texts_list fun y _ => {at("y", "")}'
        elif t.startswith('List '): pf = f'texts_list fun y hy => {at("y", f"h.{g}.2 y hy")}'
        elif t.startswith('Option '): pf = f'texts_opt fun y _ => {at("y", "")}'
        else: pf = at('_', f'h.{g}')
        q += f'  refine texts_cons (by decide) ({pf}) ?_\n'
    q += '  exact texts_nil\n\n'
q = q.replace('theorem DatFile.asdict_texts', '''theorem version_texts {s : PyStr} {v : Version} (h : (s, v) ∈ versionNames) : (PyTree.str s).Texts := by
  have : (versionNames.all fun p => p.1.all isScalar) = true := by decide
  exact List.all_eq_true.1 (List.all_eq_true.1 this _ h)

theorem DatFile.asdict_texts''')
q += 'end Genie\n'
open(f'{ROOT}/Proof/AsdictTexts.lean', 'w').write(q)
open(f'{ROOT}/Model/Asdict.lean', 'w').write(o)
open(f'{ROOT}/Proof/Asdict.lean', 'w').write(p)

r = '''import Verif.Proof.AsdictTexts
/-!
# C34: every field under its own name

For every class: the keys of its tree, in order, and the value under each key.  (Generated by `tools/gen_asdict.py`.)
-/

namespace Genie

'''
for c in order:
    C = classes[c]
    arg = '(old : Bool) ' if c in OLD else ''
    oldarg = ' old' if c in OLD else ''
    r += f'/-- `{c}`: the keys are the names of the fields, without repetition, and each field is found under its name. -/\n'
    r += f'theorem C34_fields_{c} {arg}(self : {c}) :\n    PyTree.keys (self.asdict{oldarg}) = ([' + ', '.join(f'"{fn}"' for fn, _ in C.fields) + '] : List String).map lit ∧\n    (PyTree.keys (self.asdict' + oldarg + ')).Nodup'
    for fn, t in C.fields:
        r += f' ∧\n    PyTree.key "{fn}" (self.asdict{oldarg}) = some ({tree(c, fn, t)})'
    r += ' := by\n  refine ⟨rfl, ?_' + ', rfl' * len(C.fields) + '⟩\n  have e : PyTree.keys (self.asdict' + oldarg + ') = ([' + ', '.join(f'"{fn}"' for fn, _ in C.fields) + '] : List String).map lit := rfl\n  rw [e]\n  decide +kernel\n\n'
r += 'end Genie\n'
open(f'{ROOT}/Props/C34_Fields.lean', 'w').write(r)
