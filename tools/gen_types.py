#!/usr/bin/env python3
"""Generates, from the class definitions in /repo (parsed, never run),
  lean/Verif/Spec/Annotations.lean     the declared fields of every class with their annotations,
  lean/Verif/Proof/Heap/Typed.lean     the proofs that the value of a well-formed instance has the declared type,
  lean/Verif/Proof/Heap/Asdict.lean    the proofs that dataclasses.asdict of it is the tree of Model/Asdict.lean."""
import sys, os, ast
sys.path.insert(0, os.path.dirname(__file__))
import gen_heap as gh
from gen_heap import classes, nm, OLD, ROOT, cls_lines
by = {c.name: c for c in classes}
def ann(a):
    if isinstance(a, ast.Name):
        return '.' + a.id if a.id in ('int', 'float', 'str') else f'.cls (lit "{a.id}")'
    if isinstance(a, ast.Subscript) and a.value.id == 'list': return f'.list ({ann(a.slice)})'
    if isinstance(a, ast.Subscript): return '.tuple [' + ', '.join(ann(e) for e in a.slice.elts) + ']'
    if isinstance(a, ast.BinOp):
        assert isinstance(a.right, ast.Constant) and a.right.value is None
        return f'.opt ({ann(a.left)})'
    raise Exception(ast.dump(a))
def has_tuple(c):
    def go(a):
        if isinstance(a, ast.Name): return a.id in by and has_tuple(by[a.id])
        if isinstance(a, ast.Subscript): return a.value.id == 'tuple' or go(a.slice)
        if isinstance(a, ast.BinOp): return go(a.left)
    return c.name == 'Creatable' or any(go(a) for a in c.ann.values())
spec = '''import Verif.Spec.Types
import Verif.Py.Utf8
/-!
# The class definitions

The fields of every class with their annotations, as they stand in `/repo/src/genieutils`.  (Generated by `tools/gen_types.py`.)
-/

namespace Genie

'''
for c in classes:
    old = c.name == 'Creatable'
    spec += f'/-- `class {c.name}` — {cls_lines(c)}.'
    if old: spec += '  For objects read from files before 8.4 (`old`) the annotation\n`float` of `invulnerability_level` is replaced by what is there, an `int`. '
    spec += f' -/\ndef {c.name}.annotations{" (old : Bool)" if old else ""} : List (PyStr × Ann) :=\n  ['
    fs = []
    for f, a in c.ann.items():
        t = 'if old then .int else .float' if old and f == 'invulnerability_level' else ann(a)
        fs.append(f'(lit "{f}", {t})')
    spec += ',\n   '.join(fs) + ']\n\n'
spec += '''/-- All class definitions.  (`old`: see `Creatable.annotations`.) -/
inductive Declares (old : Bool) : PyStr → List (PyStr × Ann) → Prop
'''
for c in classes:
    spec += f'  | {c.name} : Declares old (lit "{c.name}") ' + ('(Creatable.annotations old)\n' if c.name == 'Creatable' else f'{c.name}.annotations\n')
spec += '\nend Genie\n'
open(f'{ROOT}/Spec/Annotations.lean', 'w').write(spec)

prf = '''import Verif.Spec.Annotations
import Verif.Spec.ObjectTrees
import Verif.Spec.Versioned
/-! # Well-formed values have the declared types (generated by `tools/gen_types.py`) -/

namespace Genie

theorem HasType.list_map {D} {a : Ann} {f : α → ObjTree} {l : List α} (h : ∀ x ∈ l, HasType D a (f x)) : HasType D (.list a) (.list (l.map f)) :=
  .list fun t ht => by
    obtain ⟨x, hx, rfl⟩ := List.mem_map.mp ht
    exact h x hx

theorem HasTypes.map {D} {f : α → ObjTree} : ∀ {as : List Ann} {l : List α}, l.length = as.length → (∀ a ∈ as, ∀ x ∈ l, HasType D a (f x)) →
    HasTypes D as (l.map f)
  | [], [], _, _ => .nil
  | [], _ :: _, h, _ => nomatch h
  | _ :: _, [], h, _ => nomatch h
  | a :: as, x :: l, h, k =>
    .cons (k a List.mem_cons_self x List.mem_cons_self)
      (HasTypes.map (Nat.succ.inj h) fun b hb y hy => k b (List.mem_cons_of_mem _ hb) y (List.mem_cons_of_mem _ hy))

theorem HasType.tuple_map {D} {a : Ann} {n : Nat} {as : List Ann} (has : as = List.replicate n a) {f : α → ObjTree} {l : List α} (hl : l.length = n)
    (h : ∀ x ∈ l, HasType D a (f x)) : HasType D (.tuple as) (.tuple (l.map f)) := by
  subst has
  exact .tuple (HasTypes.map (by simp [hl]) fun b hb x hx => by rw [List.eq_of_mem_replicate hb]; exact h x hx)

theorem HasType.optObj {D} {a : Ann} {f : α → ObjTree} {o : Option α} (h : ∀ x, o = Option.some x → HasType D a (f x)) : HasType D (.opt a) (Genie.optObj f o) := by
  cases o with
  | none => exact .none
  | some x => exact .some (h x rfl)

'''
def scalar(k): return f'.{k} _'
def typed_fun(a, h):
    """proof of ∀ x ∈ l (or x with its evidence h), HasType (f x)"""
    if isinstance(a, ast.Name) and a.id in ('int', 'float', 'str'): return f'fun _ _ => .{a.id} _'
    if isinstance(a, ast.Name):
        return f'fun y hy => {a.id}.typed ({h} y hy)' if has_tuple(by[a.id]) else f'fun y _ => {a.id}.typed y'
    if isinstance(a, ast.BinOp): # list[X | None]
        n = a.left.id
        return f'fun y hy => .optObj fun z _ => .{n} _' if n not in by else f'fun y hy => .optObj fun z hz => {n}.typed ({h} y hy z hz)' if has_tuple(by[n]) else f'fun y hy => .optObj fun z _ => {n}.typed z'
    if isinstance(a, ast.Subscript) and a.value.id == 'list': # (list[X]) | None
        return f'fun y _ => .list_map ({typed_fun(a.slice, h)})'
    raise Exception(ast.dump(a))
for c in classes:
    n = c.name
    t = has_tuple(c)
    old = n in OLD
    assert not (old and not t)
    args = '{v : Version} ' if t else '{old : Bool} '
    obj = f'{n}.object (decide (v.num < 84)) x' if old else f'{n}.object x'
    D = 'Declares (decide (v.num < 84))' if old else 'Declares old'
    if t and not old: args = '{old : Bool} {v : Version} '
    wf = 'WFAt' if n == 'DatFile' else 'WF'
    hyp = '' if not t else f'{{x : {n}}} (h : {n}.{wf} v x)'
    if n == 'Creatable': hyp = '{k : Int} {x : Creatable} (h : Creatable.WFWith v k x)'
    if not t: hyp = f'(x : {n})'
    prf += f'theorem {n}.typed {args}{hyp} : HasType ({D}) (.cls (lit "{n}")) ({obj}) := by\n  refine .cls .{n} ?_\n'
    tail = []
    for f, a in c.ann.items():
        F = nm(f)
        if n == 'Creatable' and f == 'invulnerability_level': p = '?_'
        elif isinstance(a, ast.Name) and a.id in ('int', 'float', 'str'): p = f'(.{a.id} _)'
        elif isinstance(a, ast.Name): p = f'({a.id}.typed h.{F})' if has_tuple(by[a.id]) else f'({a.id}.typed _)'
        elif isinstance(a, ast.BinOp):
            if isinstance(a.left, ast.Name):
                m = a.left.id
                p = f'(.optObj fun z _ => .{m} _)' if m not in by else f'(.optObj fun z hz => {m}.typed (h.{F}.2 z hz))' if has_tuple(by[m]) else f'(.optObj fun z _ => {m}.typed z)'
            else: p = f'(.optObj ({typed_fun(a.left, f"h.{F}.2")}))'
        elif a.value.id == 'list': p = f'(.list_map ({typed_fun(a.slice, f"h.{F}.2")}))'
        else:
            p = f'(.tuple_map (n := {len(a.slice.elts)}) rfl h.{F}.1 ({typed_fun(a.slice.elts[0], f"h.{F}.2")}))'
        tail.append(f'.cons {p}')
    prf += '  refine ' + ' <|\n    '.join(tail) + ' <| .nil\n'
    if n == 'Creatable':
        prf += '''  have h0 := h.invulnerability_level
  unfold Since at h0
  unfold invulnerabilityObj
  by_cases hv : v.num < 84
  · rw [if_neg (by omega)] at h0
    rw [if_pos (show decide (v.num < 84) = true from decide_eq_true hv), if_pos ⟨decide_eq_true hv, h0⟩]
    exact .int _
  · rw [if_neg (show ¬ decide (v.num < 84) = true from fun k => hv (of_decide_eq_true k)), if_neg (fun k => hv (of_decide_eq_true k.1))]
    exact .float _
'''
    prf += '\n'
prf += '''/-- `old` matters for `Creatable` only. -/
theorem Declares.change {old old' : Bool} {c : PyStr} {fs : List (PyStr × Ann)} (hc : c ≠ lit "Creatable") : Declares old c fs → Declares old' c fs
'''
for c in classes: prf += f'  | .{c.name} => ' + ('absurd rfl hc\n' if c.name == 'Creatable' else f'.{c.name}\n')
prf += '\n'
open(f'{ROOT}/Proof/Heap/Typed.lean', 'w').write(prf + 'end Genie\n')

# ---------------------------------------------------------------- asdict
prf = '''import Verif.Spec.ObjectTrees
import Verif.Model.HeapPrograms
import Verif.Model.Asdict
/-! # `dataclasses.asdict` of an object is the tree of `Verif/Model/Asdict.lean` (generated by `tools/gen_types.py`) -/

set_option linter.unusedSimpArgs false

namespace Genie

theorem asdictItems_map (l : List ObjTree) : ObjTree.asdictItems l = l.map ObjTree.asdict := by
  induction l with
  | nil => rfl
  | cons t l ih => simp only [ObjTree.asdictItems, ih, List.map_cons]

theorem asdict_list_map {f : α → ObjTree} {g : α → PyTree} (h : ∀ x, (f x).asdict = g x) (l : List α) :
    (ObjTree.list (l.map f)).asdict = .list (l.map g) := by
  simp only [ObjTree.asdict, asdictItems_map, List.map_map]
  congr 1
  exact List.map_congr_left fun x _ => h x

theorem asdict_tuple_map {f : α → ObjTree} {g : α → PyTree} (h : ∀ x, (f x).asdict = g x) (l : List α) :
    (ObjTree.tuple (l.map f)).asdict = .list (l.map g) := by
  simp only [ObjTree.asdict, asdictItems_map, List.map_map]
  congr 1
  exact List.map_congr_left fun x _ => h x

theorem asdict_opt {f : α → ObjTree} {g : α → PyTree} (h : ∀ x, (f x).asdict = g x) (o : Option α) :
    (optObj f o).asdict = optTree g o := by
  cases o with
  | none => rfl
  | some x => exact h x

theorem asdict_invulnerability (old : Bool) (x : PyFloat) : (invulnerabilityObj old x).asdict = invulnerabilityTree old x := by
  unfold invulnerabilityObj invulnerabilityTree
  split <;> rfl

'''
def eq(a):
    if isinstance(a, ast.Name) and a.id in ('int', 'float', 'str'): return f'asdict_{a.id}'
    if isinstance(a, ast.Name): return f'{a.id}.object_asdict old' if a.id in OLD else f'{a.id}.object_asdict'
    if isinstance(a, ast.BinOp): return f'asdict_opt ({eq(a.left)})'
    if a.value.id == 'list': return f'asdict_list_map ({eq(a.slice)})'
    return f'asdict_tuple_map ({eq(a.slice.elts[0])})'
for c in classes:
    n = c.name
    old = n in OLD
    o = ' old' if old else ''
    rw = []
    for f, a in c.ann.items():
        if n == 'Creatable' and f == 'invulnerability_level': rw.append('asdict_invulnerability')
        elif isinstance(a, ast.Name) and a.id in ('int', 'float', 'str'): continue
        else: rw.append(eq(a))
    rw = list(dict.fromkeys(rw))
    prf += f'theorem {n}.object_asdict{" (old : Bool)" if old else ""} (x : {n}) : ({n}.object{o} x).asdict = {n}.asdict{o} x := by\n'
    prf += f'  unfold {n}.object {n}.asdict\n'
    items = ', '.join(rw)
    prf += '  simp only [asdict_obj, ObjTree.asdictAttrs, asdict_int, asdict_float, asdict_str' + (', ' + items if items else '') + ']\n\n'
prf = prf.replace('theorem asdict_invulnerability', '''theorem asdict_obj (c : PyStr) (ts : List (PyStr × ObjTree)) : (ObjTree.obj c ts).asdict = .dict (ObjTree.asdictAttrs ts) := by
  rw [ObjTree.asdict]
theorem asdict_int (i : Int) : (ObjTree.int i).asdict = .int i := by rw [ObjTree.asdict]
theorem asdict_float (x : PyFloat) : (ObjTree.float x).asdict = .float x := by rw [ObjTree.asdict]
theorem asdict_str (s : PyStr) : (ObjTree.str s).asdict = .str s := by rw [ObjTree.asdict]

theorem asdict_invulnerability''', 1)
open(f'{ROOT}/Proof/Heap/Asdict.lean', 'w').write(prf + 'end Genie\n')
