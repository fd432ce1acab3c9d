#!/usr/bin/env python3
"""Generates, from the class definitions in /repo (parsed, never run),
  lean/Verif/Spec/Lengths.lean         tuple fields have their declared lengths,
  lean/Verif/Proof/Heap/Onto.lean      well-typed objects are the objects of values with those lengths, and back."""
import sys, os, ast
sys.path.insert(0, os.path.dirname(__file__))
import io, contextlib
with contextlib.redirect_stdout(io.StringIO()):
    import gen_heap as gh
    import gen_types as gt
from gen_heap import classes, nm, OLD, ROOT, cls_lines
by, has_tuple, ann = gt.by, gt.has_tuple, gt.ann
def own(a):
    if isinstance(a, ast.Name): return a.id in by and lengths(by[a.id])
    if isinstance(a, ast.Subscript):
        return a.value.id == 'tuple' or own(a.slice)
    if isinstance(a, ast.BinOp): return own(a.left)
def lengths(c): return any(own(a) for a in c.ann.values())
L = {c.name for c in classes if lengths(c)}
def obj(n): return f'{n}.object false' if n in OLD else f'{n}.object'

spec = '''import Verif.Model.Datfile
/-!
# Tuple fields have their declared lengths

In the value model tuples are lists; `X.Lengths` says that all the tuples in an instance of `X`, at any depth, are as long as the
annotations say.  (Generated by `tools/gen_fits.py`.)
-/

namespace Genie

'''
def cond(a, e):
    """the condition on the value e of a field"""
    if isinstance(a, ast.Name): return f'{e}.Lengths' if a.id in L else None
    if isinstance(a, ast.BinOp): return f'∀ y, {e} = some y → y.Lengths' if isinstance(a.left, ast.Name) and a.left.id in L else None
    el = a.slice if a.value.id == 'list' else a.slice.elts[0]
    inner = None
    if isinstance(el, ast.BinOp) and el.left.id in L: inner = f'∀ y, some y ∈ {e} → y.Lengths'
    if isinstance(el, ast.Name) and el.id in L: inner = f'∀ y ∈ {e}, y.Lengths'
    if a.value.id == 'tuple':
        assert inner is None
        return f'{e}.length = {len(a.slice.elts)}'
    return inner
for c in classes:
    if c.name not in L: continue
    spec += f'/-- `class {c.name}` — {cls_lines(c)}. -/\nstructure {c.name}.Lengths (x : {c.name}) : Prop where\n'
    for f, a in c.ann.items():
        k = cond(a, f'x.{nm(f)}')
        if k: spec += f'  {nm(f)} : {k}\n'
    spec += '\n'
open(f'{ROOT}/Spec/Lengths.lean', 'w').write(spec + 'end Genie\n')

def h(s):
    r = 7
    for ch in s: r = r * 131 + ord(ch)
    return r
prf = '''import Verif.Proof.Heap.Fits
import Verif.Proof.Heap.Typed
import Verif.Spec.Lengths
import Verif.Spec.Sized
/-! # Well-typed objects are the objects of values (generated by `tools/gen_fits.py`) -/

set_option linter.unusedVariables false
set_option maxRecDepth 20000

namespace Genie

/-- Any function of names will do that tells the classes apart. -/
def PyStr.key (s : PyStr) : Nat := s.foldl (fun h c => h * 131 + c) 7

def Declares.table : List (PyStr × List (PyStr × Ann)) :=
  [''' + ',\n   '.join(f'(lit "{c.name}", {c.name}.annotations' + (' false' if c.name == 'Creatable' else '') + ')' for c in classes) + ''']

theorem Declares.index {c : PyStr} {fs : List (PyStr × Ann)} : Declares false c fs → ∃ i : Nat, Declares.table[i]? = some (c, fs)
'''
for i, c in enumerate(classes): prf += f'  | .{c.name} => ⟨{i}, rfl⟩\n'
prf += f'''
theorem Declares.keys : (Declares.table.map fun p => PyStr.key p.1).Nodup := by
  have e : ([{", ".join(f'lit "{c.name}"' for c in classes)}] : List PyStr).map PyStr.key = [{", ".join(str(h(c.name)) for c in classes)}] := by
    decide +kernel
  have e' : (Declares.table.map fun p => PyStr.key p.1) = [{", ".join(str(h(c.name)) for c in classes)}] := e
  rw [e']
  decide +kernel

theorem nodup_index {{β : Type}} {{f : α → β}} : ∀ {{l : List α}} {{i j : Nat}} {{a b : α}}, (l.map f).Nodup → l[i]? = some a → l[j]? = some b → f a = f b → a = b
  | [], _, _, _, _, _, h, _, _ => by simp at h
  | x :: l, 0, 0, _, _, _, h, h', _ => by simp at h h'; rw [← h, ← h']
  | x :: l, 0, j + 1, _, b, nd, h, h', e => by
    simp at h h'
    rw [List.map_cons, List.nodup_cons] at nd
    exact (nd.1 (List.mem_map.mpr ⟨b, List.mem_of_getElem? h', by rw [h, e]⟩)).elim
  | x :: l, i + 1, 0, a, _, nd, h, h', e => by
    simp at h h'
    rw [List.map_cons, List.nodup_cons] at nd
    exact (nd.1 (List.mem_map.mpr ⟨a, List.mem_of_getElem? h, by rw [h', e]⟩)).elim
  | x :: l, i + 1, j + 1, _, _, nd, h, h', e => by
    simp at h h'
    rw [List.map_cons, List.nodup_cons] at nd
    exact nodup_index nd.2 h h' e

theorem Declares.oneDef : OneDef (Declares false) := by
  intro c fs fs' h h'
  obtain ⟨i, hi⟩ := h.index
  obtain ⟨j, hj⟩ := h'.index
  exact (Prod.mk.inj (nodup_index Declares.keys hi hj rfl)).2

'''
def onto(a):
    if isinstance(a, ast.Name): return f'Onto.{a.id}' if a.id not in by else f'{a.id}.onto'
    if isinstance(a, ast.BinOp): return f'(Onto.opt {onto(a.left)})'
    if a.value.id == 'list': return f'(Onto.list {onto(a.slice)})'
    return f'(Onto.tuple (n := {len(a.slice.elts)}) rfl {onto(a.slice.elts[0])})'
def field(a, p, e):
    """proof of cond from what onto gives"""
    if isinstance(a, ast.Name): return p
    if isinstance(a, ast.BinOp): return p
    el = a.slice if a.value.id == 'list' else a.slice.elts[0]
    if a.value.id == 'tuple': return f'{p}.1'
    if isinstance(el, ast.BinOp): return f'fun y hy => {p} _ hy y rfl'
    return p
for c in classes:
    n = c.name
    P = f'{n}.Lengths' if n in L else 'fun _ => True'
    prf += f'theorem {n}.onto : Onto (Declares false) (.cls (lit "{n}")) ({obj(n)}) ({P}) := by\n  intro t ht\n  cases ht with\n  | cls hd hf =>\n'
    prf += f'  cases Declares.oneDef _ _ _ hd .{n}\n'
    fs = list(c.ann.items())
    for i, (f, a) in enumerate(fs):
        prf += f'  obtain ⟨t{i}, ts{i}, e{i}, f{i}, hf{i}⟩ := (show SuitsFields _ (_ :: _) {"ts" + str(i-1) if i else "_"} from {"hf" + str(i-1) if i else "hf"}).uncons\n' if False else \
               f'  obtain ⟨t{i}, ts{i}, e{i}, f{i}, hf{i}⟩ := SuitsFields.uncons {"hf" + str(i-1) if i else "hf"}\n'
        prf += f'  subst e{i}\n'
        prf += f'  obtain ⟨x{i}, p{i}, c{i}⟩ := {onto(a)} t{i} f{i}\n'
    prf += f'  have eN := SuitsFields.unnil hf{len(fs)-1}\n  subst eN\n'
    pr = 'trivial'
    if n in L:
        pr = '⟨' + ', '.join(field(a, f'p{i}', None) for i, (f, a) in enumerate(fs) if cond(a, 'x')) + '⟩'
    prf += f'  refine ⟨⟨{", ".join(f"x{i}" for i in range(len(fs)))}⟩, {pr}, .obj ?_⟩\n'
    prf += '  exact ' + ' <| '.join(f'.cons c{i}' for i in range(len(fs))) + ' <| .nil\n\n'

# typed now
def tfun(a, hh):
    if isinstance(a, ast.Name) and a.id in ('int', 'float', 'str'): return f'fun _ _ => .{a.id} _'
    if isinstance(a, ast.Name): return f'fun y hy => {a.id}.typedNow ({hh} y hy)' if a.id in L else f'fun y _ => {a.id}.typedNow y'
    if isinstance(a, ast.BinOp):
        m = a.left.id
        return f'fun y hy => .optObj fun z hz => {m}.typedNow ({hh} z (hz ▸ hy))' if m in L else f'fun y hy => .optObj fun z _ => {m}.typedNow z'
    if isinstance(a, ast.Subscript) and a.value.id == 'list': return f'fun y _ => .list_map ({tfun(a.slice, hh)})'
    raise Exception
for c in classes:
    n = c.name
    hyp = f'{{x : {n}}} (h : x.Lengths)' if n in L else f'(x : {n})'
    prf += f'theorem {n}.typedNow {hyp} : HasType (Declares false) (.cls (lit "{n}")) ({obj(n)} x) := by\n  refine .cls .{n} ?_\n'
    tail = []
    for f, a in c.ann.items():
        F = nm(f)
        if n == 'Creatable' and f == 'invulnerability_level': p = '(.float _)'
        elif isinstance(a, ast.Name) and a.id in ('int', 'float', 'str'): p = f'(.{a.id} _)'
        elif isinstance(a, ast.Name): p = f'({a.id}.typedNow h.{F})' if a.id in L else f'({a.id}.typedNow _)'
        elif isinstance(a, ast.BinOp):
            if isinstance(a.left, ast.Name):
                m = a.left.id
                p = f'(.optObj fun z _ => .{m} _)' if m not in by else f'(.optObj fun z hz => {m}.typedNow (h.{F} z hz))' if m in L else f'(.optObj fun z _ => {m}.typedNow z)'
            else: p = f'(.optObj ({tfun(a.left, f"h.{F}")}))'
        elif a.value.id == 'list': p = f'(.list_map ({tfun(a.slice, f"h.{F}")}))'
        else: p = f'(.tuple_map (n := {len(a.slice.elts)}) rfl h.{F} ({tfun(a.slice.elts[0], None)}))'
        tail.append(f'.cons {p}')
    prf += '  exact ' + ' <|\n    '.join(tail) + ' <| .nil\n\n'

# well-formed values have the lengths
for c in classes:
    n = c.name
    if n not in L: continue
    wf = 'WFAt v' if n == 'DatFile' else 'WF v'
    pre, W, k = '', f'{n}.{wf} x', ''
    if n == 'Creatable': W, k = 'Creatable.WFWith v k x', '{k : Int} '
    if n == 'TerrainRestriction': W, k = 'TerrainRestriction.WF v k x', '{k : Nat} '
    prf += f'theorem {n}.lengths {{v : Version}} {k}{{x : {n}}} (h : {W}) : x.Lengths where\n'
    for f, a in c.ann.items():
        F = nm(f)
        if not cond(a, 'x'): continue
        if isinstance(a, ast.Name): p = f'{a.id}.lengths h.{F}'
        elif isinstance(a, ast.BinOp): p = f'fun y hy => {a.left.id}.lengths (h.{F}.2 y hy)'
        elif a.value.id == 'tuple': p = f'h.{F}.1'
        elif isinstance(a.slice, ast.BinOp): p = f'fun y hy => {a.slice.left.id}.lengths (h.{F}.2 _ hy y rfl)'
        else: p = f'fun y hy => {a.slice.id}.lengths (h.{F}.2 y hy)'
        prf += f'  {F} := {p}\n'
    prf += '\n'
prf += '''theorem Creatable.Lengths.sized {x : Creatable} (h : x.Lengths) : x.Sized := h.projectile_spawning_area

theorem Building.Lengths.sized {x : Building} (h : x.Lengths) : x.Sized := h.looting_table

theorem Unit.Lengths.sized {x : Unit} (h : x.Lengths) : x.Sized :=
  ⟨h.standing_graphic, h.placement_side_terrain, h.placement_terrain, h.clearance_size, fun c hc => (h.creatable c hc).sized,
    fun b hb => (h.building b hb).sized⟩

theorem Civ.Lengths.sized {x : Civ} (h : x.Lengths) : x.Sized := fun u hu => (h.units u hu).sized

theorem DatFile.Lengths.sized {x : DatFile} (h : x.Lengths) : x.Sized := fun c hc => (h.civs c hc).sized

'''
open(f'{ROOT}/Proof/Heap/Onto.lean', 'w').write(prf + 'end Genie\n')
