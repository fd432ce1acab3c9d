#!/usr/bin/env python3
"""Writes lean/Verif/Spec/EditObjects.lean (the tables of Spec/Edits.lean in terms of objects) and
lean/Verif/Proof/Edits/Objects.lean (that they are what they say)."""
import re, sys
sys.path.insert(0, '/verif/tools')
ROOT = '/verif/lean/Verif/'
from gen_edits import slots, nodep, obj
ED = open(ROOT + 'Spec/Edits.lean').read()
EL = open(ROOT + 'Spec/EditElems.lean').read()
OT = open(ROOT + 'Spec/ObjectTrees.lean').read()
OLD = {'Creatable', 'Unit', 'Civ', 'DatFile'}
def names(c):
    m = re.search(r'^def ' + c + r'\.object .*? :=\n  \.obj \(lit "\w+"\) \[\n((?:    .*\n)+)', OT, re.M)
    return [(a, b) for a, b in re.findall(r'\(lit "(\w+)", (.*?)\)[,\]]\n', m.group(1))]
ALLC = re.findall(r'^def (\w+)\.object', OT, re.M)
IDX = {c: {a: (k, b) for k, (a, b) in enumerate(names(c))} for c in ALLC}
def objf(c): return f'({c}.object false)' if c in OLD else f'{c}.object'
def elemobj(t):
    if t == 'Int': return '.int'
    if t == 'PyFloat': return '.float'
    m = re.fullmatch(r'\(Option Genie\.(\w+)\)', t)
    if m: return f'(optObj {objf(m.group(1))})'
    return objf(t[len('Genie.'):])
def table(src, name):
    """class -> [(condition or None, [entry text])]"""
    i = src.index(f'def {name} (')
    j = src.find('\n\n', i)
    body = src[i:j]
    out = {}
    for part in re.split(r'\n  \| ', body)[1:]:
        head, rest = part.split(' =>', 1)
        if head == '_': continue
        c = 'DatFile' if head == '.file' else re.search(r'\.record \(?\.(\w+)', head).group(1)
        groups = []
        segs = re.split(r'\] \+\+\n\s*(if .*? then) \[', rest)
        groups.append((None, segs[0]))
        for k in range(1, len(segs), 2): groups.append((re.fullmatch('if (.*) then', segs[k]).group(1), segs[k + 1]))
        out[c] = []
        for cond, t in groups:
            ents = re.findall(r'^ *\(?(?:(\d+), )?(⟨"(\w+)".*?⟩)', t.replace(',\n        fun', ', fun'), re.M)
            out[c].append((cond, [(e[1], e[2]) for e in ents]))
    return out
INT, FLO, TXT = table(ED, 'intFields'), table(ED, 'floatFields'), table(ED, 'textFields')
FIX, CNT, SLO, OTH = table(ED, 'fixedLists'), table(ED, 'countedLists'), table(ED, 'slotLists'), table(EL, 'Node.otherLists')
S = slots()
def elem(t):
    """(type, object) of an element written `t` in Spec/ObjectTrees.lean"""
    if t == '.int': return 'Int', '.int'
    if t == '.float': return 'PyFloat', '.float'
    m = re.fullmatch(r'\(?optObj (.*?)\)?', t) if t.startswith('(optObj') else None
    if m:
        q = m.group(1)
        q = q if not q.startswith('(') else q.rstrip(')') + ')'
        a, b = elem(q)
        return f'(Option {a})', f'(optObj {b})'
    m = re.fullmatch(r'\(?(\w+)\.object( old)?\)?', t)
    return f'Genie.{m.group(1)}', objf(m.group(1))
def kind(b):
    m = re.fullmatch(r'\.(int|float|str) self\.\w+', b)
    if m: return {'int': 'Int', 'float': 'PyFloat', 'str': 'PyStr'}[m.group(1)], '.' + m.group(1)
    m = re.fullmatch(r'\.(list|tuple) \(self\.\w+\.map (.*)\)', b)
    if m:
        ty, fn = elem(m.group(2))
        return f'(List {ty})', f'fun l => .{m.group(1)} (l.map {fn})'
    if b.startswith('invulnerabilityObj'): return 'PyFloat', '.float'
    m = re.fullmatch(r'optObj \(fun l => \.list \(l\.map Task\.object\)\) self\.\w+', b)
    if m: return '(Option (List Genie.Task))', 'optObj fun l => .list (l.map Task.object)'
    m = re.fullmatch(r'optObj (.*) self\.\w+', b)
    if m:
        ty, fn = elem(m.group(1))
        return f'(Option {ty})', f'optObj {fn}'
    m = re.fullmatch(r'(\w+)\.object self\.\w+', b)
    return f'Genie.{m.group(1)}', objf(m.group(1))
def pat(c): return nodep(c)
def main():
    o = '''import Verif.Spec.EditElems
import Verif.Spec.RecordObjects
import Verif.Spec.Converts
import Verif.Spec.Programs
/-!
# The places and fields of a file, in terms of objects

The places and fields of `Spec/Edits.lean` are those that a Python program writes as `data.civs[1].units[4].type_50.attacks[0].amount`:
`Place.path` is the expression for the record, the `name` of a field that of its attribute.  (Generated by `tools/gen_edit_objects.py`.)
-/

namespace Genie
open Layout

/-- The object with this value. -/
def Node.object : (n : Node) → n.Obj → ObjTree
  | .file => DatFile.object false
  | .record c => c.object

/-- The end of the expression that leads to the record. -/
def Slot.path : Slot a b → ObjPath
'''
    for k, c, f, d in S:
        a = {'list': ' i', 'slots': ' i', 'tasks': ' i', 'restr': ' _ i'}.get(k, '')
        if c == 'TerrainRestriction': a = ' _ i'
        o += f'  | .{c}_{f}{a} => [.attr (lit "{f}")' + (', .item i' if a else '') + ']\n'
    o += '''
/-- The expression that leads to the record, such as `.civs[1].units[4].type_50`. -/
def Place.path : Place a b → ObjPath
  | .here => []
  | .step s p => s.path ++ p.path

/-- Terrain restrictions are filed under the length of their tables: the place asks for the length that the table of this file has. -/
def Slot.Right : Slot a b → a.Obj → Prop
  | .DatFile_terrain_restrictions n i, (x : Genie.DatFile) =>
    ∀ r, x.terrain_restrictions[i]? = some r → r.passable_buildable_dmg_multiplier.length = n
  | _, _ => True

/-- … on the way to the record. -/
def Place.Right : Place a b → a.Obj → Prop
  | .here, _ => True
  | .step s p, x => s.Right x ∧ ∀ m, s.get x = some m → p.Right m

/-- An attribute, with the objects it can hold. -/
structure Attr (α : Type) where
  name : String
  Val : Type
  get : α → Val
  set : α → Val → α
  object : Val → ObjTree

/-- An attribute that holds a list, with the objects of its elements. -/
structure ListAttr (α : Type) where
  name : String
  Elem : Type
  get : α → List Elem
  set : α → List Elem → α
  object : Elem → ObjTree

/-- All attributes of all classes, in the order of their definition. -/
def Node.attrs : (n : Node) → List (Attr n.Obj)
'''
    for c in ALLC:
        o += f'  | {pat(c)} => [\n      '
        l = []
        for a, b in names(c):
            fld = {'exists': 'exists_'}.get(a, a)
            ty, fn = kind(b)
            l.append(f'⟨"{a}", {ty}, fun (x : {obj(c)}) => x.{fld}, fun x y => {{ x with {fld} := y }}, {fn}⟩')
        o += ',\n      '.join(l) + ']\n'
    o += '''
/-- Those that hold lists.  (`UnitHeaders.task_list` may be `None` and is not among them.) -/
def Node.listAttrs : (n : Node) → List (ListAttr n.Obj)
'''
    for c in ALLC:
        l = []
        for a, b in names(c):
            m = re.fullmatch(r'\.list \(self\.\w+\.map (.*)\)', b)
            if m:
                ty, fn = elem(m.group(1))
                l.append(f'⟨"{a}", {ty}, fun (x : {obj(c)}) => x.{a}, fun x y => {{ x with {a} := y }}, {fn}⟩')
        if l: o += f'  | {pat(c)} => [\n      ' + ',\n      '.join(l) + ']\n'
    o += '''  | _ => []

end Genie
'''
    open(ROOT + 'Spec/EditObjects.lean', 'w').write(o)
    # proofs
    p = '''import Verif.Spec.EditObjects
import Verif.Proof.Edits.ObjectsBasic
import Verif.Proof.Edits.FieldDefs
/-! # The tables of edits in terms of objects (generated by `tools/gen_edit_objects.py`) -/

namespace Genie
open Layout

'''
    p += '''theorem restrictions_none {n i : Nat} {x : Genie.DatFile} (h : Slot.get (.DatFile_terrain_restrictions n i) x = none)
    (hr : Slot.Right (.DatFile_terrain_restrictions n i) x) : (DatFile.terrain_restrictions x)[i]? = none := by
  have h : (DatFile.terrain_restrictions x)[i]?.filter (·.passable_buildable_dmg_multiplier.length = n) = none := h
  have hr : ∀ r, (DatFile.terrain_restrictions x)[i]? = some r → r.passable_buildable_dmg_multiplier.length = n := hr
  cases e : (DatFile.terrain_restrictions x)[i]? with
  | none => rfl
  | some r => simp [e, Option.filter, hr r e] at h

'''
    for c in ALLC:
        o1 = f'{c}.object false' if c in OLD else f'{c}.object'
        p += f'''theorem {c}.names_nodup (x : {obj(c)}) : (({o1} x).attrs.map Prod.fst).Nodup := by
  show ([{', '.join(f'lit "{a}"' for a, _ in names(c))}] : List PyStr).Nodup
  decide +kernel

'''
    def tree(items):
        """items: [(cond, [proof])]"""
        def lst(ps):
            r = 'forall_nil'
            for q in reversed(ps): r = f'forall_cons ({q})\n    ({r})'
            return r
        parts = [lst(ps) if cond is None else f'forall_ite fun _ => {lst(ps)}' for cond, ps in items]
        return parts
    def join(parts):
        r = parts[0]
        for q in parts[1:]: r = f'forall_append ({r})\n    ({q})'
        return r
    for T, nm, P in ((INT, 'intFields', 'IntShown'), (FLO, 'floatFields', 'FloatShown'), (TXT, 'textFields', 'TextShown')):
        for c in T:
            items = []
            for cond, es in T[c]:
                ps = []
                for e, n in es:
                    k = IDX[c][n][0]
                    if P == 'FloatShown':
                        extra = 'fun y h => (by cases h; rfl)' if n != 'speed' else 'fun y h => (by rw [show Unit.speed x = some y from h]; rfl)'
                        ps.append(f'fun x _ => ⟨_, .of {k} ({c}.names_nodup x) rfl rfl, {extra}⟩')
                    else: ps.append(f'fun x _ => .of {k} ({c}.names_nodup x) rfl rfl')
                items.append((cond, ps))
            nn = ' (n : Nat)' if c == 'TerrainRestriction' else ''
            p += f'theorem {c}.{nm}_shown (v : Version){nn} : ∀ f ∈ Node.{nm} v ({pat(c).replace("_", "n") if nn else pat(c)}), {P} _ f :=\n  {join(tree(items))}\n\n'
        p += f'theorem Node.{nm}_shown (v : Version) (n : Node) : ∀ f ∈ n.{nm} v, {P} n f := by\n  match n with\n'
        for c in T:
            q = pat(c).replace('_)', 'n)')
            p += f'  | {q} => exact {c}.{nm}_shown v{" n" if c == "TerrainRestriction" else ""}\n'
        for c in ALLC:
            if c not in T:
                p += f'  | {pat(c)} => exact forall_nil\n'
        p += '\n'
    for nm, P, ent in (('attrs', 'AttrShown', None), ('listAttrs', 'ListShown', '.list (')):
        for c in ALLC:
            ks = [k for k, (a, b) in enumerate(names(c)) if ent is None or b.startswith(ent)]
            if not ks: continue
            nn = ' (n : Nat)' if c == 'TerrainRestriction' else ''
            items = [(None, [f'fun x _ => .of {k} ({c}.names_nodup x) rfl rfl' for k in ks])]
            p += f'theorem {c}.{nm}_shown{nn} : ∀ A ∈ Node.{nm} ({pat(c).replace("_", "n") if nn else pat(c)}), {P} _ A :=\n  {join(tree(items))}\n\n'
        p += f'theorem Node.{nm}_shown (n : Node) : ∀ A ∈ n.{nm}, {P} n A := by\n  match n with\n'
        for c in ALLC:
            q = pat(c).replace('_)', 'n)')
            if ent is None or any(b.startswith(ent) for a, b in names(c)): p += f'  | {q} => exact {c}.{nm}_shown{" n" if c == "TerrainRestriction" else ""}\n'
            else: p += f'  | {q} => exact forall_nil\n'
        p += '\n'
    p += '''theorem Node.object_attrs (n : Node) (x : n.Obj) :
    ∃ c, n.object x = .obj c (n.attrs.map fun A => (lit A.name, A.object (A.get x))) := by
  match n with
'''
    for c in ALLC: p += f'  | {pat(c)} => exact ⟨_, rfl⟩\n'
    p += '''
theorem Node.attrs_lists (n : Node) : ∀ A ∈ n.attrs, (∃ L ∈ n.listAttrs, L.name = A.name) ∨ (∀ w l, A.object w ≠ .list l) ∨
    (n = .record .UnitHeaders ∧ A.name = "task_list") := by
  match n with
'''
    for c in ALLC:
        q = pat(c).replace('_)', 'n)')
        p += f'  | {q} =>\n'
        li = 0
        for a, b in names(c):
            if b.startswith('.list ('):
                p += f'    refine forall_cons (.inl ⟨_, {".tail _ (" * li}.head _{")" * li}, rfl⟩) ?_\n'; li += 1
            elif a == 'task_list': p += '    refine forall_cons (.inr (.inr ⟨rfl, rfl⟩)) ?_\n'
            elif b.startswith('optObj'): p += '    refine forall_cons (.inr (.inl fun w l h => (by cases w <;> cases h))) ?_\n'
            else: p += '    refine forall_cons (.inr (.inl fun w l h => (nomatch h))) ?_\n'
        p += '    exact forall_nil\n'
    p += '''
theorem Slot.shown {a b : Node} (s : Slot a b) (x : a.Obj) (m y : b.Obj) (h : s.get x = some m) : SlotShown s x m y := by
  cases s with
'''
    for k, c, f, d in S:
        a = {'list': ' i', 'slots': ' i', 'tasks': ' i', 'restr': ' n i'}.get(k, '')
        if c == 'TerrainRestriction': a = ' n i'
        idx, tr = IDX[c][f]
        tup = tr.startswith('.tuple')
        at = lambda rf: f'.of {idx} ({c}.names_nodup x) {rf} rfl'
        if k == 'one': pr = f'cases h; exact .attr ({at("rfl")})'
        elif k == 'part':
            pr = f'exact .attr (.of {idx} ({c}.names_nodup x) (by show some (_, optObj _ ({c}.{f} x)) = _; rw [show {c}.{f} x = some m from h]; rfl) rfl)'
        elif k == 'tasks':
            pr = f'''
    cases e : UnitHeaders.task_list x with
    | none => rw [show Slot.get (.UnitHeaders_task_list i) x = (UnitHeaders.task_list x).bind (·[i]?) from rfl, e] at h; cases h
    | some l =>
      rw [show Slot.get (.UnitHeaders_task_list i) x = (UnitHeaders.task_list x).bind (·[i]?) from rfl, e] at h
      refine .item (tuple := false) (mapped (f := Task.object) (show l[i]? = some m from h)) (mapped_set Task.object y) (.of {idx} (UnitHeaders.names_nodup x) ?_ ?_)
      · show some (_, optObj _ (UnitHeaders.task_list x)) = _; rw [e]; rfl
      · show ObjTree.obj _ [_, (_, optObj _ ((UnitHeaders.task_list x).map (·.set i y)))] = _
        rw [e]; rfl'''
        elif k == 'slots':
            pr = f'''
    obtain h := slotAt_some (show slotAt ({c}.{f} x) i = some m from h)
    exact .item (tuple := false) (mapped (f := optObj {objf(d)}) h) (mapped_set (optObj {objf(d)}) (some y)) (.of {idx} ({c}.names_nodup x) rfl rfl)'''
        else:
            h = f'(show ({c}.{f} x)[i]? = some m from h)' if k != 'restr' else '(restrictions_get h).1'
            pr = f'exact .item (tuple := {"true" if tup else "false"}) (mapped (f := {objf(d)}) {h}) (mapped_set {objf(d)} y) (.of {idx} ({c}.names_nodup x) rfl rfl)'
        p += f'  | {c}_{f}{a} => {pr}\n'
    p += '''
theorem Slot.missing {a b : Node} (s : Slot a b) (x : a.Obj) (h : s.get x = none) (hr : s.Right x) : SlotMissing s x := by
  cases s with
'''
    for k, c, f, d in S:
        a = {'list': ' i', 'slots': ' i', 'tasks': ' i', 'restr': ' n i'}.get(k, '')
        if c == 'TerrainRestriction': a = ' n i'
        idx, tr = IDX[c][f]
        tup = 'true' if tr.startswith('.tuple') else 'false'
        nd = f'rfl ({c}.names_nodup x)'
        if k == 'one': pr = 'cases h'
        elif k == 'part':
            pr = f'exact .attr {idx} {nd} (by show some (_, optObj _ ({c}.{f} x)) = _; rw [show {c}.{f} x = none from h]; rfl)'
        elif k == 'tasks':
            pr = f'''
    cases e : UnitHeaders.task_list x with
    | none => exact .noList {idx} {nd} (by show some (_, optObj _ (UnitHeaders.task_list x)) = _; rw [e]; rfl)
    | some l =>
      rw [show Slot.get (.UnitHeaders_task_list i) x = (UnitHeaders.task_list x).bind (·[i]?) from rfl, e] at h
      refine .item {idx} false (.inl (mapped_none Task.object (show l[i]? = none from h))) {nd} ?_
      show some (_, optObj _ (UnitHeaders.task_list x)) = _; rw [e]; rfl'''
        elif k == 'slots':
            pr = f'exact .item {idx} false (slotAt_none (f := optObj {objf(d)}) rfl h) {nd} rfl'
        else:
            hh = f'(show ({c}.{f} x)[i]? = none from h)' if k != 'restr' else '(restrictions_none h hr)'
            pr = f'exact .item {idx} {tup} (.inl (mapped_none {objf(d)} {hh})) {nd} rfl'
        p += f'  | {c}_{f}{a} => {pr}\n'
    p += '\nend Genie\n'
    open(ROOT + 'Proof/Edits/Objects.lean', 'w').write(p)
if __name__ == '__main__': main()
