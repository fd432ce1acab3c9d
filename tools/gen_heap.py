#!/usr/bin/env python3
"""Generates, from the source text in /repo (parsed, never run),
  lean/Verif/Spec/ObjectTrees.lean    the value of an instance, from the annotations of the class (independent of the readers),
  lean/Verif/Model/HeapReaders.lean   the from_bytes functions once more, building objects on a heap,
  lean/Verif/Proof/Heap/Records*.lean the proofs that they build what the value readers return."""
import sys, os, ast
sys.argv = sys.argv[:1]
sys.path.insert(0, os.path.dirname(__file__))
import gen_model as gm
nm = gm.nm
ROOT = os.path.join(os.path.dirname(__file__), '..', 'lean', 'Verif')
MODS = ['effect','sound','playercolour','graphic','terrainrestriction','terrainblock','randommaps','tech','techtree','task','unit','unitheaders','civ','datfile']
OLD = {'Creatable', 'Unit', 'Civ', 'DatFile'}
BUILD = {'from_bytes': 'build', 'from_bytes_78': 'build78', 'from_bytes_84': 'build84', 'from_bytes_88': 'build88', 'from_bytes_with_count': 'buildWithCount'}
SCALAR = {'read_debug_string': 'str', 'read_string': 'str', 'read_int_8': 'int', 'read_int_16': 'int', 'read_int_32': 'int', 'read_float': 'float'}
KIND = {'Int': 'int', 'PyFloat': 'float', 'PyStr': 'str'}

classes = []
for m in MODS:
    mod = gm.Module(m)
    prefix = {'task': 'TASK_', 'unit': 'UNIT_'}.get(m, '')
    mod.cname = (lambda p: lambda x: p + x if x in ('FORMAT', 'FORMAT_LENGTH', 'FORMAT_88', 'FORMAT_LENGTH_88') else x)(prefix)
    for n in mod.tree.body:
        if isinstance(n, ast.Assign) and isinstance(n.value, ast.Constant) and isinstance(n.value.value, str):
            mod.consts[n.targets[0].id] = n.value.value
        if isinstance(n, ast.ClassDef) and any(isinstance(s, ast.AnnAssign) for s in n.body):
            c = gm.Class(mod, n)
            c.ann = {s.target.id: s.annotation for s in n.body if isinstance(s, ast.AnnAssign)}
            classes.append(c)

# ---------------------------------------------------------------- object trees
def tree_fun(a):
    """a function from the Lean value of an annotation to ObjTree"""
    if isinstance(a, ast.Name):
        if a.id in ('int', 'float', 'str'): return '.' + a.id
        return f'({a.id}.object old)' if a.id in OLD else f'{a.id}.object'
    if isinstance(a, ast.Subscript):
        el = a.slice if a.value.id == 'list' else a.slice.elts[0]
        return f'(fun l => .{a.value.id} (l.map {tree_fun(el)}))'
    if isinstance(a, ast.BinOp): return f'(optObj {tree_fun(a.left)})'
    raise Exception(ast.dump(a))
def tree(c, f):
    a, x = c.ann[f], f'self.{nm(f)}'
    if (c.name, f) == ('Creatable', 'invulnerability_level'): return f'invulnerabilityObj old {x}'
    if isinstance(a, ast.Name): return f'{tree_fun(a)} {x}' if a.id in ('int','float','str') else f'{tree_fun(a).strip("()")} {x}'
    if isinstance(a, ast.Subscript):
        el = a.slice if a.value.id == 'list' else a.slice.elts[0]
        return f'.{a.value.id} ({x}.map {tree_fun(el)})'
    if isinstance(a, ast.BinOp): return f'optObj {tree_fun(a.left)} {x}'
def cls_lines(c):
    lo = c.node.decorator_list[0].lineno if c.node.decorator_list else c.node.lineno
    hi = max(s.end_lineno for s in c.node.body if isinstance(s, ast.AnnAssign))
    return f'`/repo/src/genieutils/{c.mod.name}.py:{lo}-{hi}`'

o = '''import Verif.Model.Datfile
import Verif.Spec.Objects
/-!
# The value of an instance of every class

One function per class, from the annotations of its fields: the attributes in the order of their definition, `list[…]` a list, `tuple[…]` a
tuple, `X | None` either, a class an instance of that class.  Nothing here depends on how the readers work.  The one field that does not
always hold what its annotation says is `Creatable.invulnerability_level: float`: objects read from files before 8.4 (`old`) have the `int`
`0` there (`/repo/src/genieutils/unit.py:551`).  (Generated by `tools/gen_heap.py`.)
-/

namespace Genie

/-- `X | None`. -/
def optObj (f : α → ObjTree) : Option α → ObjTree
  | none => .none
  | some x => f x

/-- `invulnerability_level`: the `int` literal `0` of `/repo/src/genieutils/unit.py:551` (represented by `0.0` in the value model of the
reader), or a float. -/
def invulnerabilityObj (old : Bool) (x : PyFloat) : ObjTree :=
  if old = true ∧ x = PyFloat.zero then .int 0 else .float x

'''
for c in classes:
    arg = ' (old : Bool)' if c.name in OLD else ''
    o += f'/-- An instance of `{c.name}` — {cls_lines(c)}. -/\ndef {c.name}.object{arg} (self : {c.name}) : ObjTree :=\n  .obj (lit "{c.name}") [\n'
    o += ',\n'.join(f'    (lit "{f}", {tree(c, f)})' for f, _ in c.fields) + ']\n\n'
o += 'end Genie\n'
open(f'{ROOT}/Spec/ObjectTrees.lean', 'w').write(o)

# ---------------------------------------------------------------- heap readers
def literal(e):
    """HVal of a Python literal (its run-time type decides)"""
    if isinstance(e, ast.UnaryOp): 
        v = -e.operand.value
    else: v = e.value
    if v is None: return '.none', 'none'
    if isinstance(v, float): return '.float ' + {0.0: 'PyFloat.zero', 1.0: 'PyFloat.one'}[v], 'float'
    return (f'.int ({v})' if v < 0 else f'.int {v}'), 'int'

class Gen:
    def __init__(self, c, fname):
        self.c, self.fname = c, fname
        self.L, self.P = [], []      # model lines, proof lines
        self.vars = {}               # local variable -> 'int' | 'float' | 'str' | 'obj' | HVal text of a literal
        self.have_version = False
    def read(self, e):
        """(kind, heap text, proof of Builds)"""
        c = self.c
        a = e.func.attr
        if a in SCALAR: return SCALAR[a], f'lift ({c.read_expr(e)})', None
        t = c.read_expr(e).replace('.fromBytes', '.build')
        if a == 'read_class_array_with_param':
            raise Exception
        cls = [x.id for x in e.args if isinstance(x, ast.Name) and x.id[0].isupper() and not x.id.isupper()]
        h = gm.READERS[a]
        nargs = len(e.args) - len(cls)
        if a in ('read_class_array',): nargs += 1
        pf = f'Builds.{h}' + (f' {cls[0]}.builds' if cls else '') + ' _' * nargs
        return 'obj', 'HReader.' + t, pf
    def bind(self, n, e, stored):
        kind, t, pf = self.read(e)
        if kind == 'obj' and e.func.attr == 'read_class_array_with_pointers':
            cls = e.args[0].id
            self.L.append(f'  let {nm(n)} ← {t}')
            self.P.append(f'  refine Sim.pointers {cls}.builds (by remove_tac) fun _ _ _ => ?_')
            self.vars[n] = 'obj'
            return
        self.L.append(f'  let {nm(n)} ← {t}')
        self.P.append('  refine Sim.scalar fun _ => ?_' if kind != 'obj' else f'  refine Sim.object ({pf}) fun _ _ _ => ?_')
        self.vars[n] = kind
    def val(self, e, want=None):
        """HVal text of an argument expression"""
        if isinstance(e, ast.Name):
            k = self.vars[e.id]
            if k == 'obj': return nm(e.id)
            if k in ('int', 'float', 'str'): return f'.{k} {nm(e.id)}'
            if k.startswith('.'): return k
            raise Exception((e.id, k))
        return literal(e)[0]
    def unpack(self, t, v):
        c = self.c
        fmt, ln = v.args[0].id, v.args[1].args[0].id
        self.L.append(f'  let vs ← lift (unpackFrom {c.mod.cname(fmt)} {c.mod.cname(ln)})')
        self.P.append('  refine Sim.scalar fun _ => ?_')
        codes = c.mod.consts[fmt][1:]
        names = [x.id for x in t.elts]
        assert len(names) == len(codes)
        for n, k in zip(names, codes):
            self.L.append(f'  HReader.{"popFloat" if k == "f" else "popInt"} vs fun {nm(n)} vs =>')
            self.P.append(f'  refine Sim.{"popFloat" if k == "f" else "popInt"} fun _ _ => ?_')
            self.vars[n] = 'float' if k == 'f' else 'int'
        self.L.append('  HReader.popDone vs do')
        self.P.append('  refine Sim.popDone ?_')
    def list_of_new(self, n, v):
        """n = [Class(...)]"""
        assert len(v.elts) == 1
        call = v.elts[0]
        self.new_instance('item', call, {k.arg: self.val(k.value) for k in call.keywords}, call.func.id)
        self.L.append(f'  let {nm(n)} ← alloc (.list [item])')
        self.P.append('  apply Sim.allocList')
        self.P.append('  · items_tac')
        self.P.append('  intro _ _')
        self.vars[n] = 'obj'
    def new_instance(self, n, call, vals, cls):
        cc = [x for x in classes if x.name == cls][0]
        self.L.append(f'  let {n} ← alloc (.record (lit "{cls}") [' + ', '.join(f'(lit "{f}", {vals[f]})' for f, _ in cc.fields) + '])')
        self.P.append('  apply Sim.allocObj')
        self.P.append('  · attrs_tac')
        self.P.append('  intro _ _')
    def ret(self, call):
        c = self.c
        vals = {}
        for k in call.keywords:
            if isinstance(k.value, ast.Tuple):
                self.L.append(f'  let {nm(k.arg)} ← alloc (.tuple [' + ', '.join(self.val(x) for x in k.value.elts) + '])')
                self.P.append('  apply Sim.allocTuple')
                self.P.append('  · items_tac')
                self.P.append('  intro _ _')
                self.vars[k.arg] = 'obj'
                vals[k.arg] = nm(k.arg)
            elif isinstance(k.value, ast.Call):
                self.bind(k.arg, k.value, True)
                vals[k.arg] = self.val(ast.Name(k.arg))
            else:
                vals[k.arg] = self.val(k.value)
        assert set(vals) == set(c.ann), (c.name, set(vals) ^ set(c.ann))
        self.L.append(f'  alloc (.record (lit "{c.name}") [\n' + ',\n'.join(f'    (lit "{f}", {vals[f]})' for f, _ in c.fields) + '])')
        self.P.append('  apply Sim.retObj rfl')
        self.P.append('  attrs_tac')
    def run(self):
        c, f = self.c, self.c.funs[self.fname]
        body = f.body
        if isinstance(body[0], ast.If) and isinstance(body[0].body[0], ast.Return):
            return None
        reassigned = {b.targets[0].id for s in body if isinstance(s, ast.If) for b in s.body if isinstance(b, ast.Assign) and isinstance(b.targets[0], ast.Name)}
        for s in body:
            if isinstance(s, ast.Assign):
                t, v = s.targets[0], s.value
                if isinstance(t, ast.Tuple): self.unpack(t, v)
                elif isinstance(v, ast.Call): self.bind(t.id, v, t.id in c.ann)
                elif isinstance(v, ast.IfExp):
                    assert v.orelse.elts == []
                    k, tx, pf = self.read(v.body)
                    self.L.append(f'  let {nm(t.id)} ← HReader.readOrEmpty ({nm(v.test.id)} ≠ 0) ({tx} (countStored := true))')
                    self.P.append(f'  refine Sim.object (Builds.readOrEmpty ({pf}) _) fun _ _ _ => ?_')
                    self.vars[t.id] = 'obj'
                elif isinstance(v, ast.List): self.list_of_new(t.id, v)
                elif t.id in reassigned or t.id not in c.ann:
                    tx, k = literal(v)
                    ty = {'int': 'Int', 'float': 'PyFloat'}[k]
                    if t.id in c.ann: assert c.types[t.id] == ty, (c.name, t.id)
                    self.L.append(f'  let {nm(t.id)} : {ty} := {tx.split(" ", 1)[1]}')
                    self.vars[t.id] = k
                else:
                    tx, k = literal(v)
                    self.vars[t.id] = tx
            elif isinstance(s, ast.If):
                if not self.have_version:
                    self.L.append('  let version ← lift getVersion')
                    self.P.append('  refine Sim.version ?_')
                    self.have_version = True
                for b in s.body:
                    n = b.targets[0].id
                    assert SCALAR[b.value.func.attr] == self.vars[n]
                    self.L.append(f'  let {nm(n)} ← lift (readOr ({c.version_cond(s.test, "version")}) ({c.read_expr(b.value)}) {nm(n)})')
                    self.P.append('  refine Sim.scalar fun _ => ?_')
            elif isinstance(s, ast.Return): self.ret(s.value)
            else: raise Exception(ast.dump(s))
        return self
    def unit(self):
        c, f = self.c, self.c.funs[self.fname]
        for s in f.body:
            if isinstance(s, ast.Assign):
                t, v = s.targets[0], s.value
                if isinstance(t, ast.Tuple): self.unpack(t, v)
                elif isinstance(v, ast.Constant) and v.value is None: pass
                elif isinstance(v, ast.Constant):
                    self.L.append(f'  let {t.id} : Int := {v.value}')
                    self.vars[t.id] = 'int'
                else: self.bind(t.id, v, t.id in c.ann)
            elif isinstance(s, ast.If) and isinstance(s.test, ast.Compare):
                for n, v, conds in gm.unit_conds(s, 'type_', None):
                    k, tx, pf = self.read(v)
                    if k == 'float': tx, pf = 'float readFloat', 'Builds.float _'
                    self.L.append(f'  let {n} ← HReader.readIf ({" ∧ ".join(conds)}) ({tx})')
                    self.P.append(f'  refine Sim.object (Builds.readIf ({pf}) _) fun _ _ _ => ?_')
                    self.vars[n] = 'obj'
            elif isinstance(s, ast.If) and self.fname == 'from_bytes_84':
                self.L.append('  Creatable.storeHotKey creatable hot_key')
                self.P.append('  apply Sim.storeHotKey\n  · remove_tac\n  intro _')
            elif isinstance(s, ast.If):
                self.L.append('  let hot_key ← Creatable.readHotKey creatable hot_key')
                self.P.append('  apply Sim.readHotKey\n  · remove_tac')
                self.vars['hot_key'] = 'obj'
            elif isinstance(s, ast.Return): self.ret(s.value)
            else: raise Exception(ast.dump(s))
        return self

HAND_MODEL = {}
HAND_PROOF = {}
HAND_MODEL['UnitHeaders'] = '''/-- `UnitHeaders.from_bytes` — `/repo/src/genieutils/unitheaders.py:14-23`. -/
def UnitHeaders.build : HReader HVal := do
  let exists_ ← lift readInt8
  if exists_ ≠ 0 then do
    let task_count ← lift readInt16
    let task_list ← HReader.readClassArray Task.build task_count
    alloc (.record (lit "UnitHeaders") [
      (lit "exists", .int exists_),
      (lit "task_list", task_list)])
  else
    alloc (.record (lit "UnitHeaders") [
      (lit "exists", .int exists_),
      (lit "task_list", .none)])
'''
HAND_PROOF['UnitHeaders'] = '''theorem UnitHeaders.builds : Builds UnitHeaders.build UnitHeaders.fromBytes (fun _ => UnitHeaders.object) := by
  intro P ver
  unfold UnitHeaders.build UnitHeaders.fromBytes
  refine Sim.scalar fun _ => ?_
  refine Sim.ite (fun _ => ?_) fun _ => ?_
  · refine Sim.scalar fun _ => ?_
    refine Sim.object (Builds.readClassArray Task.builds _ _) fun _ _ _ => ?_
    apply Sim.retObj rfl
    attrs_tac
  · apply Sim.retObj rfl
    attrs_tac
'''
HOTKEY = '''/-- The hot key post-processing of `Unit.from_bytes_84` — `/repo/src/genieutils/unit.py:1243-1246`, statement by statement. -/
def Creatable.storeHotKey (creatable : HVal) (hot_key : Int) : HReader PUnit := do
  let c ← HReader.truthy creatable
  if c = true then do
    let train_locations ← getAttr creatable (lit "train_locations")
    let t ← HReader.truthy train_locations
    if (!t) = true then do
      let item ← alloc (.record (lit "TrainLocation") [(lit "train_time", .int 0), (lit "unit_id", .int (-1)), (lit "button_id", .int 0), (lit "hot_key_id", .int 16000)])
      let items ← alloc (.list [item])
      setAttr creatable (lit "train_locations") items
    else pure ()
    let train_locations ← getAttr creatable (lit "train_locations")
    let train_location ← HReader.item train_locations 0
    setAttr train_location (lit "hot_key_id") (.int hot_key)
  else pure ()

/-- The hot key post-processing of `Unit.from_bytes_88` — `/repo/src/genieutils/unit.py:1434-1435`, statement by statement: `hot_key =
creatable.train_locations[0].hot_key_id` if `creatable and creatable.train_locations`. -/
def Creatable.readHotKey (creatable : HVal) (hot_key : Int) : HReader HVal := do
  let c ← HReader.truthy creatable
  let t ← (if c = true then do
      let train_locations ← getAttr creatable (lit "train_locations")
      HReader.truthy train_locations
    else pure c)
  if t = true then do
    let train_locations ← getAttr creatable (lit "train_locations")
    let train_location ← HReader.item train_locations 0
    getAttr train_location (lit "hot_key_id")
  else pure (.int hot_key)

'''
model = '''import Verif.Model.Heap
import Verif.Model.Datfile
/-!
# `from_bytes` of every class, building objects

The `from_bytes` functions of `/repo/src/genieutils` a second time, statement by statement, on a heap: `[…]`, `(…, …)` and `Class(…)`
create objects, everything read into a field is the object the reader returned.  The attributes of an instance are listed in the order of
the class definition.  (Generated by `tools/gen_heap.py`.)
-/

set_option linter.unusedVariables false

namespace Genie
open HReader

'''
HEAD = '''/-! # The heap readers build what the value readers return (generated by `tools/gen_heap.py`) -/

set_option linter.unusedVariables false

namespace Genie
open HReader

'''
proof = 'import Verif.Model.HeapReaders\nimport Verif.Proof.Heap.Arrays\n' + HEAD + '''theorem Version.ge_84_of_88 {v : Version} (h : v.ge .VER_88 = true) : v.ge .VER_84 = true := by
  revert h; cases v <;> decide

'''
proofU = 'import Verif.Proof.Heap.HotKey\n' + HEAD
def cond_dispatch(c, f):
    pass
for c in classes:
    if c.name == 'DatFile': continue
    prf = ''
    if c.name in HAND_MODEL:
        model += HAND_MODEL[c.name] + '\n'; prf = HAND_PROOF[c.name] + '\n'
    else:
        fs = [f for f in c.funs if f in BUILD]
        fs.sort(key=lambda f: f == 'from_bytes')
        if c.name == 'Unit': model += HOTKEY
        for fn in fs:
            f = c.funs[fn]
            b = f'{c.name}.{BUILD[fn]}'
            lf = f'{c.name}.{gm.FUNS[fn]}'
            g = Gen(c, fn)
            if fn == 'from_bytes_with_count': g.vars[f.args.args[2].arg] = 'int'
            g = g.unit() if c.name == 'Unit' and fn != 'from_bytes' else g.run()
            doc = f'/-- `{c.name}.{fn}` — {c.mod.cite(f)}. -/\n'
            old = c.name in OLD
            if g is None:
                # dispatch, as in the value model
                lines = c.from_bytes(fn).split('\n')
                lines = [l for l in lines if not l.startswith('/--')]
                txt = '\n'.join(lines[1:]).replace('fromBytes', 'build').replace('← getVersion', '← lift getVersion')
                model += doc + f'def {b} : HReader HVal := do\n{txt}\n\n'
                tr = f'fun ver => {c.name}.object (!ver.ge .VER_84)' if old else f'fun _ => {c.name}.object'
                prf += f'theorem {c.name}.builds : Builds {b} {lf} ({tr}) := by\n  intro P ver\n  unfold {b} {lf}\n  refine Sim.version ?_\n'
                subs = [x for x in fs if x != fn]
                if c.name == 'Creatable':
                    prf += '''  dsimp only
  refine Sim.ite (fun h => ?_) fun h => ?_
  · rw [Version.ge_84_of_88 h]; exact Creatable.builds88 P ver
  · refine Sim.ite (fun h' => ?_) fun h' => ?_
    · rw [show ver.ge .VER_84 = true from h']; exact Creatable.builds84 P ver
    · rw [show ver.ge .VER_84 = false by simpa using h']; exact Creatable.builds78 P ver
'''
                else:
                    prf += f'  exact Sim.ite (fun _ => {c.name}.builds88 P ver) fun _ => {c.name}.builds84 P ver\n'
                prf += '\n'
            else:
                arg, app = ('', '')
                if fn == 'from_bytes_with_count':
                    p = f.args.args[2].arg; arg = f' ({p} : Int)'; app = f' {p}'
                model += doc + f'def {b}{arg} : HReader HVal := do\n' + '\n'.join(g.L) + '\n\n'
                if c.name == 'Creatable': tr = f'fun _ => Creatable.object {"true" if fn.endswith("78") else "false"}'
                elif old: tr = f'fun ver => {c.name}.object (!ver.ge .VER_84)'
                else: tr = f'fun _ => {c.name}.object'
                tn = f'{c.name}.{BUILD[fn].replace("build", "builds")}'
                prf += f'theorem {tn}{arg} : Builds ({b}{app}) ({lf}{app}) ({tr}) := by\n  intro P ver\n  unfold {b} {lf}\n' + '\n'.join(g.P) + '\n\n'
    if c.name in ('Unit', 'Civ'): proofU += prf
    else: proof += prf
dat = [c for c in classes if c.name == 'DatFile'][0]
model += f'''/-- `DatFile.from_bytes` — {dat.mod.cite(dat.funs['from_bytes'])} (the `noteLossy` line is ghost, see `DatFile.fromBytes`). -/
def DatFile.build : HReader HVal := do
'''
fp = []
g = Gen(dat, 'from_bytes')
for s in dat.funs['from_bytes'].body:
    if isinstance(s, ast.Assign):
        t, v = s.targets[0], s.value
        if isinstance(t, ast.Attribute):
            g.L.append('  let content_version ← lift (liftPy (Version.ofStr version))\n  lift (setVersion content_version)')
            g.P = []
        elif v.func.attr == 'read_class_array_with_param':
            g.L.append(f'  let {t.id} ← HReader.readClassArrayWithParam TerrainRestriction.buildWithCount {v.args[1].id} {v.args[2].id}')
            g.L.append(f'  lift (noteLossy (decide (terrain_restrictions_size.toNat = 0 ∧ terrains_used_1 ≠ 0)))')
            g.P.append('  refine Sim.terrainRestrictions fun _ _ _ => ?_')
            g.vars[t.id] = 'obj'
        else: g.bind(t.id, v, t.id in dat.ann)
    else: g.ret(s.value)
model += '\n'.join(g.L) + '\n\nend Genie\n'
open('/tmp/datproof.txt', 'w').write('\n'.join(g.P))
open(f'{ROOT}/Model/HeapReaders.lean', 'w').write(model)
open(f'{ROOT}/Proof/Heap/Records.lean', 'w').write(proof + 'end Genie\n')
open(f'{ROOT}/Proof/Heap/Units.lean', 'w').write(proofU + 'end Genie\n')
