#!/usr/bin/env python3
"""Generates, from the source text in /repo (parsed, never run),
  lean/Verif/Model/HeapWriters.lean        the to_bytes functions once more, on objects with dynamic types,
  lean/Verif/Proof/Heap/Written.lean       the proofs that they write what the value writers write."""
import sys, os, ast
sys.path.insert(0, os.path.dirname(__file__))
import gen_heap as gh
gm, nm, classes, ROOT = gh.gm, gh.nm, gh.classes, gh.ROOT
W = {'write_debug_string': 'W.debugString', 'write_int_8': 'W.int8 H', 'write_int_8_array': 'W.int8Array H',
     'write_int_16': 'W.int16 H', 'write_int_16_array': 'W.int16Array H', 'write_int_32': 'W.int32 H',
     'write_int_32_array': 'W.int32Array H', 'write_float': 'W.float', 'write_float_array': 'W.floatArray H'}
FUN = {'to_bytes': 'write', 'to_bytes_78': 'write78', 'to_bytes_84': 'write84', 'to_bytes_88': 'write88'}
OP = {ast.NotEq: 'neInt', ast.GtE: 'geInt', ast.Eq: 'eqInt'}

POINTERS = {'graphic_pointers': 'graphics', 'unit_pointers': 'units'}
def attr(n): return f'W.attr H self (lit "{n}")'
class G:
    def __init__(self, c): self.c = c; self.locals = set()
    def expr(self, e):
        """Py HVal of an expression"""
        if isinstance(e, ast.Attribute) and isinstance(e.value, ast.Name) and e.value.id == 'self':
            return f'({attr(e.attr)})'
        if isinstance(e, ast.Attribute): return f'(W.attrOf H {self.expr(e.value)} (lit "{e.attr}"))'
        if isinstance(e, ast.Subscript): return f'(W.item H {self.expr(e.value)} {e.slice.value})'
        if isinstance(e, ast.Call) and e.func.id == 'len': return f'(W.nat (W.len H {self.expr(e.args[0])}))'
        if isinstance(e, ast.Name): return f'(.ok {nm(e.id)})'
        raise Exception(ast.dump(e))
    def item(self, e):
        if isinstance(e, ast.Name): return f'.ok {nm(e.id)}'
        if isinstance(e, ast.IfExp):
            assert e.orelse.value == b''
            t = e.test
            conds = t.values if isinstance(t, ast.BoolOp) else [t]
            r = self.item(e.body)
            last = conds[-1]
            assert isinstance(last, ast.Compare) and isinstance(last.ops[0], ast.IsNot)
            r = f'W.ifNotNone {self.expr(last.left)} ({r})'
            for c in reversed(conds[:-1]): r = f'W.when [(W.truthy H) <$> {self.expr(c)}] ({r})'
            return r
        if e.func.attr == 'pack': return self.pack(e)
        assert e.func.value.id == 'self'
        w = e.func.attr
        if w == 'write_class': return f'W.cls rec {self.expr(e.args[0])} version'
        if w == 'write_class_array': return f'W.classArray H rec {self.expr(e.args[0])} version'
        if w == 'write_string': return f'W.string {self.const(e.args[0])} {self.expr(e.args[1])}'
        if w == 'write_int_32_array' and e.args[0].attr in POINTERS:
            return f'W.pointers H ({attr(POINTERS[e.args[0].attr])})'
        r = f'{W[w]} {self.expr(e.args[0])}'
        for k in e.keywords:
            if k.arg == 'signed': r += ' (signed := false)'
            else:
                assert w == 'write_int_16' and k.arg == 'if_'
                r = f'W.int16If H {self.expr(e.args[0])} ({self.c.version_cond(k.value, "version")})'
        return r
    def const(self, e): return str(e.value) if isinstance(e, ast.Constant) else e.id
    def pack(self, e):
        fmt = self.c.mod.cname(e.args[0].id)
        xs = [f'W.iter H {self.expr(a.value)}' if isinstance(a, ast.Starred) else f'W.arg {self.expr(a)}' for a in e.args[1:]]
        return f'W.pack {fmt} [\n      ' + ',\n      '.join(xs) + ']'
    def flat(self, x, ind='    '):
        if isinstance(x, ast.BinOp): return self.flat(x.left) + self.flat(x.right)
        if isinstance(x, ast.Call) and isinstance(x.func, ast.Attribute) and x.func.attr == 'join':
            return [('join', [self.item(i) for i in x.args[0].elts])]
        return [self.item(x)]
    def render(self, items):
        """top level: list of items or joins"""
        if len(items) == 1 and isinstance(items[0], tuple): items = items[0][1]
        if len(items) == 1: return items[0]
        r = []
        for i in items:
            if isinstance(i, tuple): r.append('joinB [\n      ' + ',\n      '.join(i[1]) + ']')
            else: r.append(i)
        return 'joinB [\n    ' + ',\n    '.join(r) + ']'
    def target(self, r):
        if isinstance(r.func.value, ast.Name) and r.func.value.id == 'self': return f'{self.c.name}.{FUN[r.func.attr]} H rec self version'
        return self.pack(r)
    def body(self, fname):
        f = self.c.funs[fname]; b = f.body
        if isinstance(b[0], ast.If) and isinstance(b[0].body[0], ast.Return):
            s = ''
            for st in b[:-1]: s += f'if {self.c.version_cond(st.test, "version")} then {self.target(st.body[0].value)}\n  else '
            return '  ' + s + self.target(b[-1].value)
        if isinstance(b[0], ast.Assert):
            l, r = b[0].test.left, b[0].test.comparators[0]
            return (f'do\n  let n ← W.len H {self.expr(l.args[0])}\n  let m ← W.len H {self.expr(r.args[0])}\n'
                    f'  if n ≠ m then .error .assertionError\n  else ' + self.render(self.flat(b[1].value)))
        if isinstance(b[0], ast.Assign) and isinstance(b[1], ast.If) and isinstance(b[1].body[0], ast.AugAssign):
            x = self.flat(b[0].value)[0][1]; y = self.flat(b[1].body[0].value)[0][1]
            return ('  joinB [\n    joinB [\n      ' + ',\n      '.join(x) + f'],\n    if {self.c.version_cond(b[1].test, "version")} then joinB [\n      '
                    + ',\n      '.join(y) + ']\n    else .ok []]')
        if self.c.name == 'Unit':
            L = []
            for s in b:
                if isinstance(s, ast.If):
                    def walk(s, conds):
                        t = s.test
                        conds = conds + [f'W.{OP[type(t.ops[0])]} {self.expr(t.left)} UnitType.{t.comparators[0].attr}']
                        for x in s.body:
                            if isinstance(x, ast.If): walk(x, conds)
                            else: L.append(f'  let {x.targets[0].id} ← W.when [' + ', '.join(conds) + f'] ({self.item(x.value)})')
                    walk(s, [])
                elif isinstance(s, ast.Return): L.append('  ' + self.render(self.flat(s.value)))
            return 'do\n' + '\n'.join(L)
        if (self.c.name, fname) == ('Tech', 'to_bytes_84'):
            L = []
            cond = [s for s in b if isinstance(s, ast.If)][0]
            vals = {s.targets[0].id: s.value for s in cond.body}
            L.append(f'  let n ← W.len H {self.expr(cond.test.args[0])}')
            for s in b:
                if isinstance(s, ast.Assign):
                    n = s.targets[0].id
                    v = -s.value.operand.value if isinstance(s.value, ast.UnaryOp) else s.value.value
                    L.append(f'  let {n} ← if n ≠ 0 then {self.expr(vals[n])} else .ok (.int ({v}))')
                elif isinstance(s, ast.Return): L.append('  ' + self.render(self.flat(s.value)))
            return 'do\n' + '\n'.join(L)
        if self.c.name == 'DatFile':
            ret = b[-1].value
            items = [self.item(i).replace('(.ok terrain_restrictions_size)', '(.ok (.int terrain_restrictions_size))').replace('(.ok terrains_used)', '(.ok (.int terrains_used))') for i in ret.args[0].elts]
            assert len(b) == 6
            return f'''do
  let version ← W.version {self.expr(b[0].value.args[0])}
  let terrain_restrictions_size ← W.len H {self.expr(b[1].value.args[0])}
  let n ← W.len H {self.expr(b[2].test.left.args[0])}
  let m ← W.len H {self.expr(b[2].test.comparators[0].args[0])}
  if ¬ (n = m ∧ m = terrain_restrictions_size) then .error .assertionError
  else do
  let restrictions ← {attr('terrain_restrictions')}
  let terrains_used ← if W.truthy H restrictions then W.len H {self.expr(b[4].body[0].value.args[0])} else .ok 0
  joinB [
    ''' + ',\n    '.join(items) + ']'
        assert len(b) == 1, (self.c.name, fname)
        return '  ' + self.render(self.flat(b[0].value))

out = '''import Verif.Model.HeapWrite
/-!
# `to_bytes` of every class, on objects

The `to_bytes` functions of `/repo/src/genieutils` a second time, statement by statement, on a heap.  `rec` is how they call `to_bytes` of
other objects (`W.toBytes` at the end: by the class of that object, as Python does).  (Generated by `tools/gen_heapwrite.py`.)
-/

set_option linter.unusedVariables false

namespace Genie

/-- `Version(o)` (Python): only strings are values of the enumeration. -/
def W.version (o : Py HVal) : Py Version := do
  match ← o with
  | .str s => Version.ofStr s
  | _ => .error .valueError

/-- `self.write_int_32_array([(0 if g is None else 1) for g in o])`: the properties `graphic_pointers`
(`/repo/src/genieutils/datfile.py:116-118,141`) and `unit_pointers` (`/repo/src/genieutils/civ.py:40-42,54`). -/
def W.pointers (H : Heap) (o : Py HVal) : Py Bytes := do
  let vs ← W.iter H o
  joinB ((vs.map fun v => if v = .none then HVal.int 0 else HVal.int 1).map fun v => W.int32 H (.ok v))

'''
names = []
for c in classes:
    fs = [f for f in c.funs if f in FUN]
    fs.sort(key=lambda f: f == 'to_bytes')
    for f in fs:
        body = G(c).body(f)
        extra = ''
        if c.name == 'DatFile': extra = '  The parameter `version` is overwritten by the first statement.'
        out += f'/-- `{c.name}.{f}` — {c.mod.cite(c.funs[f])}.{extra} -/\n'
        v = '_version' if c.name == 'DatFile' else 'version'
        head = f'def {c.name}.{FUN[f]} (H : Heap) (rec : W.Rec) (self : HVal) ({v} : Version) : Py Bytes :='
        out += head + (' ' + body if body.startswith('do\n') else '\n' + body) + '\n\n'
    names.append(c.name)
out += '''namespace W

/-- The `to_bytes` methods, by the name of the class. -/
def methods : List (PyStr × (Heap → Rec → HVal → Version → Py Bytes)) := [
  ''' + ',\n  '.join(f'(lit "{n}", {n}.write)' for n in names) + ''']

/-- The method of a class. -/
def method (name : PyStr) : List (PyStr × (Heap → Rec → HVal → Version → Py Bytes)) → Option (Heap → Rec → HVal → Version → Py Bytes)
  | [] => none
  | (n, m) :: rest => if n = name then some m else method name rest

/-- `o.to_bytes(version)`, with room for `depth` nested calls of that kind: `RecursionError` when they are used up.  An `int` has a method
of that name too, which does not take a version (`TypeError`); other objects have none. -/
def toBytes (H : Heap) : Nat → Rec
  | 0, _, _ => .error .recursionError
  | depth + 1, o, version =>
    match o, cell H o with
    | .int _, _ => .error .typeError
    | _, some (.record name _) =>
      match method name methods with
      | some m => m H (toBytes H depth) o version
      | none => .error .attributeError
    | _, _ => .error .attributeError

end W

end Genie
'''
open(f'{ROOT}/Model/HeapWriters.lean', 'w').write(out)

# ---------------------------------------------------------------- proofs
import re
byname = {c.name: c for c in classes}
def children(a):
    if isinstance(a, ast.Name): return [a.id] if a.id in byname else []
    if isinstance(a, ast.Subscript): return sum([children(x) for x in (a.slice.elts if isinstance(a.slice, ast.Tuple) else [a.slice])], [])
    if isinstance(a, ast.BinOp): return children(a.left)
    return []
def height(c): return 1 + max([0] + [height(byname[k]) for a in c.ann.values() for k in children(a)])
SIZED = {'Creatable', 'Building', 'Unit', 'Civ', 'DatFile'}
def obj(n): return f'{n}.object false' if n in gh.OLD else f'{n}.object'
def h(s):
    r = 7
    for ch in s: r = r * 131 + ord(ch)
    return r

class P:
    def __init__(self, c, fname):
        self.c, self.fname = c, fname
        self.idx = {f: i for i, (f, _) in enumerate(c.fields)}
    def E(self, f): return f'(h.at ({self.c.name}.distinct x) {self.idx[f]} rfl)'
    def seq(self, f):
        a = self.c.ann[f]
        return self.E(f) + '.' + a.value.id
    def written(self, k, pre='_', mem=None):
        if k in SIZED: return f'{k}.written (by omega) _ ({mem}) _ s'
        return f'{k}.written (by omega) _ _ s'
    def item(self, e):
        if isinstance(e, ast.Name): return 'rfl'
        if e.func.attr == 'pack': return self.pack(e)
        w = e.func.attr
        a = e.args[0]
        if w == 'write_class':
            k = self.c.ann[a.attr].id
            return f'W.cls_eq (f := {obj(k)}) {self.E(a.attr)} (fun _ s => {self.written(k)})'
        if w == 'write_class_array':
            el = self.c.ann[a.attr]
            el = el.slice if el.value.id == 'list' else el.slice.elts[0]
            if isinstance(el, ast.BinOp):
                k = el.left.id
                return f'W.classArrayOpt_eq (f := {obj(k)}) {self.seq(a.attr)} (by intro _ e; cases e) (fun _ m _ s => {self.written(k, mem="hs _ m")})'
            k = el.id
            return f'W.classArray_eq (f := {obj(k)}) {self.seq(a.attr)} (by intro _ e; cases e) (fun _ m _ s => {self.written(k, mem="hs _ m")})'
        if w == 'write_string': return f'W.string_eq {self.E(e.args[1].attr)}'
        lem = {'write_debug_string': 'W.debugString_eq', 'write_int_8': 'W.int8_eq', 'write_int_16': 'W.int16_eq', 'write_int_32': 'W.int32_eq',
               'write_float': 'W.float_eq', 'write_int_8_array': 'W.int8Array_eq', 'write_int_16_array': 'W.int16Array_eq',
               'write_int_32_array': 'W.int32Array_eq', 'write_float_array': 'W.floatArray_eq'}[w]
        if any(k.arg == 'if_' for k in e.keywords): lem = 'W.int16If_eq'
        if isinstance(a, ast.Call): return f'{lem} {self.seq(a.args[0].attr)}.nat'
        if isinstance(a, ast.Name): return f'{lem} h_{a.id}'
        if w == 'write_int_32_array' and a.attr in POINTERS:
            return f'(W.pointers_eq {self.seq(POINTERS[a.attr])} (by intro _ e; cases e)).trans (congrArg writeInt32Array (List.map_congr_left fun g _ => by cases g <;> rfl))'
        if w.endswith('_array'): return f'{lem} {self.seq(a.attr)}'
        return f'{lem} {self.E(a.attr)}'
    def pack(self, e):
        fmt = self.c.mod.consts[e.args[0].id]
        codes = list(fmt[1:])
        r, close = '', 0
        pos = 0
        for a in e.args[1:]:
            if isinstance(a, ast.Starred):
                f = a.value.attr
                n = len(self.c.ann[f].slice.elts)
                k = self.c.ann[f].slice.elts[0].id
                hyp = SZ[(self.c.name, f)]
                if k == 'float':
                    assert codes[pos:pos+n] == ['f'] * n
                    r += f'(.starFloat (n := {n}) {self.seq(f)} {hyp}.symm '
                else: r += f'(.starInt (cs1 := [{", ".join("." + c for c in codes[pos:pos+n])}]) {self.seq(f)} {hyp}.symm '
                pos += n
            else:
                if isinstance(a.value, ast.Subscript):
                    t = byname['TrainLocation']; i = [x for x, _ in t.fields].index(a.attr)
                    ev, k = f'(h_first.at (TrainLocation.distinct _) {i} rfl)', t.ann[a.attr].id
                else: ev, k = self.E(a.attr), self.c.ann[a.attr].id
                assert (k == 'float') == (codes[pos] == 'f'), (self.c.name, a.attr)
                r += f'(.argFloat {ev} ' if k == 'float' else f'(.argInt (c := .{codes[pos]}) {ev} '
                pos += 1
            close += 1
        assert pos == len(codes)
        t = f'W.pack_eq (by decide +kernel) {r}.nil{")" * close}'
        if any(isinstance(a, ast.Starred) for a in e.args):
            return f'({t}).trans (congrArg (structPack _) (by simp only [List.append_assoc, List.cons_append, List.nil_append, List.append_nil]))'
        return t
    def join(self, terms):
        if len(terms) == 1: return terms[0]
        return 'congrArg joinB (\n    ' + ' <|\n    '.join(f'parts_cons ({t})' for t in terms) + ' <| rfl)'
    def flat(self, x):
        if isinstance(x, ast.BinOp): return self.flat(x.left) + self.flat(x.right)
        if isinstance(x, ast.Call) and isinstance(x.func, ast.Attribute) and x.func.attr == 'join':
            return [[self.item(i) for i in x.args[0].elts]]
        return [self.item(x)]
    def render(self, ts):
        if len(ts) == 1 and isinstance(ts[0], list): ts = ts[0]
        return self.join([self.join(t) if isinstance(t, list) else t for t in ts])

SZ = {('Creatable', 'projectile_spawning_area'): 'hs', ('Building', 'looting_table'): 'hs', ('Unit', 'standing_graphic'): 'hs.1',
      ('Unit', 'placement_side_terrain'): 'hs.2.1', ('Unit', 'placement_terrain'): 'hs.2.2.1', ('Unit', 'clearance_size'): 'hs.2.2.2.1'}
prf = '''import Verif.Proof.Heap.Shows
import Verif.Spec.Sized
/-! # The heap writers write what the value writers write (generated by `tools/gen_heapwrite.py`) -/

set_option linter.unusedVariables false
set_option maxRecDepth 20000

namespace Genie
open W

'''
def distinct(c):
    names = [f for f, _ in c.fields]
    return f'''theorem {c.name}.distinct (x : {c.name}) : (({obj(c.name)} x).attrsOf.map fun p => PyStr.hash p.1).Nodup := by
  have e : ([{", ".join(f'lit "{n}"' for n in names)}] : List PyStr).map PyStr.hash = [{", ".join(str(h(n)) for n in names)}] := by
    decide +kernel
  have e' : (({obj(c.name)} x).attrsOf.map fun p => PyStr.hash p.1) = [{", ".join(str(h(n)) for n in names)}] := e
  rw [e']
  decide +kernel

'''
def proof(c, fname):
    """(tactic block proving write = toBytes)"""
    f = c.funs[fname]; b = f.body; p = P(c, fname)
    wr, tb = f'{c.name}.{FUN[fname]}', f'{c.name}.{gm.FUNS[fname]}'
    if isinstance(b[0], ast.If) and isinstance(b[0].body[0], ast.Return):
        o = f'  unfold {wr} {tb}\n'
        def tgt(r):
            if isinstance(r.func.value, ast.Name) and r.func.value.id == 'self':
                return f'{c.name}.{FUN[r.func.attr]}_eq hn x {"hs " if c.name in SIZED else ""}h'
            return p.pack(r)
        for s in b[:-1]: o += f'  split\n  · exact {tgt(s.body[0].value)}\n'
        return o + f'  exact {tgt(b[-1].value)}\n'
    if (c.name, fname) in HANDP: return HANDP[(c.name, fname)](c, p, b, wr, tb)
    assert len(b) == 1, (c.name, fname)
    return f'  unfold {wr} {tb}\n  exact {p.render(p.flat(b[0].value))}\n'
HANDP = {}
def hp(*k):
    def d(f): HANDP[k] = f; return f
    return d
@hp('TerrainRestriction', 'to_bytes')
def _(c, p, b, wr, tb):
    return f'''  unfold {wr} {tb}
  rw [{p.seq('passable_buildable_dmg_multiplier')}.len, {p.seq('terrain_pass_graphics')}.len]
  simp only [bind, Except.bind, List.length_map]
  split
  · rfl
  exact {p.render(p.flat(b[1].value))}
'''
@hp('RandomMaps', 'to_bytes')
def _(c, p, b, wr, tb):
    return f'''  unfold {wr} {tb}
  rw [{p.seq('map_info_1')}.len, {p.seq('map_info_2')}.len]
  simp only [bind, Except.bind, List.length_map]
  split
  · rfl
  exact {p.join(['W.int32_eq (a := W.nat (.ok _)) (Ev.ok (Shows.int _))'] + p.flat(b[-1].value)[0][1:])}
'''
@hp('Type50', 'to_bytes')
def _(c, p, b, wr, tb):
    x, y = p.flat(b[0].value), p.flat(b[1].body[0].value)
    return f'''  unfold {wr} {tb}
  refine congrArg joinB (parts_cons ?_ (parts_cons ?_ rfl))
  · exact {p.render(x)}
  · split
    · exact {p.render(y)}
    · rfl
'''
@hp('UnitHeaders', 'to_bytes')
def _(c, p, b, wr, tb):
    t = p.E('task_list')
    ex = f'(by rw [{p.E("exists")}.int]; simp [W.truthy, Functor.map, Except.map, bne, BEq.beq])'
    return f'''  unfold {wr} {tb}
  refine congrArg joinB (parts_cons (W.int8_eq {p.E('exists')}) <| parts_cons ?_ <| parts_cons ?_ rfl)
  · refine W.when1 ?_ (W.ifNotNone_eq {t} (by intro _ e; cases e) fun y _ e => W.int16_eq e.list.nat)
    rw [{p.E("exists")}.int]
    by_cases h0 : x.exists_ = 0 <;> simp [W.truthy, Functor.map, Except.map, h0]
  · refine W.when1 ?_ (W.ifNotNone_eq {t} (by intro _ e; cases e) fun y _ e =>
      W.classArray_eq (f := Task.object) e.list (by intro _ e; cases e) (fun _ m _ s => Task.written (by omega) _ _ s))
    rw [{p.E("exists")}.int]
    by_cases h0 : x.exists_ = 0 <;> simp [W.truthy, Functor.map, Except.map, h0]
'''
def creatable(c, p, b, wr, tb):
    v = b[0].value
    return f'''  unfold {wr} {tb}
  refine congrArg joinB (parts_cons ({p.item(v.left)}) <| parts_cons ?_ rfl)
  have ht := {p.seq('train_locations')}
  cases htl : x.train_locations with
  | nil =>
    rw [htl] at ht
    simp only [W.pack, W.args, W.arg, W.attrOf, ht.first_none, bind, Except.bind]
  | cons t ts =>
    rw [htl] at ht
    have h_first := ht.first
    exact {p.pack(v.right)}
'''
HANDP[('Creatable', 'to_bytes_78')] = creatable
HANDP[('Creatable', 'to_bytes_84')] = creatable
@hp('Tech', 'to_bytes_84')
def _(c, p, b, wr, tb):
    rl = byname['ResearchLocation']; ix = [x for x, _ in rl.fields]
    cond = [s for s in b if isinstance(s, ast.If)][0]
    vs = [(s.targets[0].id, s.value.attr) for s in cond.body]
    ret = b[-1].value
    o = f'''  unfold {wr} {tb}
  have ht := {p.seq('research_locations')}
  rw [ht.len]
  cases htl : x.research_locations with
  | nil =>
    simp only [bind, Except.bind, List.length_map, htl, List.length_nil, ne_eq, not_true_eq_false, if_false]
'''
    o += ''.join(f'    have h_{n} := Ev.ok (H := H) (Shows.int (H := H) ({d}))\n' for n, d in zip([n for n, _ in vs], [-1, 0, 0, -1]))
    o += f'    exact {p.render(p.flat(ret))}\n'
    o += '''  | cons t ts =>
    rw [htl] at ht
    have h_first := ht.first
'''
    for n, a in vs:
        o += f'    have g_{n} := (h_first.at (ResearchLocation.distinct _) {ix.index(a)} rfl).int\n'
    o += '    simp only [bind, Except.bind, List.length_map, htl, List.length_cons, ne_eq, Nat.succ_ne_zero, not_false_eq_true, if_true, ' + ', '.join(f'g_{n}' for n, _ in vs) + ']\n'
    o += ''.join(f'    have h_{n} := Ev.ok (H := H) (Shows.int (H := H) t.{a})\n' for n, a in vs)
    o += f'    exact {p.render(p.flat(ret))}\n'
    return o
def unit(c, p, b, wr, tb):
    o = f'  unfold {wr} {tb}\n'
    def walk(s, conds):
        nonlocal o
        t = s.test
        conds = conds + [f'(W.{OP[type(t.ops[0])]}_eq {p.E("type")})']
        for y in s.body:
            if isinstance(y, ast.If): walk(y, conds)
            else:
                n = y.targets[0].id
                k = c.ann[n].left.id
                if k == 'float': wrt = 'W.float_eq e'
                elif k in SIZED: wrt = f'W.cls_eq (f := {obj(k)}) e (fun _ s => {k}.written (by omega) _ (hs.2.2.2.2.{1 if k == "Creatable" else 2} _ ey) _ s)'
                else: wrt = f'W.cls_eq (f := {obj(k)}) e (fun _ s => {k}.written (by omega) _ _ s)'
                o += f'  refine bind_eq (W.when{len(conds)} {" ".join(conds)} (W.ifNotNone_eq {p.E(n)} (by intro _ e; cases e) fun y ey e => {wrt})) fun {n} => ?_\n'
    for s in b:
        if isinstance(s, ast.If): walk(s, [])
    return o + f'  exact {p.render(p.flat(b[-1].value))}\n'
HANDP[('Unit', 'to_bytes_84')] = unit
HANDP[('Unit', 'to_bytes_88')] = unit
@hp('DatFile', 'to_bytes')
def _(c, p, b, wr, tb):
    tr = byname['TerrainRestriction']
    i = [x for x, _ in tr.fields].index('passable_buildable_dmg_multiplier')
    terms = [p.item(e) for e in b[-1].value.args[0].elts]
    return f'''  unfold {wr} DatFile.toBytes DatFile.toBytesGiven
  rw [{p.E('version')}.str]
  have ht := {p.seq('terrain_restrictions')}
  simp only [W.version, bind, Except.bind]
  cases hv : Version.ofStr x.version with
  | error e => rfl
  | ok version =>
  dsimp only
  rw [ht.len, {p.seq('float_ptr_terrain_tables')}.len, {p.seq('terrain_pass_graphic_pointers')}.len]
  simp only [List.length_map]
  split
  · rfl
  have hu : ∃ r, W.attr H v (lit "terrain_restrictions") = .ok r ∧
      (if W.truthy H r = true then W.len H (W.attrOf H (W.item H (W.attr H v (lit "terrain_restrictions")) 0) (lit "passable_buildable_dmg_multiplier"))
        else .ok 0) = .ok x.terrains_used.toNat ∧ (x.terrains_used.toNat : Int) = x.terrains_used := by
    obtain ⟨r, hr, hsr⟩ := {p.E('terrain_restrictions')}
    refine ⟨r, hr, ?_⟩
    unfold DatFile.terrains_used
    cases htl : x.terrain_restrictions with
    | nil =>
      rw [htl] at hsr
      cases hsr with
      | list hc hi =>
        cases hi
        simp [W.truthy, W.cell, hc]
    | cons y ys =>
      rw [htl] at ht
      rw [htl] at hsr
      have h_len := (ht.first.at (TerrainRestriction.distinct _) {i} rfl).list.len
      rw [h_len]
      cases hsr with
      | list hc hi =>
        cases hi
        simp [W.truthy, W.cell, hc]
  obtain ⟨r, hr, hu1, hu2⟩ := hu
  rw [hr] at hu1 ⊢
  dsimp only
  have h_terrain_restrictions_size := Ev.ok (H := H) (Shows.int (H := H) x.terrain_restrictions.length)
  have h_terrains_used := Ev.ok (H := H) (Shows.int (H := H) x.terrains_used)
  split at hu1
  · rw [if_pos ‹_›, hu1]
    dsimp only
    rw [hu2, ← hr, ← {p.E('version')}.str]
    exact {p.join(terms)}
  · rw [if_neg ‹_›]
    have e0 : ((0 : Nat) : Int) = x.terrains_used := by rw [Except.ok.inj hu1, hu2]
    rw [e0, ← hr, ← {p.E('version')}.str]
    exact {p.join(terms)}
'''
for c in classes:
    fs = [f for f in c.funs if f in FUN]
    fs.sort(key=lambda f: f == 'to_bytes')
    prf += distinct(c)
    k = height(c)
    sz = f' (hs : x.Sized)' if c.name in SIZED else ''
    for f in fs:
        tb = f'{c.name}.{gm.FUNS[f]} ver x' if c.name != 'DatFile' else 'x.toBytes'
        prf += (f'theorem {c.name}.{FUN[f]}_eq {{H : Heap}} {{n : Nat}} {{ver : Version}} (hn : {k - 1} ≤ n) (x : {c.name}){sz} {{v : HVal}} (h : Shows H v ({obj(c.name)} x)) :\n'
                f'    {c.name}.{FUN[f]} H (W.toBytes H n) v ver = {tb} := by\n' + proof(c, f) + '\n')
    tb = f'{c.name}.toBytes ver x' if c.name != 'DatFile' else 'x.toBytes'
    prf += (f'theorem {c.name}.written {{H : Heap}} {{n : Nat}} {{ver : Version}} (hn : {k} ≤ n) (x : {c.name}){sz} (v : HVal) (h : Shows H v ({obj(c.name)} x)) :\n'
            f'    W.toBytes H n v ver = {tb} := by\n'
            f'  obtain ⟨m, rfl⟩ : ∃ m, n = m + 1 := ⟨n - 1, by omega⟩\n'
            f'  rw [Shows.dispatch (m := {c.name}.write) h (by rfl)]\n'
            f'  exact {c.name}.write_eq (by omega) x {"hs " if c.name in SIZED else ""}h\n\n')
prf += 'end Genie\n'
open(f'{ROOT}/Proof/Heap/Written.lean', 'w').write(prf)

# ---------------------------------------------------------------- one table for all record classes
rc = [c for c in classes if c.name != 'DatFile']
def arm(c, n=False): return f'.{c.name} {"n" if n else "_"}' if c.name == 'TerrainRestriction' else f'.{c.name}'
t = '''import Verif.Spec.Classes
import Verif.Spec.ObjectTrees
import Verif.Spec.Sized
/-! # The objects of every record class (generated by `tools/gen_heapwrite.py`) -/

namespace Genie
namespace RecordClass

/-- The object with this value (`Verif/Spec/ObjectTrees.lean`). -/
def object : (c : RecordClass) → c.Obj → ObjTree
'''
for c in rc: t += f'  | {arm(c)}, x => Genie.{obj(c.name)} x\n'
t += '''
/-- Tuples have their declared length (`Verif/Spec/Sized.lean`). -/
def Sized : (c : RecordClass) → c.Obj → Prop
'''
for c in rc:
    if c.name in SIZED: t += f'  | {arm(c)}, x => Genie.{c.name}.Sized x\n'
t += '  | _, _ => True\n\nend RecordClass\nend Genie\n'
open(f'{ROOT}/Spec/RecordObjects.lean', 'w').write(t)
t = '''import Verif.Proof.Heap.Written
import Verif.Spec.RecordObjects
/-! # Every record class is written alike (generated by `tools/gen_heapwrite.py`) -/

namespace Genie

theorem RecordClass.written {H : Heap} {n : Nat} {ver : Version} (hn : 4 ≤ n) : (c : RecordClass) → (x : c.Obj) → c.Sized x → (v : HVal) →
    Shows H v (c.object x) → W.toBytes H n v ver = c.toBytes ver x
'''
for c in rc: t += f'  | {arm(c)}, x, hs, v, h => Genie.{c.name}.written (by omega) x {"hs " if c.name in SIZED else ""}v h\n'
t += '\nend Genie\n'
open(f'{ROOT}/Proof/Heap/WrittenRecords.lean', 'w').write(t)
