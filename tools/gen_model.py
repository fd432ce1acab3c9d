#!/usr/bin/env python3
"""Mechanical transcription of the regular parts of /repo/src/genieutils/*.py into Lean.

The source is only *parsed* (module `ast`), never imported or run.  Every dataclass becomes a Lean
structure, every `from_bytes*` a `Reader` action, every `to_bytes*` a function to `Py Bytes`; readers
and writers are transcribed independently of each other.  Irregular functions are written by hand in
HAND below (keyed by class and function name).  The generated files are committed; Lean never runs
this script.
"""
import ast
import sys
from pathlib import Path

SRC = Path('/repo/src/genieutils')
OUT = Path(sys.argv[1]) if len(sys.argv) > 1 else Path('/verif/lean/Verif/Model')

RESERVED = {'exists': 'exists_', 'end': 'end_'}


def nm(s):
    return RESERVED.get(s, s)


READERS = {
    'read_debug_string': 'readDebugString', 'read_string': 'readString', 'read_int_8': 'readInt8',
    'read_int_8_array': 'readInt8Array', 'read_int_8_array_2': 'readInt8Array2',
    'read_int_8_array_3': 'readInt8Array3', 'read_int_8_array_5': 'readInt8Array5',
    'read_int_8_array_6': 'readInt8Array6', 'read_int_8_array_10': 'readInt8Array10',
    'read_int_16': 'readInt16', 'read_int_16_array': 'readInt16Array',
    'read_int_16_array_2': 'readInt16Array2', 'read_int_16_array_3': 'readInt16Array3',
    'read_int_16_array_4': 'readInt16Array4', 'read_int_16_array_6': 'readInt16Array6',
    'read_int_32': 'readInt32', 'read_int_32_array': 'readInt32Array',
    'read_int_32_array_10': 'readInt32Array10', 'read_float': 'readFloat',
    'read_float_array': 'readFloatArray', 'read_float_array_2': 'readFloatArray2',
    'read_float_array_3': 'readFloatArray3',
    'read_class': 'readClass', 'read_class_array': 'readClassArray',
    'read_class_array_3': 'readClassArray3', 'read_class_array_4': 'readClassArray4',
    'read_class_array_with_pointers': 'readClassArrayWithPointers',
}
WRITERS = {
    'write_debug_string': 'writeDebugString', 'write_string': 'writeString', 'write_int_8': 'writeInt8',
    'write_int_8_array': 'writeInt8Array', 'write_int_16': 'writeInt16',
    'write_int_16_array': 'writeInt16Array', 'write_int_32': 'writeInt32',
    'write_int_32_array': 'writeInt32Array', 'write_float': 'writeFloat',
    'write_float_array': 'writeFloatArray',
}
FUNS = {'from_bytes': 'fromBytes', 'to_bytes': 'toBytes'}
for v in ('78', '84', '88'):
    FUNS[f'from_bytes_{v}'] = f'fromBytes{v}'
    FUNS[f'to_bytes_{v}'] = f'toBytes{v}'
FUNS['from_bytes_with_count'] = 'fromBytesWithCount'


class Module:
    def __init__(self, name):
        self.name = name
        self.path = SRC / f'{name}.py'
        self.tree = ast.parse(self.path.read_text())
        self.consts = {}
        self.out = []

    def cite(self, node):
        return f'`/repo/src/genieutils/{self.name}.py:{node.lineno}-{node.end_lineno}`'


def lean_type(a):
    if isinstance(a, ast.Name):
        return {'int': 'Int', 'float': 'PyFloat', 'str': 'PyStr'}.get(a.id, a.id)
    if isinstance(a, ast.Subscript):
        if a.value.id == 'list':
            return f'List {paren(lean_type(a.slice))}'
        if a.value.id == 'tuple':
            return f'List {paren(lean_type(a.slice.elts[0]))}'
    if isinstance(a, ast.BinOp):  # X | None
        assert isinstance(a.right, ast.Constant) and a.right.value is None
        return f'Option {paren(lean_type(a.left))}'
    raise Exception(ast.dump(a))


def paren(s):
    return f'({s})' if ' ' in s else s


class Class:
    def __init__(self, mod, node):
        self.mod, self.node, self.name = mod, node, node.name
        self.fields = [(s.target.id, lean_type(s.annotation)) for s in node.body if isinstance(s, ast.AnnAssign)]
        self.types = dict(self.fields)
        self.funs = {f.name: f for f in node.body if isinstance(f, ast.FunctionDef)}

    def elem(self, field):
        t = self.types[field]
        assert t.startswith('List '), (self.name, field, t)
        return t[5:].strip('()')

    # ---- structure
    def structure(self):
        lo = self.node.decorator_list[0].lineno if self.node.decorator_list else self.node.lineno
        hi = max(s.end_lineno for s in self.node.body if isinstance(s, ast.AnnAssign))
        r = [f'/-- `class {self.name}` — `/repo/src/genieutils/{self.mod.name}.py:{lo}-{hi}`. -/',
             f'structure {self.name} where']
        for f, t in self.fields:
            r.append(f'  {nm(f)} : {t}')
        r.append('deriving DecidableEq, Inhabited')
        return '\n'.join(r)

    # ---- readers
    def read_expr(self, e):
        """Lean for an expression `content.read_…(…)`."""
        assert isinstance(e, ast.Call) and isinstance(e.func, ast.Attribute) and e.func.value.id == 'content', ast.dump(e)
        f = READERS[e.func.attr]
        args = []
        for a in e.args:
            if isinstance(a, ast.Name) and a.id[0].isupper() and a.id.isupper():
                args.append(a.id)
            elif isinstance(a, ast.Name) and a.id[0].isupper():
                args.append(f'{a.id}.fromBytes')
            elif isinstance(a, ast.Name):
                args.append(nm(a.id))
            elif isinstance(a, ast.Constant):
                args.append(str(a.value))
            else:
                raise Exception(ast.dump(a))
        for k in e.keywords:
            assert k.arg == 'signed' and k.value.value is False
            args.append('(signed := false)')
        return ' '.join([f] + args)

    def value(self, e, lean_t=None):
        if isinstance(e, ast.Name):
            return nm(e.id)
        if isinstance(e, ast.Constant):
            if isinstance(e.value, float) or lean_t == 'PyFloat':
                return {0.0: 'PyFloat.zero', 1.0: 'PyFloat.one'}[e.value]
            return str(e.value)
        if isinstance(e, ast.UnaryOp) and isinstance(e.op, ast.USub):
            return f'-{e.operand.value}'
        if isinstance(e, ast.Tuple):
            return '[' + ', '.join(self.value(x) for x in e.elts) + ']'
        if isinstance(e, ast.List):
            return '[' + ', '.join(self.value(x) for x in e.elts) + ']'
        if isinstance(e, ast.Call) and isinstance(e.func, ast.Name):
            return '{ ' + ', '.join(f'{nm(k.arg)} := {self.value(k.value)}' for k in e.keywords) + ' }'
        raise Exception(ast.dump(e))

    def record(self, call):
        ks = ',\n'.join(f'    {nm(k.arg)} := {self.value(k.value, self.types[k.arg])}' for k in call.keywords)
        return '  return {\n' + ks + ' }'

    def version_cond(self, t, var):
        assert isinstance(t, ast.Compare) and len(t.ops) == 1
        op = {ast.GtE: 'ge', ast.Gt: 'gt'}[type(t.ops[0])]
        return f'{var}.{op} .{t.comparators[0].attr}'

    def from_bytes(self, fname):
        f = self.funs[fname]
        body = f.body
        lines = []
        # dispatch on version
        if isinstance(body[0], ast.If) and isinstance(body[0].body[0], ast.Return):
            lines.append('  let version ← getVersion')

            def disp(stmts, indent):
                s = stmts[0]
                if isinstance(s, ast.Return):
                    return f'{FUNS[s.value.func.attr] and self.name + "." + FUNS[s.value.func.attr]}'
                rest = s.orelse if s.orelse else stmts[1:]
                # an elif without else falls through to the statements after the if
                if s.orelse and isinstance(s.orelse[0], ast.If) and not s.orelse[0].orelse:
                    s.orelse[0].orelse = stmts[1:]
                return (f'if {self.version_cond(s.test, "version")} then {disp(s.body, indent)}\n'
                        f'  else {disp(rest, indent)}')
            lines.append('  ' + disp(body, 1))
            return self.wrap_reader(f, fname, lines)
        have_version = False
        for s in body:
            if isinstance(s, ast.Assign):
                t, v = s.targets[0], s.value
                if isinstance(t, ast.Tuple):  # struct.unpack
                    assert v.func.attr == 'unpack'
                    fmt, ln = v.args[0].id, v.args[1].args[0].id
                    lines.append(f'  let vs ← unpackFrom {self.mod.cname(fmt)} {self.mod.cname(ln)}')
                    codes = self.mod.consts[fmt][1:]
                    names = [x.id for x in t.elts]
                    lines.append('  POPS')
                    for n, c in zip(names, codes):
                        lines.append(f'  {"popFloat" if c == "f" else "popInt"} vs fun {nm(n)} vs =>')
                    assert len(names) == len(codes), (self.name, fname, len(names), len(codes))
                    lines.append('  popDone vs do')
                elif isinstance(v, ast.Call) and isinstance(v.func, ast.Attribute):
                    lines.append(f'  let {nm(t.id)} ← {self.read_expr(v)}')
                elif isinstance(v, ast.IfExp):
                    assert v.orelse.elts == []
                    lines.append(f'  let {nm(t.id)} ← readOr ({nm(v.test.id)} ≠ 0) ({self.read_expr(v.body)} '
                                 f'(countStored := true)) []')
                else:
                    ty = self.types.get(t.id)
                    anno = f' : {ty}' if ty else ' : Int'
                    lines.append(f'  let {nm(t.id)}{anno} := {self.value(v, ty)}')
            elif isinstance(s, ast.If):
                if not have_version:
                    lines.append('  let version ← getVersion')
                    have_version = True
                for b in s.body:
                    n = nm(b.targets[0].id)
                    lines.append(f'  let {n} ← readOr ({self.version_cond(s.test, "version")}) '
                                 f'({self.read_expr(b.value)}) {n}')
            elif isinstance(s, ast.Return):
                c = s.value
                if any(isinstance(k.value, ast.Call) and isinstance(k.value.func, ast.Attribute) for k in c.keywords):
                    for k in c.keywords:
                        lines.append(f'  let {nm(k.arg)} ← {self.read_expr(k.value)}')
                    lines.append('  return {\n' + ',\n'.join(f'    {nm(k.arg)} := {nm(k.arg)}' for k in c.keywords) + ' }')
                else:
                    lines.append(self.record(c))
            else:
                raise Exception(ast.dump(s))
        return self.wrap_reader(f, fname, lines)

    def wrap_reader(self, f, fname, lines):
        lines = [l for l in lines if l != '  POPS']
        param = ''
        if fname == 'from_bytes_with_count':
            param = f' ({f.args.args[2].arg} : Int)'
        return '\n'.join([
            f'/-- `{self.name}.{fname}` — {self.mod.cite(f)}. -/',
            f'def {self.name}.{FUNS[fname]}{param} : Reader {self.name} := do'] + lines)

    # ---- writers
    def self_field(self, e):
        """(lean text, lean type) of `self.x`."""
        assert isinstance(e, ast.Attribute) and e.value.id == 'self', ast.dump(e)
        return f'self.{nm(e.attr)}', self.types.get(e.attr)

    def write_item(self, e):
        if isinstance(e, ast.Call) and isinstance(e.func, ast.Attribute) and isinstance(e.func.value, ast.Name) \
                and e.func.value.id == 'self':
            w = e.func.attr
            if w == 'write_class':
                t, ty = self.self_field(e.args[0])
                return f'writeClass {ty}.toBytes {t} version'
            if w == 'write_class_array':
                t, ty = self.self_field(e.args[0])
                el = self.elem(e.args[0].attr)
                if el.startswith('Option '):
                    return f'writeClassArrayOpt {el[7:]}.toBytes {t} version'
                return f'writeClassArray {el}.toBytes {t} version'
            args = []
            for a in e.args:
                if isinstance(a, ast.Call) and a.func.id == 'len':
                    args.append(f'{self.self_field(a.args[0])[0]}.length')
                elif isinstance(a, ast.Constant):
                    args.append(str(a.value))
                elif isinstance(a, ast.Name):
                    args.append(nm(a.id))
                else:
                    args.append(self.self_field(a)[0])
            name = WRITERS[w]
            for k in e.keywords:
                if k.arg == 'signed':
                    assert k.value.value is False
                    args.append('(signed := false)')
                elif k.arg == 'if_':
                    name = 'writeInt16If'
                    args.append(f'({self.version_cond(k.value, "version")})')
            return ' '.join([name] + args)
        if isinstance(e, ast.Call) and isinstance(e.func, ast.Attribute) and e.func.attr == 'pack':
            return self.pack(e)
        raise Exception(ast.dump(e))

    def pack(self, e):
        fmt = self.mod.cname(e.args[0].id)
        groups = [[]]
        for a in e.args[1:]:
            if isinstance(a, ast.Starred):
                t, ty = self.self_field(a.value)
                c = '.float' if 'PyFloat' in ty else '.int'
                groups.append(f'{t}.map {"Val" + c}')
                groups.append([])
            elif isinstance(a, ast.Attribute) and isinstance(a.value, ast.Subscript):
                groups[-1].append(f'.int train_location.{nm(a.attr)}')
            else:
                t, ty = self.self_field(a)
                groups[-1].append(f'{".float" if ty == "PyFloat" else ".int"} {t}')
        parts = []
        for g in groups:
            if isinstance(g, list):
                if g:
                    rows = [', '.join(g[i:i + 4]) for i in range(0, len(g), 4)]
                    parts.append('[' + ',\n      '.join(rows) + ']')
            else:
                parts.append(g)
        return f'structPack {fmt} (' + '\n      ++ '.join(parts) + ')'

    def to_bytes(self, fname):
        f = self.funs[fname]
        body = f.body
        lines = []
        if isinstance(body[0], ast.If) and isinstance(body[0].body[0], ast.Return):
            conds = []
            for s in body[:-1]:
                r = s.body[0].value
                if isinstance(r.func.value, ast.Name) and r.func.value.id == 'self':
                    tgt = f'{self.name}.{FUNS[r.func.attr]} version self'
                else:
                    tgt = self.pack(r)
                conds.append(f'if {self.version_cond(s.test, "version")} then {tgt}\n  else ')
            r = body[-1].value
            if isinstance(r.func.value, ast.Name) and r.func.value.id == 'self':
                tgt = f'{self.name}.{FUNS[r.func.attr]} version self'
            else:
                tgt = self.pack(r)
            lines.append('  ' + ''.join(conds) + tgt)
        else:
            guard = ''
            for s in body:
                if isinstance(s, ast.Assert):
                    l, r = s.test.left, s.test.comparators[0]
                    guard = (f'  if {self.self_field(l.args[0])[0]}.length ≠ {self.self_field(r.args[0])[0]}.length '
                             f'then .error .assertionError\n  else ')
                elif isinstance(s, ast.Return):
                    v = s.value
                    items = []

                    def flat(x):
                        if isinstance(x, ast.BinOp):
                            flat(x.left)
                            flat(x.right)
                        elif isinstance(x, ast.Call) and isinstance(x.func, ast.Attribute) and x.func.attr == 'join':
                            items.extend(self.write_item(i) for i in x.args[0].elts)
                        else:
                            items.append(self.write_item(x))
                    flat(v)
                    if len(items) == 1:
                        lines.append((guard or '  ') + items[0])
                    else:
                        lines.append((guard or '  ') + 'joinB [\n    ' + ',\n    '.join(items) + ']')
                else:
                    raise Exception(ast.dump(s))
        return '\n'.join([
            f'/-- `{self.name}.{fname}` — {self.mod.cite(f)}. -/',
            f'def {self.name}.{FUNS[fname]} (version : Version) (self : {self.name}) : Py Bytes :='] + lines)


HAND = {}


def hand(cls, fname):
    def d(f):
        HAND[(cls, fname)] = f
        return f
    return d


@hand('UnitHeaders', 'from_bytes')
def _(c):
    return f'''/-- `UnitHeaders.from_bytes` — {c.mod.cite(c.funs['from_bytes'])}. -/
def UnitHeaders.fromBytes : Reader UnitHeaders := do
  let exists_ ← readInt8
  if exists_ ≠ 0 then do
    let task_count ← readInt16
    let task_list ← readClassArray Task.fromBytes task_count
    return {{
      exists_ := exists_,
      task_list := some task_list }}
  else
    return {{
      exists_ := exists_,
      task_list := none }}'''


@hand('UnitHeaders', 'to_bytes')
def _(c):
    return f'''/-- `UnitHeaders.to_bytes` — {c.mod.cite(c.funs['to_bytes'])}. -/
def UnitHeaders.toBytes (version : Version) (self : UnitHeaders) : Py Bytes :=
  joinB [
    writeInt8 self.exists_,
    writeIf (self.exists_ ≠ 0) (fun task_list => writeInt16 task_list.length) self.task_list,
    writeIf (self.exists_ ≠ 0) (fun task_list => writeClassArray Task.toBytes task_list version)
      self.task_list]'''


@hand('Type50', 'to_bytes')
def _(c):
    f = c.funs['to_bytes']
    a = [c.write_item(i) for i in f.body[0].value.args[0].elts]
    b = [c.write_item(i) for i in f.body[1].body[0].value.args[0].elts]
    cond = c.version_cond(f.body[1].test, 'version')
    return f'''/-- `Type50.to_bytes` — {c.mod.cite(f)}. -/
def Type50.toBytes (version : Version) (self : Type50) : Py Bytes :=
  joinB [
    joinB [
      ''' + ',\n      '.join(a) + f'''],
    if {cond} then joinB [
      ''' + ',\n      '.join(b) + ''']
    else .ok []]'''


@hand('Tech', 'to_bytes_84')
def _(c):
    f = c.funs['to_bytes_84']
    items = [c.write_item(i) for i in f.body[-1].value.args[0].elts]
    return f'''/-- `Tech.to_bytes_84` — {c.mod.cite(f)}.  The local variables default to
`-1, 0, 0, -1` and are overwritten from `research_locations[0]` if there is one. -/
def Tech.toBytes84 (version : Version) (self : Tech) : Py Bytes :=
  let research_location := match self.research_locations with | [] => -1 | r :: _ => r.location_id
  let research_time := match self.research_locations with | [] => 0 | r :: _ => r.research_time
  let button_id := match self.research_locations with | [] => 0 | r :: _ => r.button_id
  let hot_key := match self.research_locations with | [] => -1 | r :: _ => r.hot_key_id
  joinB [
    ''' + ',\n    '.join(items) + ']'


def creatable_old(c, fname):
    f = c.funs[fname]
    v = f.body[0].value
    return f'''/-- `Creatable.{fname}` — {c.mod.cite(f)}.  `self.train_locations[0]` raises
`IndexError` on an empty list (after the resource costs were encoded). -/
def Creatable.{FUNS[fname]} (version : Version) (self : Creatable) : Py Bytes :=
  joinB [
    {c.write_item(v.left)},
    match self.train_locations with
    | [] => .error .indexError
    | train_location :: _ => {c.pack(v.right)}]'''


HAND[('Creatable', 'to_bytes_78')] = lambda c: creatable_old(c, 'to_bytes_78')
HAND[('Creatable', 'to_bytes_84')] = lambda c: creatable_old(c, 'to_bytes_84')

UNIT_TAIL_CONDS = [
    ('speed', 'readFloat', 'writeFloat', ['Flag']),
    ('dead_fish', 'readClass DeadFish.fromBytes', 'fun x => writeClass DeadFish.toBytes x version', ['Flag', 'DeadFish']),
    ('bird', 'readClass Bird.fromBytes', 'fun x => writeClass Bird.toBytes x version', ['Flag', 'Bird']),
    ('type_50', 'readClass Type50.fromBytes', 'fun x => writeClass Type50.toBytes x version', ['Flag', 'Combatant']),
    ('projectile', 'readClass Projectile.fromBytes', 'fun x => writeClass Projectile.toBytes x version', ['Flag', '=Projectile']),
    ('creatable', 'readClass Creatable.fromBytes', 'fun x => writeClass Creatable.toBytes x version', ['Flag', 'Creatable']),
    ('building', 'readClass Building.fromBytes', 'fun x => writeClass Building.toBytes x version', ['Flag', '=Building']),
]


def unit_conds(ifstmt, var, getter):
    """Conjunction of the enclosing conditions of every assignment, in textual order."""
    out = []

    def cond(t):
        assert isinstance(t, ast.Compare) and t.comparators[0].value.id == 'UnitType'
        op = {ast.NotEq: '≠', ast.GtE: '≥', ast.Eq: '='}[type(t.ops[0])]
        return f'{var} {op} UnitType.{t.comparators[0].attr}'

    def walk(s, conds):
        for b in s.body:
            if isinstance(b, ast.If):
                walk(b, conds + [cond(b.test)])
            else:
                out.append((b.targets[0].id, b.value, conds))
    walk(ifstmt, [cond(ifstmt.test)])
    return out


def unit_from(c, fname):
    f = c.funs[fname]
    lines = []
    done_none = set()
    for s in f.body:
        if isinstance(s, ast.Assign):
            t, v = s.targets[0], s.value
            if isinstance(t, ast.Tuple):
                fmt, ln = v.args[0].id, v.args[1].args[0].id
                lines.append(f'  let vs ← unpackFrom {c.mod.cname(fmt)} {c.mod.cname(ln)}')
                names = [x.id for x in t.elts]
                codes = c.mod.consts[fmt][1:]
                assert len(names) == len(codes)
                for n, k in zip(names, codes):
                    lines.append(f'  {"popFloat" if k == "f" else "popInt"} vs fun {nm(n)} vs =>')
                lines.append('  popDone vs do')
            elif isinstance(v, ast.Constant) and v.value is None:
                done_none.add(t.id)
            elif isinstance(v, ast.Constant):
                lines.append(f'  let {t.id} : Int := {v.value}')
            else:
                lines.append(f'  let {nm(t.id)} ← {c.read_expr(v)}')
        elif isinstance(s, ast.If) and isinstance(s.test, ast.Compare):
            for n, v, conds in unit_conds(s, 'type_', None):
                assert n in done_none
                lines.append(f'  let {n} ← readIf ({" ∧ ".join(conds)}) ({c.read_expr(v)})')
        elif isinstance(s, ast.If) and fname == 'from_bytes_84':
            lines.append('  let creatable := creatable.map (Creatable.withHotKey hot_key)')
        elif isinstance(s, ast.If) and fname == 'from_bytes_88':
            lines.append('  let hot_key := Creatable.firstHotKey creatable hot_key')
        elif isinstance(s, ast.Return):
            lines.append(c.record(s.value))
        else:
            raise Exception(ast.dump(s))
    pre = ''
    if fname == 'from_bytes_84':
        st = [s for s in f.body if isinstance(s, ast.If)][1]
        pre = f'''/-- The hot key post-processing of `Unit.from_bytes_84` — `/repo/src/genieutils/unit.py:{st.lineno}-{st.end_lineno}`:
an empty list of train locations is replaced by a default one, then the unit's hot key is stored in
the first train location. -/
def Creatable.withHotKey (hot_key : Int) (creatable : Creatable) : Creatable :=
  match creatable.train_locations with
  | [] => {{ creatable with train_locations :=
      [{{ train_time := 0, unit_id := -1, button_id := 0, hot_key_id := hot_key }}] }}
  | t :: ts => {{ creatable with train_locations := {{ t with hot_key_id := hot_key }} :: ts }}

'''
    else:
        st = [s for s in f.body if isinstance(s, ast.If)][1]
        pre = f'''/-- The hot key post-processing of `Unit.from_bytes_88` — `/repo/src/genieutils/unit.py:{st.lineno}-{st.end_lineno}`:
the unit's hot key is that of the first train location, if there is one. -/
def Creatable.firstHotKey (creatable : Option Creatable) (hot_key : Int) : Int :=
  match creatable with
  | none => hot_key
  | some c =>
    match c.train_locations with
    | [] => hot_key
    | t :: _ => t.hot_key_id

'''
    return pre + c.wrap_reader(f, fname, lines)


HAND[('Unit', 'from_bytes_84')] = lambda c: unit_from(c, 'from_bytes_84')
HAND[('Unit', 'from_bytes_88')] = lambda c: unit_from(c, 'from_bytes_88')


def unit_to(c, fname):
    f = c.funs[fname]
    lines = []
    for s in f.body:
        if isinstance(s, ast.Assign):
            assert s.value.value == b''
        elif isinstance(s, ast.If):
            for n, v, conds in unit_conds(s, 'self.type', None):
                assert isinstance(v, ast.IfExp) and v.orelse.value == b''
                assert v.test.left.attr == n and isinstance(v.test.ops[0], ast.IsNot)
                w = v.body
                assert w.args[0].attr == n
                if w.func.attr == 'write_float':
                    wl = 'writeFloat'
                else:
                    ty = c.types[n][7:]
                    wl = f'(fun x => writeClass {ty}.toBytes x version)'
                lines.append(f'  let {n} ← writeIf ({" ∧ ".join(conds)}) {wl} self.{n}')
        elif isinstance(s, ast.Return):
            b = s.value
            lines.append('  joinB [\n    ' + c.pack(b.left) + ',\n    joinB [\n      ' + ',\n      '.join(
                f'.ok {i.id}' if isinstance(i, ast.Name) else c.write_item(i) for i in b.right.args[0].elts) + ']]')
    return '\n'.join([
        f'/-- `Unit.{fname}` — {c.mod.cite(f)}.  The variable-length parts are encoded before the',
        'fixed head, so their exceptions come first. -/',
        f'def Unit.{FUNS[fname]} (version : Version) (self : Unit) : Py Bytes := do'] + lines)


HAND[('Unit', 'to_bytes_84')] = lambda c: unit_to(c, 'to_bytes_84')
HAND[('Unit', 'to_bytes_88')] = lambda c: unit_to(c, 'to_bytes_88')


@hand('TrainLocation', 'to_bytes')
def _(c):
    f = c.funs['to_bytes']
    a, b = f.body[0].body[0].value, f.body[1].value
    cond = c.version_cond(f.body[0].test, 'version')
    return f'''/-- `TrainLocation.to_bytes` — {c.mod.cite(f)}. -/
def TrainLocation.toBytes (version : Version) (self : TrainLocation) : Py Bytes :=
  if {cond} then {c.pack(a)}
  else {c.pack(b)}'''


def gen(name, imports, doc=None):
    m = Module(name)
    prefix = {'task': 'TASK_', 'unit': 'UNIT_'}.get(name, '')

    def cname(x):
        if x in ('FORMAT', 'FORMAT_LENGTH', 'FORMAT_88', 'FORMAT_LENGTH_88'):
            return prefix + x
        return x
    m.cname = cname
    out = [f'import Verif.Model.{i}' for i in imports]
    out.append(f'/-!\n# `/repo/src/genieutils/{name}.py`\n\nGenerated by `tools/gen_model.py` from the source text '
               f'(reader and writer transcribed\nindependently, statement by statement).\n-/\n\nset_option linter.unusedVariables false\n\nnamespace Genie\n')
    for s in m.tree.body:
        if isinstance(s, ast.Assign):
            k = s.targets[0].id
            cite = f'`/repo/src/genieutils/{name}.py:{s.lineno}`'
            if isinstance(s.value, ast.Constant) and isinstance(s.value.value, str):
                m.consts[k] = s.value.value
                out.append(f'/-- {cite} -/\ndef {cname(k)} : String := "{s.value.value}"\n')
            elif isinstance(s.value, ast.Constant):
                out.append(f'/-- {cite} -/\ndef {cname(k)} : Nat := {s.value.value}\n')
            else:
                out.append(f'/-- `struct.calcsize({s.value.args[0].id})` — {cite} -/\n'
                           f'def {cname(k)} : Nat := moduleCalcsize {cname(s.value.args[0].id)}\n')
        elif isinstance(s, ast.ClassDef):
            c = Class(m, s)
            out.append(c.structure() + '\n')
            fs = [f for f in c.funs if f in FUNS]
            # dispatchers after their targets
            fs.sort(key=lambda f: f in ('from_bytes', 'to_bytes'))
            for f in fs:
                if (c.name, f) in HAND:
                    out.append(HAND[(c.name, f)](c) + '\n')
                elif f.startswith('from_bytes'):
                    out.append(c.from_bytes(f) + '\n')
                else:
                    out.append(c.to_bytes(f) + '\n')
    out.append('end Genie')
    fn = {'terrainblock': 'TerrainBlock', 'terrainrestriction': 'TerrainRestriction', 'randommaps': 'RandomMaps',
          'playercolour': 'PlayerColour', 'unitheaders': 'UnitHeaders', 'techtree': 'TechTree'}.get(name, name.capitalize())
    (OUT / f'{fn}.lean').write_text('\n'.join(out) + '\n')


gen('effect', ['Common'])
gen('sound', ['Common'])
gen('playercolour', ['Common'])
gen('graphic', ['Common'])
gen('terrainrestriction', ['Common'])
gen('terrainblock', ['Common'])
gen('randommaps', ['Common'])
gen('task', ['Common'])
gen('tech', ['Common'])
gen('techtree', ['Common'])
gen('unitheaders', ['Task'])
gen('unit', ['Task'])
