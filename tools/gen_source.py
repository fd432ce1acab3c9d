#!/usr/bin/env python3
"""Write the syntax trees of /repo/src/genieutils/*.py, as Python's own parser gives them, into lean/Verif/Model/Source*.lean."""
import ast, os, struct

SRC = '/repo/src/genieutils'
OUT = os.path.join(os.path.dirname(os.path.abspath(__file__)), '..', 'lean', 'Verif', 'Model')
MODULES = ['versions', 'datatypes', 'common', 'effect', 'sound', 'playercolour', 'graphic', 'terrainrestriction', 'terrainblock',
           'randommaps', 'tech', 'techtree', 'task', 'unit', 'unitheaders', 'civ', 'datfile']


def n(x):
    assert x.isascii()
    return f'n!"{x}"'


CMP = {ast.Eq: '.eq', ast.NotEq: '.ne', ast.Lt: '.lt', ast.LtE: '.le', ast.Gt: '.gt', ast.GtE: '.ge', ast.Is: '.is', ast.IsNot: '.isNot'}
BIN = {ast.Add: '.add', ast.Sub: '.sub', ast.Mult: '.mul'}


def lean_str(s):
    assert s.isascii() and '"' not in s and '\\' not in s and s.isprintable(), s
    return f'"{s}"'


def args(es, kws=()):
    out = '.argNil'
    for k in reversed(kws):
        assert k.arg is not None
        out = f'(.kw {n(k.arg)} {ex(k.value)} {out})'
    for e in reversed(es):
        if isinstance(e, ast.Starred):
            out = f'(.star {ex(e.value)} {out})'
        else:
            out = f'(.arg {ex(e)} {out})'
    return out


def ex(e):
    if isinstance(e, ast.Name):
        return f'(.name {n(e.id)})'
    if isinstance(e, ast.Constant):
        v = e.value
        if v is None:
            return '.none'
        if isinstance(v, bool):
            return f'(.bool {"true" if v else "false"})'
        if isinstance(v, int):
            return f'(.int {v})'
        if isinstance(v, str):
            return f'(.str {lean_str(v)})'
        if isinstance(v, float):
            return f'(.float {int.from_bytes(struct.pack("<d", v), "little")})'
        if isinstance(v, bytes):
            return f'(.bytes {list(v)})'
        raise NotImplementedError(ast.dump(e))
    if isinstance(e, ast.Attribute):
        return f'(.attr {ex(e.value)} {n(e.attr)})'
    if isinstance(e, ast.Call):
        return f'(.call {ex(e.func)} {args(e.args, e.keywords)})'
    if isinstance(e, ast.Tuple):
        return f'(.tuple {args(e.elts)})'
    if isinstance(e, ast.List):
        return f'(.list {args(e.elts)})'
    if isinstance(e, ast.Compare):
        tail = '.cmpNil'
        for op, r in reversed(list(zip(e.ops, e.comparators))):
            tail = f'(.cmp {CMP[type(op)]} {ex(r)} {tail})'
        return f'(.compare {ex(e.left)} {tail})'
    if isinstance(e, ast.BinOp):
        return f'(.bin {BIN[type(e.op)]} {ex(e.left)} {ex(e.right)})'
    if isinstance(e, ast.UnaryOp):
        if isinstance(e.op, ast.USub):
            return f'(.neg {ex(e.operand)})'
        if isinstance(e.op, ast.Not):
            return f'(.not {ex(e.operand)})'
        raise NotImplementedError(ast.dump(e))
    if isinstance(e, ast.BoolOp):
        assert isinstance(e.op, ast.And)
        out = ex(e.values[-1])
        for v in reversed(e.values[:-1]):
            out = f'(.and {ex(v)} {out})'
        return out
    if isinstance(e, ast.IfExp):
        return f'(.ifExp {ex(e.test)} {ex(e.body)} {ex(e.orelse)})'
    if isinstance(e, ast.Subscript):
        if isinstance(e.slice, ast.Slice):
            assert e.slice.step is None
            return f'(.slice {ex(e.value)} {ex(e.slice.lower)} {ex(e.slice.upper)})'
        return f'(.index {ex(e.value)} {ex(e.slice)})'
    if isinstance(e, (ast.GeneratorExp, ast.ListComp)):
        assert len(e.generators) == 1
        g = e.generators[0]
        assert isinstance(g.target, ast.Name) and not g.is_async
        if not g.ifs:
            return f'(.comp {ex(e.elt)} {n(g.target.id)} {ex(g.iter)})'
        assert len(g.ifs) == 1
        return f'(.compIf {ex(e.elt)} {n(g.target.id)} {ex(g.iter)} {ex(g.ifs[0])})'
    raise NotImplementedError(ast.dump(e))


def st(body, ind):
    """A block, one statement per line."""
    pad = '  ' * ind
    lines, close = [], 0
    for s in body:
        if isinstance(s, ast.AnnAssign):
            assert s.value is not None
            s = ast.Assign(targets=[s.target], value=s.value)
        if isinstance(s, ast.Assign):
            assert len(s.targets) == 1
            t = s.targets[0]
            if isinstance(t, ast.Name):
                lines.append(f'{pad}(.assign {n(t.id)} {ex(s.value)}')
            elif isinstance(t, ast.Tuple):
                assert all(isinstance(x, ast.Name) for x in t.elts)
                lines.append(f'{pad}(.unpack [{", ".join(n(x.id) for x in t.elts)}] {ex(s.value)}')
            elif isinstance(t, ast.Attribute):
                lines.append(f'{pad}(.setAttr {ex(t.value)} {n(t.attr)} {ex(s.value)}')
            else:
                raise NotImplementedError(ast.dump(s))
        elif isinstance(s, ast.AugAssign):
            assert isinstance(s.target, ast.Name)
            lines.append(f'{pad}(.aug {n(s.target.id)} {BIN[type(s.op)]} {ex(s.value)}')
        elif isinstance(s, ast.Expr):
            lines.append(f'{pad}(.expr {ex(s.value)}')
        elif isinstance(s, ast.Assert):
            assert s.msg is None
            lines.append(f'{pad}(.assert {ex(s.test)}')
        elif isinstance(s, ast.If):
            lines.append(f'{pad}(.ite {ex(s.test)}\n{st(s.body, ind + 2)}\n{st(s.orelse, ind + 2)}')
        elif isinstance(s, ast.For):
            assert isinstance(s.target, ast.Name) and not s.orelse
            lines.append(f'{pad}(.forIn {n(s.target.id)} {ex(s.iter)}\n{st(s.body, ind + 2)}')
        elif isinstance(s, ast.Return):
            assert s is body[-1] and s.value is not None
            lines.append(f'{pad}(.ret {ex(s.value)})')
            return '\n'.join(lines) + ')' * close
        elif isinstance(s, ast.Raise):
            assert s is body[-1] and s.cause is None
            lines.append(f'{pad}(.raise {ex(s.exc)})')
            return '\n'.join(lines) + ')' * close
        else:
            raise NotImplementedError(ast.dump(s))
        close += 1
    lines.append(f'{pad}.done')
    return '\n'.join(lines) + ')' * close


def fun(mod, cls, f):
    kind = '.method'
    for d in f.decorator_list:
        kind = {'classmethod': '.classMethod', 'staticmethod': '.staticMethod', 'property': '.property'}[d.id]
    a = f.args
    assert not (a.posonlyargs or a.kwonlyargs or a.vararg or a.kwarg)
    defaults = ['.argNil'] * (len(a.args) - len(a.defaults)) + [ex(d) for d in a.defaults]
    params = ', '.join(f'({n(p.arg)}, {d})' for p, d in zip(a.args, defaults))
    name = f'{cls}.{f.name}'
    return name, f'''/-- `{cls}.{f.name}` — `/repo/src/genieutils/{mod}.py:{f.lineno}-{f.end_lineno}`. -/
def {cls}.src_{f.name} : Fun where
  name := {n(f.name)}
  kind := {kind}
  params := [{params}]
  body :=
{st(f.body, 2)}
'''


def main():
    out, classes, modules = {}, [], []
    for mod in MODULES:
        tree = ast.parse(open(f'{SRC}/{mod}.py').read())
        text, globs = [], []
        for s in tree.body:
            if isinstance(s, ast.Import):
                for a in s.names:
                    assert a.asname is None
                    globs.append((a.name, '.lib'))
            elif isinstance(s, ast.ImportFrom):
                for a in s.names:
                    assert a.asname is None
                    if s.module.startswith('genieutils.'):
                        globs.append((a.name, f'.from_ {n(s.module[11:])}'))
                    else:
                        globs.append((a.name, '.lib'))
            elif isinstance(s, ast.Assign):
                assert len(s.targets) == 1
                if mod == 'common' and s.targets[0].id == 'C':
                    continue            # C = TypeVar('C', bound=GenieClass): used in annotations only
                globs.append((s.targets[0].id, f'.const {ex(s.value)}'))
            elif isinstance(s, ast.ClassDef):
                globs.append((s.name, '.cls'))
                dataclass = [ast.unparse(d) for d in s.decorator_list]
                assert dataclass in ([], ['dataclass(slots=True)']), dataclass
                assert len(s.bases) <= 1 and not s.keywords
                base = s.bases[0].id if s.bases else 'object'
                fields, vars_, funs = [], [], []
                for b in s.body:
                    if isinstance(b, ast.AnnAssign):
                        fields.append((b.target.id, '.argNil' if b.value is None else ex(b.value)))
                    elif isinstance(b, ast.Assign):
                        vars_.append((b.targets[0].id, ex(b.value)))
                    elif isinstance(b, ast.FunctionDef):
                        if b.name in ('parse', 'save'):     # file access: modelled in Verif/Model/Io.lean
                            continue
                        fname, ftext = fun(mod, s.name, b)
                        text.append(ftext)
                        funs.append(f'{s.name}.src_{b.name}')
                    else:
                        raise NotImplementedError(ast.dump(b))
                text.append(f'''/-- `class {s.name}` — `/repo/src/genieutils/{mod}.py:{s.lineno}-{s.end_lineno}`. -/
def {s.name}.src : Cls where
  name := {n(s.name)}
  module := {n(mod)}
  base := {n(base)}
  dataclass := {"true" if dataclass else "false"}
  fields := [{", ".join(f"({n(f)}, {d})" for f, d in fields)}]
  vars := [{", ".join(f"({n(k)}, {v})" for k, v in vars_)}]
  funs := [{", ".join(funs)}]
''')
                classes.append(s.name)
            else:
                raise NotImplementedError(ast.dump(s))
        entries = ',\n    '.join(f'({n(k)}, {g})' for k, g in globs)
        text.append(f'''/-- The names of the module `/repo/src/genieutils/{mod}.py`. -/
def module_{mod} : Module where
  name := {n(mod)}
  globals := [
    {entries}]
''')
        modules.append(f'module_{mod}')
        out[mod] = '\n'.join(text)
    head = '''import Verif.Py.Ast
/-!
# The source code of `/repo/src/genieutils`

%s  Written by `tools/gen_source.py` from the syntax trees that Python's parser gives; annotations and docstrings have no effect and are
left out; `DatFile.parse`, `DatFile.save` and `scripts.py` are in `Verif/Model/SourceIo.lean`.
-/

namespace Genie.Src

'''
    groups = {'SourceCommon': ['versions', 'datatypes', 'common'],
              'SourceUnit': ['task', 'unit'],
              'SourceRecords': [m for m in MODULES if m not in ('versions', 'datatypes', 'common', 'task', 'unit')]}
    for g, ms in groups.items():
        with open(f'{OUT}/{g}.lean', 'w') as f:
            f.write(head % ('Modules: ' + ', '.join(f'`{m}.py`' for m in ms) + '.') + '\n'.join(out[m] for m in ms) + '\nend Genie.Src\n')
    with open(f'{OUT}/Source.lean', 'w') as f:
        f.write('''import Verif.Model.SourceCommon
import Verif.Model.SourceRecords
import Verif.Model.SourceUnit
/-!
# The source code of `/repo/src/genieutils`: all classes and modules

Written by `tools/gen_source.py`.
-/

namespace Genie.Src

''')
        f.write('/-- All classes of the package. -/\ndef classes : List Cls := [\n  ' + ',\n  '.join(f'{c}.src' for c in classes) + ']\n\n')
        f.write('/-- All modules of the package. -/\ndef modules : List Module := [\n  ' + ',\n  '.join(modules) + ']\n\nend Genie.Src\n')


main()
