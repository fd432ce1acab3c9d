#!/usr/bin/env python3
"""Write the syntax trees of DatFile.parse, DatFile.save, scripts.py and the programs of README.md into lean/Verif/Model/SourceIo.lean."""
import ast, re
import gen_source as g
from gen_source import n, st

def globs(body):
    out = []
    for s in body:
        if isinstance(s, ast.Import):
            out += [(a.name, '.lib') for a in s.names]
        elif isinstance(s, ast.ImportFrom):
            out += [(a.name, f'.from_ {n(s.module[11:])}' if s.module.startswith('genieutils.') else '.lib') for a in s.names]
    return ',\n    '.join(f'({n(k)}, {x})' for k, x in out)

def function(name, where, f):
    kind = '.method'
    for d in f.decorator_list:
        kind = {'classmethod': '.classMethod'}[d.id]
    assert not (f.args.posonlyargs or f.args.kwonlyargs or f.args.vararg or f.args.kwarg or f.args.defaults)
    params = ', '.join(f'({n(p.arg)}, .argNil)' for p in f.args.args)
    return f'''/-- `{f.name}` — `{where}:{f.lineno}-{f.end_lineno}`. -/
def {name} : Fun where
  name := {n(f.name)}
  kind := {kind}
  params := [{params}]
  body :=
{st(f.body, 2)}
'''

out = []
tree = ast.parse(open(f'{g.SRC}/datfile.py').read())
cls = [s for s in tree.body if isinstance(s, ast.ClassDef) and s.name == 'DatFile'][0]
for f in cls.body:
    if isinstance(f, ast.FunctionDef) and f.name in ('parse', 'save'):
        out.append(function(f'DatFile.src_{f.name}', '/repo/src/genieutils/datfile.py', f))
tree = ast.parse(open(f'{g.SRC}/scripts.py').read())
names = []
for f in tree.body:
    if isinstance(f, ast.FunctionDef):
        out.append(function(f'Scripts.src_{f.name}', '/repo/src/genieutils/scripts.py', f))
        names.append(f.name)
out.append(f'''/-- The functions of the module `/repo/src/genieutils/scripts.py`. -/
def Scripts.functions : List Fun := [{", ".join(f"Scripts.src_{x}" for x in names)}]
''')
out.append(f'''/-- The names that the module `/repo/src/genieutils/scripts.py` imports. -/
def module_scripts : Module where
  name := {n("scripts")}
  globals := [
    {globs(tree.body)}]
''')
readme = open('/repo/README.md').read()
for name, m in zip(['loom', 'kings'], re.finditer(r'```python\n(.*?)```', readme, re.S)):
    a = readme[:m.start(1)].count('\n') + 1
    b = a + m.group(1).count('\n') - 1
    body = ast.parse(m.group(1)).body
    out.append(f'''/-- The names that the program imports — `/repo/README.md:{a}-{b}`. -/
def module_{name} : Module where
  name := {n("readme")}
  globals := [
    {globs(body)}]

/-- The program — `/repo/README.md:{a}-{b}`. -/
def program_{name} : St :=
{st([s for s in body if not isinstance(s, (ast.Import, ast.ImportFrom))], 1)}
''')
with open(f'{g.OUT}/SourceIo.lean', 'w') as f:
    f.write('''import Verif.Model.Source
/-!
# The source code that works on files

`DatFile.parse` and `DatFile.save`, `scripts.py` and the two programs of `README.md`.  Written by `tools/gen_source_io.py` from the syntax trees
that Python's parser gives; annotations have no effect and are left out.  (The last two lines of `scripts.py`, `if __name__ == '__main__': main()`,
call `main` when the file itself is the program.)
-/

namespace Genie.Src

''' + '\n'.join(out) + '\nend Genie.Src\n')
