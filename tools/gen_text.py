#!/usr/bin/env python3
"""Write the text of /repo/src/genieutils/*.py and of the README's programs, line by line, into lean/Verif/Model/Text*.lean."""
import os, re

SRC = '/repo/src/genieutils'
OUT = os.path.join(os.path.dirname(os.path.abspath(__file__)), '..', 'lean', 'Verif', 'Model')
GROUPS = {
    'TextCommon': ['versions', 'datatypes', 'common', 'scripts'],
    'TextUnit': ['task', 'unit'],
    'TextRecords': ['effect', 'sound', 'playercolour', 'graphic', 'terrainrestriction', 'terrainblock', 'randommaps', 'tech', 'techtree',
                    'unitheaders', 'civ', 'datfile'],
}


def line(l):
    assert l.isascii() and (l == '' or l.isprintable()) and '"' not in l, l
    return 'n!"' + l.replace('\\', '\\\\') + '"'


def text(name, where, lines):
    body = ',\n  '.join(line(l) for l in lines)
    return f'/-- The lines of `{where}`. -/\ndef text_{name} : List Nat := [\n  {body}]\n'


for g, ms in GROUPS.items():
    out = []
    for m in ms:
        s = open(f'{SRC}/{m}.py').read()
        assert s.endswith('\n')
        out.append(text(m, f'/repo/src/genieutils/{m}.py', s[:-1].split('\n')))
    if g == 'TextCommon':
        readme = open('/repo/README.md').read()
        for name, b in zip(['loom', 'kings'], re.finditer(r'```python\n(.*?)```', readme, re.S)):
            a = readme[:b.start(1)].count('\n') + 1
            ls = b.group(1)[:-1].split('\n')
            out.append(text(name, f'/repo/README.md:{a}-{a + len(ls) - 1}', ls))
    with open(f'{OUT}/{g}.lean', 'w') as f:
        f.write('''import Verif.Py.Ast
/-!
# The text of `/repo/src/genieutils`

Line by line, as it is.  Written by `tools/gen_text.py`; `tools/check_text.py` compares it with the files.
-/

namespace Genie.Src

''' + '\n'.join(out) + '\nend Genie.Src\n')
