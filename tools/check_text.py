#!/usr/bin/env python3
"""Compare the text in lean/Verif/Model/Text*.lean with the files in /repo: read the Lean string literals back (independently of gen_text.py)."""
import glob, os, re
here = os.path.dirname(os.path.abspath(__file__))
texts = {}
for p in glob.glob(os.path.join(here, '..', 'lean', 'Verif', 'Model', 'Text*.lean')):
    s = open(p).read()
    for d in re.finditer(r'/-- The lines of `([^`]*)`. -/\ndef text_(\w+) : List Nat := \[(.*?)\]\n(?=\n)', s, re.S):
        lits = re.findall(r'n!"((?:[^"\\]|\\.)*)"', d.group(3))
        texts[d.group(1)] = [re.sub(r'\\(.)', lambda m: {'\\': '\\', '"': '"'}[m.group(1)], l) for l in lits]
bad = 0
files = set()
for where, lines in texts.items():
    if ':' in where:
        f, r = where.split(':')
        a, b = map(int, r.split('-'))
        want = open(f).read().split('\n')[a - 1:b]
    else:
        f = where
        files.add(f)
        want = open(f).read().split('\n')
        assert want.pop() == ''
    if want != lines:
        bad += 1
        print('DIFFERENT', where)
missing = {f for f in glob.glob('/repo/src/genieutils/*.py') if open(f).read().strip()} - files
print(len(texts), 'texts,', sum(map(len, texts.values())), 'lines,', bad, 'different; files without text:', sorted(missing))
