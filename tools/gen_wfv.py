#!/usr/bin/env python3
"""Generate lean/Verif/Proof/Records/AnyVersion.lean: records without version-dependent parts are well-formed in all versions or none."""
import re
def allof(t): return re.search(r'AllOf .(\w+)', t).group(1)
src = open('lean/Verif/Spec/Records.lean').read() + open('lean/Verif/Spec/Versioned.lean').read()
out = ['import Verif.Spec.Versioned', '/-!', '# Records without version-dependent parts are well-formed in all versions or in none (generated by `tools/gen_wfv.py`)', '-/', '', 'namespace Genie', '',
'theorem AllOf.imp {p q : α → Prop} {l : List α} (f : ∀ {x}, p x → q x) (h : AllOf p l) : AllOf q l := fun x hx => f (h x hx)',
'theorem UpTo.imp {p q : α → Prop} {l : List α} {n : Nat} (f : ∀ {x}, p x → q x) (h : UpTo n p l) : UpTo n q l := ⟨h.1, AllOf.imp f h.2⟩',
'theorem Exactly.imp {p q : α → Prop} {l : List α} {n : Nat} (f : ∀ {x}, p x → q x) (h : Exactly n p l) : Exactly n q l := ⟨h.1, AllOf.imp f h.2⟩',
'theorem IfSome.imp {p q : α → Prop} {o : Option α} (f : ∀ {x}, p x → q x) (h : IfSome p o) : IfSome q o := fun x hx => f (h x hx)', '']
skip = {'Task','UnitHeaders','Bird','Type50','TrainLocation','Creatable','Unit','Tech','Civ','DatFile'}
for m in re.finditer(r'^structure (\w+)\.WF (.*?) : Prop where\n((?:  .*\n)+)', src, re.M):
    name, params, body = m.groups()
    if name in skip: continue
    extra = '{n : Nat} ' if '(n : Nat)' in params else ''
    n = ' n' if extra else ''
    fields = []
    body = re.sub(r'\n    +', ' ', body)
    for line in body.splitlines():
        f, t = line.strip().split(' : ', 1)
        g = re.fullmatch(r'(UpTo|Exactly) \S+ \((\w+)\.WF v\) .*', t)
        if g: pf = f'h.{f}.imp {g.group(2)}.wfv'
        elif re.fullmatch(r'(\w+)\.WF v .*', t): pf = f'{t.split(".")[0]}.wfv h.{f}'
        elif re.match(r'.* ∧ AllOf \((\w+)\.WF v\) \S+$', t): pf = f'⟨h.{f}.1, h.{f}.2.imp {allof(t)}.wfv⟩'
        elif t.startswith('AllOf ('): pf = f'⟨h.{f}.1.imp {allof(t)}.wfv, h.{f}.2⟩'
        else:
            assert '.WF v' not in t, (name, t)
            pf = f'h.{f}'
        fields.append(f'{f} := {pf}')
    s = ',\n  '.join(fields)
    out += [f'theorem {name}.wfv {{v w : Version}} {extra}{{x : {name}}} (h : {name}.WF v{n} x) : {name}.WF w{n} x where',
            *['  '+f for f in fields], '']
out += ['end Genie', '']
open('lean/Verif/Proof/Records/AnyVersion.lean', 'w').write('\n'.join(out))
