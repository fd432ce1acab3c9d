"""Parse the well-formedness specification into a table of fields (used by gen_edits*.py)."""
import re
ROOT = '/verif/lean/Verif/'
SRC = open(ROOT + 'Spec/Records.lean').read() + open(ROOT + 'Spec/Versioned.lean').read()
INT = {'IsU8': (1, 'false'), 'IsI8': (1, 'true'), 'IsI16': (2, 'true'), 'IsI32': (4, 'true'), 'IsU32': (4, 'false')}
def fields(cls):
    st = {'Creatable': 'WFWith', 'DatFile': 'WFAt'}.get(cls, 'WF')
    m = re.search(r'^structure ' + cls + r'\.' + st + r' .*? : Prop where\n((?:  .*\n)+)', SRC, re.M)
    body = re.sub(r'\n    +', ' ', m.group(1))
    return [tuple(l.strip().split(' : ', 1)) for l in body.splitlines()]
CONTROL = {('Unit', 'type'), ('Unit', 'hot_key'), ('Graphic', 'angle_sounds_used'), ('Graphic', 'angle_count'), ('UnitHeaders', 'exists_')} \
    | {('MapInfo', f'map_{k}_size') for k in ('lands', 'terrains', 'units', 'elevations')}
PACKED_LISTS = {('Building', 'looting_table'), ('Creatable', 'projectile_spawning_area')} \
    | {('Unit', k) for k in ('standing_graphic', 'placement_side_terrain', 'placement_terrain', 'clearance_size')}
def classify(cls, f, t):
    """(kind, since, data)"""
    since = None
    m = re.fullmatch(r'Since v (\d+) \((.*?)\) \(x\..* = .*\)', t)
    if m: since, t = int(m.group(1)), m.group(2)
    w = t.split()[0]
    if w in INT and t == f'{w} x.{f}': return ('int', since, INT[w])
    if t == f'IsF32 x.{f}': return ('float', since, None)
    if t == f'IsDebugStr x.{f}': return ('text', since, None)
    m = re.fullmatch(r'(Exactly|UpTo) (\d+) (Is\w+) x\.' + f, t)
    if m: return ('scalars', since, (m.group(1), int(m.group(2)), m.group(3)))
    m = re.fullmatch(r'(Exactly|UpTo) (\d+) \((\w+)\.WF v\) x\.' + f, t)
    if m: return ('records', since, (m.group(1), int(m.group(2)), m.group(3)))
    m = re.fullmatch(r'UpTo (\d+) \(IfSome \((\w+)\.WF v\)\) x\.' + f, t)
    if m: return ('slots', since, (int(m.group(1)), m.group(2)))
    m = re.fullmatch(r'(\w+)\.WF v x\.' + f, t)
    if m: return ('record', since, m.group(1))
    m = re.fullmatch(r'PresentIff \(.*?\) \((\w+)\.WF v\) x\.' + f, t)
    if m: return ('part', since, m.group(1))
    return ('special', since, t)
if __name__ == '__main__':
    from gen_classes import CL
    n = 0
    for c in CL + ['DatFile']:
        for f, t in fields(c):
            k = classify(c, f, t); n += 1
            if k[0] not in ('int', 'float', 'text'): print(c, f, k)
    print(n)
