#!/usr/bin/env python3
"""Writes lean/Verif/Proof/Edits/{Flat,Fields}.lean."""
import sys
sys.path.insert(0, '/verif/tools')
from edits_common import *
from gen_edits import ALL, node, obj
LAY = open(ROOT + 'Spec/Layout.lean').read()
def body(c): return re.search(r'^def ' + c + r'\.layout .*?:=\n(.*?)(?=\n\n)', LAY, re.M | re.S).group(1)
CODE = {'b': '.b', 'h': '.h', 'l': '.l', 'f': '.f'}
def flat(s): return re.sub(r'\s+', ' ', s)
def parse_vals(s, subst):
    """list expression of values -> list of value strings"""
    s = flat(s)
    out = []
    for part in re.split(r' \+\+ (?![^\[]*\])', s):
        part = part.strip()
        while part.startswith('('): part = part[1:]
        while part.endswith(')') and part.count(')') > part.count('('): part = part[:-1]
        if part.startswith('['):
            out += [e.strip() for e in part[1:-1].split(',')] if part != '[]' else []
        else:
            m = re.fullmatch(r'x\.(\w+)\.map Val\.(\w+)', part)
            out += [f'.{m.group(2)} {n}' for n in subst[m.group(1)]]
    return out
def singles(fmt, vals):
    assert len(fmt) == len(vals), (fmt, len(vals), vals)
    return ['[.requires true .structError]'] + [f'[.packed {CODE[k]} ({v})]' for k, v in zip(fmt, vals)]
o = '''import Verif.Proof.Edits.Basic
/-! # Struct-packed blocks, item by item (generated by `tools/gen_edit_fields.py`) -/

namespace Genie
open Layout
set_option linter.unusedVariables false
set_option linter.unusedSimpArgs false

theorem block_flat (fmt : String) (cs : List Code) (vs : List Val) (h : codes fmt = cs) (hl : cs.length = vs.length) :
    block fmt vs = List.flatten ([.requires true .structError] :: List.zipWith (fun c v => [Item.packed c v]) cs vs) := by
  unfold block requires
  rw [h]
  simp only [hl, decide_true, if_true, List.flatten_cons, List.cons_append, List.nil_append, List.cons.injEq, true_and]
  clear h hl
  induction cs generalizing vs with
  | nil => simp
  | cons c cs ih => cases vs with
    | nil => simp
    | cons v vs => simp [ih]

theorem flatten_inner (a : List (List Item)) (r : List (List Item)) : List.flatten (List.flatten a :: r) = List.flatten (a ++ r) := by
  simp

theorem flatten_append' (a : List (List Item)) (b : List Item) : List.flatten a ++ b = List.flatten (a ++ [b]) := by
  simp

'''
FL = {}
seen = {}
def code_lemma(fmt):
    global o
    if fmt not in seen:
        seen[fmt] = f'codes_{len(seen)}'
        o += f'theorem {seen[fmt]} : codes "{fmt}" = [{", ".join(CODE[k] for k in fmt)}] := by decide +kernel\n\n'
    return seen[fmt]
def simple(c, fmt, vals, cond=None, name='layout_flat', extra='', pre=''):
    global o
    l = code_lemma(fmt)
    o += f'theorem {c}.{name} (v : Version) (x : {c}){extra} : x.layout v = List.flatten [\n    ' + ',\n    '.join(singles(fmt, vals)) + '] := by\n'
    o += f'  unfold {c}.layout\n'
    if cond: o += f'  simp only [{cond}]\n'
    o += pre
    o += f'  exact (block_flat _ _ _ {l} rfl).trans rfl\n\n'
for c in ['ResourceStorage', 'DamageGraphic', 'DeadFish', 'AttackOrArmor', 'Projectile', 'ResourceCost', 'BuildingAnnex']:
    b = flat(body(c))
    m = re.fullmatch(r'\s*block "(\w+)" \((\[.*\])\)', b)
    simple(c, m.group(1), parse_vals(m.group(2), {}))
b = flat(body('Task'))
m = re.search(r'then "(\w+)" else "(\w+)"\) \((\[.*?\]) \+\+ if', b)
vals = parse_vals(m.group(3), {})
simple('Task', m.group(1), vals + ['.int x.enabled'], 'if_pos hv', 'layout_flat88', ' (hv : 88 ≤ v.num)')
simple('Task', m.group(2), vals, 'if_neg hv', 'layout_flat84', ' (hv : ¬ 88 ≤ v.num)')
b = flat(body('TrainLocation'))
m = re.search(r'block "(\w+)" (\[.*?\]) else block "(\w+)" (\[.*?\])', b)
simple('TrainLocation', m.group(1), parse_vals(m.group(2), {}), 'if_pos hv', 'layout_flat88', ' (hv : 88 ≤ v.num)')
simple('TrainLocation', m.group(3), parse_vals(m.group(4), {}), 'if_neg hv', 'layout_flat84', ' (hv : ¬ 88 ≤ v.num)')
def pieces(items): return '[\n    ' + ',\n    '.join(items) + ']'
# Building
b = flat(body('Building'))
m = re.search(r'block "(\w+)" \((\[.*?\])\), (each .*?), block "(\w+)" \((\[.*?\] \+\+ x\.looting_table\.map Val\.int)\)\]', b)
f1, f2 = m.group(1), m.group(4)
L = [f'l{i}' for i in range(6)]
l1, l2 = code_lemma(f1), code_lemma(f2)
s1, s2 = singles(f1, parse_vals(m.group(2), {})), singles(f2, parse_vals(m.group(5), {'looting_table': L}))
o += f'''theorem Building.layout_flat (v : Version) (x : Building) ({' '.join(L)} : Int) (hl : x.looting_table = [{', '.join(L)}]) : x.layout v = List.flatten {pieces(s1 + [m.group(3)] + s2)} := by
  unfold Building.layout
  rw [hl]
  rw [(block_flat _ _ _ {l1} rfl), (block_flat _ _ _ {l2} rfl), flatten_inner]
  simp only [List.zipWith_cons_cons, List.zipWith_nil_left, List.map_cons, List.map_nil, List.cons_append, List.nil_append, List.flatten_cons, List.flatten_nil, List.append_assoc, List.append_nil]

'''
# Creatable
b = flat(body('Creatable'))
m = re.search(r'block "(\w+)" \((.*?)\)\] else match.*?then block "(\w+)" \((.*?)\) else block "(\w+)" \((.*?)\)$', b)
A = {'projectile_spawning_area': ['a0', 'a1', 'a2']}
v88 = parse_vals(m.group(2), A); v84 = parse_vals(m.group(4), A); v77 = parse_vals(m.group(6), A)
for nm, fmt, vals, hyp, cond, pre in [
  ('layout_flat88', m.group(1), v88, '(hv : 88 ≤ v.num)', 'if_pos hv', ['each (ResourceCost.layout v) x.resource_costs', 'countI16 x.train_locations', 'each (TrainLocation.layout v) x.train_locations']),
  ('layout_flat84', m.group(3), v84, '(hv : ¬ 88 ≤ v.num) (hw : 84 ≤ v.num) (t : TrainLocation) (ht : x.train_locations = [t])', 'if_neg hv, if_pos hw, ht', ['each (ResourceCost.layout v) x.resource_costs']),
  ('layout_flat77', m.group(5), v77, '(hv : ¬ 88 ≤ v.num) (hw : ¬ 84 ≤ v.num) (t : TrainLocation) (ht : x.train_locations = [t])', 'if_neg hv, if_neg hw, ht', ['each (ResourceCost.layout v) x.resource_costs'])]:
    l = code_lemma(fmt)
    o += f'''theorem Creatable.{nm} (v : Version) (x : Creatable) (a0 a1 a2 : PyFloat) (ha : x.projectile_spawning_area = [a0, a1, a2]) {hyp} :
    x.layout v = List.flatten {pieces(pre + singles(fmt, vals))} := by
  unfold Creatable.layout
  simp only [{cond}, ha]
  rw [(block_flat _ _ _ {l} rfl)]
  simp only [List.zipWith_cons_cons, List.zipWith_nil_left, List.map_cons, List.map_nil, List.cons_append, List.nil_append, List.flatten_cons, List.flatten_nil, List.append_assoc, List.append_nil]

'''
# Unit
b = flat(body('Unit'))
m = re.search(r'block \(if 88 ≤ v\.num then "(\w+)" else "(\w+)"\) \((.*?)\), (each \(ResourceStorage.*)\]$', b)
U = {k: [k[0] + k[-1] + str(i) for i in range(2)] for k in ('standing_graphic', 'placement_side_terrain', 'placement_terrain', 'clearance_size')}
U = {'standing_graphic': ['s0', 's1'], 'placement_side_terrain': ['p0', 'p1'], 'placement_terrain': ['q0', 'q1'], 'clearance_size': ['c0', 'c1']}
rest = re.split(r', (?=(?:each|count|i16|i32|u8|text|part))', m.group(4))
rest = [re.sub(r'part \(x\.type = (\d+)\)', r'partOf x.type \1', re.sub(r'part \(x\.type ≠ 90 ∧ (\d+) ≤ x\.type\)', r'partFrom x.type \1', r)) for r in rest]
for nm, fmt, vs, hyp, cond in [
  ('layout_flat88', m.group(1), m.group(3).replace('(if 88 ≤ v.num then [] else [.int x.hot_key])', '[]').replace('++ [] ++', '++'), '(hv : 88 ≤ v.num)', 'if_pos hv'),
  ('layout_flat84', m.group(2), m.group(3).replace('(if 88 ≤ v.num then [] else [.int x.hot_key])', '[.int x.hot_key]'), '(hv : ¬ 88 ≤ v.num)', 'if_neg hv')]:
    l = code_lemma(fmt)
    o += f'''theorem Unit.{nm} (v : Version) (x : Unit) (s0 s1 p0 p1 q0 q1 : Int) (c0 c1 : PyFloat)
    (hs : x.standing_graphic = [s0, s1]) (hp : x.placement_side_terrain = [p0, p1]) (hq : x.placement_terrain = [q0, q1])
    (hc : x.clearance_size = [c0, c1]) {hyp} :
    x.layout v = List.flatten {pieces(singles(fmt, parse_vals(vs, U)) + rest)} := by
  rw [Unit.layout_eq]
  simp only [{cond}, hs, hp, hq, hc]
  rw [(block_flat _ _ _ {l} rfl), flatten_inner]
  rfl

'''
o += 'end Genie\n'
open(ROOT + 'Proof/Edits/Flat.lean', 'w').write(o)

# ---- fields
FLATTXT = o
FITS = {'IsU8': 'fits_u8', 'IsI8': 'fits_i8', 'IsI16': 'fits_i16', 'IsI32': 'fits_i32', 'IsU32': 'fits_u32'}
CLEAN = {'u8': 'clean_u8', 'i16': 'clean_i16', 'i32': 'clean_i32', 'u32': 'clean_u32'}
PK = {'IsI8': '.b', 'IsI16': '.h', 'IsI32': '.l'}
PACKED = {'ResourceStorage', 'DamageGraphic', 'DeadFish', 'AttackOrArmor', 'Projectile', 'ResourceCost', 'BuildingAnnex', 'Task', 'TrainLocation', 'Creatable', 'Building'}
UNITPLAIN = ['selection_sound', 'dying_sound', 'wwise_train_sound_id', 'wwise_damage_sound_id', 'wwise_selection_sound_id', 'wwise_dying_sound_id', 'old_attack_reaction', 'convert_terrain', 'copy_id', 'base_id', 'name', 'speed']
def packed(c, f): return c in PACKED or (c == 'Unit' and f not in UNITPLAIN)
def lay(c): return 'DatFile.layoutAt' if c == 'DatFile' else f'{c}.layout'
def layn(c): return {'Unit': 'Unit.layout_eq', 'DatFile': 'DatFile.layout_eq'}.get(c, f'{c}.layout')
def wfty(c): return {'Creatable': 'Creatable.WFWith v hk x', 'DatFile': 'DatFile.WFAt v x', 'TerrainRestriction': 'TerrainRestriction.WF v n x'}.get(c, f'{c}.WF v x')
def ndef(c): return node(c)
def bind(c): return 'n' if False else ''
def splitproof(c, f, closer, since, val='y', P='_', tgt=None, ind='      ', y='y'):
    """tactic lines proving the Splits goal; hx : wf"""
    tgt = tgt or '_'
    upd = f'{{ x with {f} := {val} }}'
    sh = f'show Splits _ (fun {y} => {lay(c)} v {upd}) _\n'
    w = f'walk {closer}\n'
    if c == 'Task':
        if since == 88: r = [f'simp only [Task.layout_flat88 v _ hv]\n', w]
        else: r = ['by_cases hv : 88 ≤ v.num\n', '· simp only [Task.layout_flat88 v _ hv]\n', '  ' + w, '· simp only [Task.layout_flat84 v _ hv]\n', '  ' + w]
    elif c == 'TrainLocation':
        if since == 88: r = ['simp only [TrainLocation.layout_flat88 v _ hv]\n', w]
        else: r = ['by_cases hv : 88 ≤ v.num\n', '· simp only [TrainLocation.layout_flat88 v _ hv]\n', '  ' + w, '· simp only [TrainLocation.layout_flat84 v _ hv]\n', '  ' + w]
    elif c == 'Building' and packed(c, f) and f != 'annexes':
        r = ['obtain ⟨l0, l1, l2, l3, l4, l5, hl⟩ := Exactly.six hx.looting_table\n',
             f'refine Splits.congr ?_ (fun {y} _ => Building.layout_flat v {upd} l0 l1 l2 l3 l4 l5 hl)\n', 'dsimp only\n', w]
    elif c == 'Creatable' and f not in ('resource_costs', 'train_locations'):
        def one(nm, extra): return [f'refine Splits.congr ?_ (fun {y} _ => Creatable.{nm} v {upd} a0 a1 a2 ha {extra})\n', 'dsimp only\n', w]
        r = ['obtain ⟨a0, a1, a2, ha⟩ := Exactly.three hx.projectile_spawning_area\n', 'by_cases h88 : 88 ≤ v.num\n']
        q = one('layout_flat88', 'h88'); r += ['· ' + q[0]] + ['  ' + z for z in q[1:]]
        r += ["· obtain ⟨t, ht, -⟩ := hx.train_locations.of_lt' h88\n"]
        if since == 84:
            q = one('layout_flat84', 'h88 hv t ht'); r += ['  ' + z for z in q]
        else:
            r += ['  by_cases h84 : 84 ≤ v.num\n']
            q = one('layout_flat84', 'h88 h84 t ht'); r += ['  · ' + q[0]] + ['    ' + z for z in q[1:]]
            q = one('layout_flat77', 'h88 h84 t ht'); r += ['  · ' + q[0]] + ['    ' + z for z in q[1:]]
    elif c == 'Unit' and packed(c, f) and f not in ('resource_storages', 'damage_graphics'):
        def one(nm, extra): return [f'refine Splits.congr ?_ (fun {y} _ => Unit.{nm} v {upd} s0 s1 p0 p1 q0 q1 c0 c1 hs hp hq hc {extra})\n', 'dsimp only\n', w]
        r = ['obtain ⟨s0, s1, hs⟩ := Exactly.two hx.standing_graphic\n', 'obtain ⟨p0, p1, hp⟩ := Exactly.two hx.placement_side_terrain\n',
             'obtain ⟨q0, q1, hq⟩ := Exactly.two hx.placement_terrain\n', 'obtain ⟨c0, c1, hc⟩ := Exactly.two hx.clearance_size\n', 'by_cases hv : 88 ≤ v.num\n']
        q = one('layout_flat88', 'hv'); r += ['· ' + q[0]] + ['  ' + z for z in q[1:]]
        q = one('layout_flat84', 'hv'); r += ['· ' + q[0]] + ['  ' + z for z in q[1:]]
    elif c == 'Type50' and since == 84:
        r = ['simp only [Type50.layout, since, if_pos hv]\n', 'repeat (with_reducible apply Splits.tail)\n', 'apply Splits.head\n', w]
    elif c == 'RandomMaps':
        r = ['refine Splits.tail (a := requires (x.map_info_1.length = x.map_info_2.length) .assertionError) (.tail (a := countU32 x.map_info_1) ?_)\n', 'dsimp only\n', 'exact Splits.head .here\n']
    elif c == 'Tech':
        r = ['simp only [Tech.layout, Tech.location84]\n', 'split\n', '· ' + w, '· ' + w]
    elif c in PACKED and c not in ('Creatable', 'Building', 'Unit'):
        r = [f'simp only [{c}.layout_flat]\n', w]
    elif c == 'Creatable' and f == 'resource_costs':
        r = ['simp only [Creatable.layout]\n', f'exact Splits.left {closer}\n']
    else:
        r = [f'simp only [{layn(c)}]\n', w]
    return ind + sh + ''.join(ind + l for l in r)
def wfset(c, f, proof):
    if c == 'Creatable': return f'⟨hk, {{ hx with {f} := {proof} }}⟩'
    return f'{{ hx with {f} := {proof} }}'
def hxline(c):
    if c == 'Creatable': return 'obtain ⟨hk, hx⟩ : ∃ hk, Creatable.WFWith v hk x := hx'
    return f'have hx : {wfty(c)} := hx'
HEAD = '''import Verif.Proof.Edits.FieldDefs
/-! # %s (generated by `tools/gen_edit_fields.py`) -/

namespace Genie
open Layout
set_option linter.unusedVariables false
set_option linter.unusedSimpArgs false

'''
def arrange(lst):
    un = [e for s, e in lst if s is None]
    co = {}
    for s, e in lst:
        if s is not None: co.setdefault(s, []).append(e)
    return un, co
def chain(es): return ''.join(f'forall_cons {e} (' for e in es) + 'forall_nil' + ')' * len(es)
def emit(kind, doc, tbl, ok, lister, mod, pre=''):
    txt = HEAD % doc
    names = {}
    for c in ALL:
        lst = lister(c)   # list of (since, lemma_suffix, lemma text builder)
        if not lst: continue
        an = ' (n : Nat)' if c == 'TerrainRestriction' else ''
        for since, suf, stmt, proof in lst:
            hyp = '' if since is None else (f' (hv : {since} ≤ v.num)' if isinstance(since, int) else f' (hv : {since})')
            txt += f'theorem {c}.{kind}_{suf} (v : Version){an}{hyp} : {stmt} where\n{proof}\n'
        un, co = arrange([(s, f'({c}.{kind}_{suf} v{" n" if an else ""}{"" if s is None else " hv"})') for s, suf, _, _ in lst])
        e = chain(un)
        for s, es in co.items():
            e = f'forall_append ({e}) (forall_ite fun hv => {chain(es)})'
        txt += f'theorem {c}.{tbl} (v : Version){an} : ∀ f ∈ Node.{tbl} v {node(c)}, {ok(c)} :=\n  {e}\n\n'
        names[c] = f'{c}.{tbl}'
    txt += f'theorem Node.{tbl}_ok (v : Version) (n : Node) : ∀ f ∈ n.{tbl} v, {ok(None)} := by\n  match n with\n'
    for c in ALL:
        if c in names:
            pat = '.record (.TerrainRestriction k)' if c == 'TerrainRestriction' else ('.file' if c == 'DatFile' else f'.record .{c}')
            txt += f'  | {pat} => exact {names[c]} v{" k" if c == "TerrainRestriction" else ""}\n'
    for c in ALL:
        if c not in names:
            pat = '.record (.TerrainRestriction k)' if c == 'TerrainRestriction' else ('.file' if c == 'DatFile' else f'.record .{c}')
            txt += f'  | {pat} => exact forall_nil\n'
    txt += '\nend Genie\n'
    open(ROOT + f'Proof/Edits/{mod}.lean', 'w').write(txt)
def sinceproof(since, p): return f'Since.of_ge hv ({p})' if since else p
def sinceold(since, p): return f"({p}.of_ge' hv)" if since else p
def ints(c):
    r = []
    for f, t in fields(c):
        k, s, d = classify(c, f, t)
        if k != 'int' or (c, f) in CONTROL: continue
        w = re.search(r'Is[IU]\d+', t).group(0)
        it = f'.packed {PK[w]} (.int i)' if packed(c, f) else f'.int {d[0]} {d[1]} i'
        stmt = f'IntField.OK {node(c)} v ⟨"{f}", {d[0]}, {d[1]}, fun (x : {obj(c)}) => x.{f}, fun x y => {{ x with {f} := y }}⟩'
        hx = hxline(c)
        proof = f'''  self _ := rfl
  get_set _ _ := rfl
  fits x hx := by
    {hx}
    exact {FITS[w]}.2 {sinceold(s, f"hx.{f}")}
  wf x hx y hy := by
    {hx}
    exact {wfset(c, f, sinceproof(s, f"{FITS[w]}.1 hy"))}
  splits x hx := by
    {hx}
    refine ⟨fun i => {it}, {itok(it)}, ?_⟩
{splitproof(c, f, "Splits.here", s, ind="    ")}'''
        r.append((s, f, stmt, proof))
    return r
def itok(it):
    if it.startswith('.int'): return '.int _ _'
    if it == '.float i': return '.float'
    return it.split()[1]
def floats(c):
    r = []
    for f, t in fields(c):
        k, s, d = classify(c, f, t)
        if (c, f) == ('Unit', 'speed'):
            stmt = f'FloatField.OK {node(c)} v ⟨"speed", fun (x : {obj(c)}) => x.speed, fun x y => {{ x with speed := some y }}⟩'
            proof = f'''  self x y h := by
    have h : x.speed = some y := h
    show {{ x with speed := some y }} = x
    rw [← h]
  get_set _ _ := rfl
  fits x hx y hy := (show Unit.WF v x from hx).speed.2 y hy
  wf x hx y hy i hi := by
    have hx : Unit.WF v x := hx
    exact {{ hx with speed := PresentIff.set hx.speed hy hi }}
  splits x hx y hy := by
    have hx : Unit.WF v x := hx
    have hc := hx.speed.1.2 (by rw [show x.speed = some y from hy]; rfl)
    refine ⟨fun i => .float i, .float, ?_⟩
{splitproof(c, f, "(Splits.partFrom hc)", s, ind="    ", val="some y")}'''
            r.append((s, f, stmt, proof)); continue
        if k != 'float': continue
        it = '.packed .f (.float i)' if packed(c, f) else '.float i'
        stmt = f'FloatField.OK {node(c)} v ⟨"{f}", fun (x : {obj(c)}) => some x.{f}, fun x y => {{ x with {f} := y }}⟩'
        hx = hxline(c)
        proof = f'''  self x y h := by cases h; rfl
  get_set _ _ := rfl
  fits x hx y hy := by
    cases hy
    {hx}
    exact {sinceold(s, f"hx.{f}")}
  wf x hx _ _ y hy := by
    {hx}
    exact {wfset(c, f, sinceproof(s, "hy"))}
  splits x hx _ _ := by
    {hx}
    refine ⟨fun i => {it}, {itok(it)}, ?_⟩
{splitproof(c, f, "Splits.here", s, ind="    ")}'''
        r.append((s, f, stmt, proof))
    return r
def texts(c):
    r = []
    for f, t in fields(c):
        k, s, d = classify(c, f, t)
        if k != 'text': continue
        stmt = f'TextField.OK {node(c)} v ⟨"{f}", fun (x : {obj(c)}) => x.{f}, fun x y => {{ x with {f} := y }}⟩'
        hx = hxline(c)
        proof = f'''  self _ := rfl
  get_set _ _ := rfl
  wf x hx y hy := by
    {hx}
    exact {wfset(c, f, sinceproof(s, "hy"))}
  splits x hx := by
    {hx}
{splitproof(c, f, "Splits.here", s, ind="    ")}'''
        r.append((s, f, stmt, proof))
    return r
ITEMS = {'IsU8': 'u8', 'IsI16': 'i16', 'IsI32': 'i32', 'IsU32': 'u32', 'IsF32': 'f32'}
def cleanproof(p): return 'fun _ _ => clean_f32' if p == 'IsF32' else f'fun _ h => {CLEAN[ITEMS[p]]}.2 h'
def lf(c, f, el, items, ok): return f'⟨"{f}", {el}, fun (x : {obj(c)}) => x.{f}, fun x l => {{ x with {f} := l }}, {items}, {ok}⟩'
def parts(k, d):
    if k == 'scalars': return ('PyFloat' if d[2] == 'IsF32' else 'Int', ITEMS[d[2]], d[2], cleanproof(d[2]))
    return (obj(d[2]), f'{d[2]}.layout v', f'{d[2]}.WF v', f'fun e h => clean_class .{d[2]} e h')
def fixeds(c):
    r = []
    for f, t in fields(c):
        k, s, d = classify(c, f, t)
        hx = hxline(c)
        if (c, f) == ('Bird', 'drop_sites'): k, d, s = 'scalars', ('Exactly', 3, 'IsI16'), 'v.num < 78'
        elif not (k in ('scalars', 'records') and d[0] == 'Exactly' and (c, f) not in PACKED_LISTS): continue
        el, items, ok, cl = parts(k, d)
        stmt = f'ListField.FixedOK {node(c)} v {d[1]} {lf(c, f, el, items, ok)}'
        if f == 'drop_sites':
            old = "hx.drop_sites.of_lt' (by omega)"; wf1 = "Since.of_lt (by omega) ⟨h, hl⟩"; back = "k.drop_sites.of_lt' (by omega)"
            sp = '''    show Splits _ (fun y => Bird.layout v { x with drop_sites := y }) _
    simp only [Bird.layout, since, if_neg (show ¬ 78 ≤ v.num by omega)]
    walk Splits.here
'''
        else:
            old = f'hx.{f}'; wf1 = '⟨h, hl⟩'; back = f'k.{f}'
            sp = splitproof(c, f, "Splits.here", s, ind="    ")
        ky = {'Creatable': '∃ hk, Creatable.WFWith v hk { x with ' + f + ' := l }', 'DatFile': f'DatFile.WFAt v {{ x with {f} := l }}'}.get(c, f'{c}.WF v {{ x with {f} := l }}')
        bk = f'⟨hk, k⟩' if c == 'Creatable' else 'k'
        proof = f'''  self _ := rfl
  get_set _ _ := rfl
  clean := {cl}
  old x hx := by
    {hx}
    exact {old}
  wf x hx l hl := by
    {hx}
    constructor
    · intro (k : {ky})
      {"obtain ⟨_, k⟩ := k" if c == "Creatable" else "skip"}
      exact ({back}).1
    · intro h
      exact {wfset(c, f, wf1)}
  splits x hx := by
    {hx}
{sp}'''
        r.append((s, f, stmt, proof))
    return r
COUNTED = {('Bird', 'drop_sites'): (78, ('UpTo', 32767, 'IsI16'), 'scalars'), ('Tech', 'research_locations'): (88, ('UpTo', 32767, 'ResearchLocation'), 'records'),
           ('Creatable', 'train_locations'): (88, ('UpTo', 32767, 'TrainLocation'), 'records')}
def counteds(c):
    r = []
    for f, t in fields(c):
        k, s, d = classify(c, f, t)
        hx = hxline(c)
        if c == 'MapInfo' or c == 'RandomMaps': continue
        sp = (c, f) in COUNTED
        if sp: s, d, k = COUNTED[c, f]
        elif not (k in ('scalars', 'records') and d[0] == 'UpTo'): continue
        el, items, ok, cl = parts(k, d)
        stmt = f'ListField.CountedOK {node(c)} v {d[1]} {lf(c, f, el, items, ok)}'
        old = f"hx.{f}.of_ge' hv" if sp else f'hx.{f}'
        wf1 = 'Since.of_ge hv h' if sp else 'h'
        back = f"k.{f}.of_ge' hv" if sp else f'k.{f}'
        ky = {'Creatable': '∃ hk, Creatable.WFWith v hk { x with ' + f + ' := l }', 'DatFile': f'DatFile.WFAt v {{ x with {f} := l }}'}.get(c, f'{c}.WF v {{ x with {f} := l }}')
        W = 'repeat (first | (with_reducible apply Splits.head; exact Splits.here; done) | with_reducible apply Splits.tail | refine Splits.tailP (fun y h => sameLength_countU8 h) ?_ | refine Splits.tailP (fun y h => sameLength_countI16 h) ?_ | refine Splits.tailP (fun y h => sameLength_countI32 h) ?_)'
        si = 'simp only [Bird.layout, since, if_pos hv]' if f == 'drop_sites' else 'simp only [Tech.layout, if_pos hv]' if f == 'research_locations' else 'simp only [Creatable.layout, if_pos hv]\n    apply Splits.right' if f == 'train_locations' else f'simp only [{layn(c)}]'
        proof = f'''  self _ := rfl
  get_set _ _ := rfl
  old x hx := by
    {hx}
    exact {old}
  wf x hx l := by
    {hx}
    constructor
    · intro (k : {ky})
      {"obtain ⟨_, k⟩ := k" if c == "Creatable" else "skip"}
      exact {back}
    · intro h
      exact {wfset(c, f, wf1)}
  splits x hx := by
    {hx}
    show Splits _ (fun y => {lay(c)} v {{ x with {f} := y }}) _
    {si}
    {W}
'''
        r.append((s, f, stmt, proof))
    return r
def slotls(c):
    r = []
    for f, t in fields(c):
        k, s, d = classify(c, f, t)
        if k != 'slots': continue
        hx = hxline(c)
        stmt = f'ListField.SlotsOK {node(c)} v {d[0]} ' + lf(c, f, f'(Option {obj(d[1])})', f'fun o => eachPresent ({d[1]}.layout v) [o]', f'IfSome ({d[1]}.WF v)')
        ky = {'DatFile': f'DatFile.WFAt v {{ x with {f} := l }}'}.get(c, f'{c}.WF v {{ x with {f} := l }}')
        proof = f'''  self _ := rfl
  get_set _ _ := rfl
  old x hx := by
    {hx}
    exact hx.{f}
  wf x hx l := by
    {hx}
    constructor
    · intro (k : {ky})
      exact k.{f}
    · intro h
      exact {wfset(c, f, 'h')}
'''
        r.append((s, f, stmt, proof))
    return r
emit('intField', 'Integer fields', 'intFields', lambda c: f'IntField.OK {node(c) if c else "n"} v f', ints, 'IntFields')
emit('floatField', 'Float fields', 'floatFields', lambda c: f'FloatField.OK {node(c) if c else "n"} v f', floats, 'FloatFields')
emit('textField', 'Text fields', 'textFields', lambda c: f'TextField.OK {node(c) if c else "n"} v f', texts, 'TextFields')
emit('fixedList', 'Lists of fixed length', 'fixedLists', lambda c: f'ListField.FixedOK {node(c) if c else "n"} v f.1 f.2', fixeds, 'FixedLists')
emit('countedList', 'Lists with a count', 'countedLists', lambda c: f'ListField.CountedOK {node(c) if c else "n"} v f.1 f.2', counteds, 'CountedLists')
emit('slotList', 'Lists with empty slots', 'slotLists', lambda c: f'ListField.SlotsOK {node(c) if c else "n"} v f.1 f.2', slotls, 'SlotLists')
