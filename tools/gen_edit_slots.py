#!/usr/bin/env python3
"""Writes lean/Verif/Proof/Edits/Slots.lean."""
import sys
sys.path.insert(0, '/verif/tools')
from edits_common import *
from gen_edits import slots, node
S = slots()
o = '''import Verif.Proof.Edits.Basic
import Verif.Proof.ConvertWF
/-! # Replacing a record inside another one (generated by `tools/gen_edit_slots.py`) -/

namespace Genie
open Layout
set_option linter.unusedVariables false
set_option linter.unusedSimpArgs false

theorem restrictions_get {l : List TerrainRestriction} {i n : Nat} {m : TerrainRestriction}
    (h : l[i]?.filter (·.passable_buildable_dmg_multiplier.length = n) = some m) :
    l[i]? = some m ∧ m.passable_buildable_dmg_multiplier.length = n := by
  cases hl : l[i]? with
  | none => rw [hl] at h; cases h
  | some r =>
    rw [hl] at h
    simp only [Option.filter_eq_some_iff, decide_eq_true_eq, Option.some.injEq] at h
    obtain ⟨rfl, h⟩ := h
    exact ⟨rfl, h⟩

theorem tasks_get {o : Option (List α)} {i : Nat} {m : α} (h : o.bind (·[i]?) = some m) : ∃ l, o = some l ∧ l[i]? = some m := by
  cases o with
  | none => cases h
  | some l => exact ⟨l, rfl, h⟩

'''
SC = 'countU8_set, countI16_set, countI32_set, countU32_set, List.length_set'
def layn(c): return 'DatFile.layout_eq' if c == 'DatFile' else 'Unit.layout_eq' if c == 'Unit' else lay(c)
def lay(c): return 'DatFile.layoutAt' if c == 'DatFile' else f'{c}.layout'
for k, c, f, d in S:
    args = {'list': '(i : Nat) ', 'slots': '(i : Nat) ', 'tasks': '(i : Nat) ', 'restr': '(n i : Nat) '}.get(k, '')
    if c == 'TerrainRestriction': args = '(n i : Nat) '
    sl = f'Slot.{c}_{f}' + (' n i' if 'n i' in args else ' i' if args else '')
    W = f'TerrainRestriction.WF v n x' if c == 'TerrainRestriction' else f'Node.WF v {node(c)} x'
    o += f'theorem Slot.good_{c}_{f} (v : Version) {args}(x : Genie.{c}) (m : Genie.{d}) (hx : Node.WF v {node(c)} x) (hs : ({sl}).Stored v)\n    (hg : ({sl}).get x = some m) : ({sl}).Good v x m := by\n'
    if k == 'list' and (c, f) not in {('Graphic', 'angle_sounds'), ('RandomMaps', 'map_info_2'), ('RandomMaps', 'map_info_1'), ('Tech', 'research_locations'), ('Creatable', 'train_locations'), ('Creatable', 'resource_costs')} and c != 'MapInfo':
        w = 'exact ' if c == 'X' else ''
        o += f'''  have hg : x.{f}[i]? = some m := hg
  exact {{
    wf := AllOf.elem (hx : {'Genie.TerrainRestriction.WF v n x' if c == 'TerrainRestriction' else f'Genie.{c}.{"WFAt" if c == "DatFile" else "WF"} v x'}).{f}.2 hg
    self := by show {{ x with {f} := x.{f}.set i m }} = x; rw [set_self hg]
    wf_set := fun y hy _ => {{ (hx : {'Genie.TerrainRestriction.WF v n x' if c == 'TerrainRestriction' else f'Genie.{c}.{"WFAt" if c == "DatFile" else "WF"} v x'}) with {f} := {'UpTo' if 'UpTo' in dict(fields(c))[f] else 'Exactly'}.set hx.{f} hy i }}
    get_set := fun y _ => get_set_elem hg y
    splits := by
      show Splits _ (fun y => {lay(c)} v {{ x with {f} := x.{f}.set i y }}) ({d}.layout v)
      simp only [{layn(c)}, {SC}{", Tech.location84" if c == "Tech" else ""}]
      {'split <;> ' if c == 'Tech' else ''}walk (Splits.elem hg) }}

'''
    elif c == 'MapInfo':
        o += f'''  have hg : x.{f}[i]? = some m := hg
  have hx : MapInfo.WF v x := hx
  exact {{
    wf := AllOf.elem hx.{f}.2 hg
    self := by show {{ x with {f} := x.{f}.set i m }} = x; rw [set_self hg]
    wf_set := fun y hy _ => {{ hx with
      {f} := UpTo.set hx.{f} hy i
      {f}_size := by dsimp only [Slot.set]; rw [List.length_set]; exact hx.{f}_size }}
    get_set := fun y _ => get_set_elem hg y
    splits := by
      show Splits _ (fun y => MapInfo.layout v {{ x with {f} := x.{f}.set i y }}) ({d}.layout v)
      simp only [MapInfo.layout]
      walk (Splits.elem hg) }}

'''
    elif k == 'one':
        o += f'''  cases hg
  exact {{
    wf := hx.{f}
    self := rfl
    wf_set := fun y hy _ => {{ (hx : Genie.{c}.{"WFAt" if c == "DatFile" else "WF"} v x) with {f} := hy }}
    get_set := fun _ _ => rfl
    splits := by
      show Splits _ (fun y => {lay(c)} v {{ x with {f} := y }}) ({d}.layout v)
      simp only [{layn(c)}]
      walk (Splits.here) }}

'''
    elif k == 'slots':
        o += f'''  have hg : slotAt x.{f} i = some m := hg
  have hx : Genie.{c}.{"WFAt" if c == "DatFile" else "WF"} v x := hx
  exact {{
    wf := AllOf.elem hx.{f}.2 (slotAt_eq hg) m rfl
    self := by show {{ x with {f} := x.{f}.set i (some m) }} = x; rw [set_self (slotAt_eq hg)]
    wf_set := fun y hy _ => {{ hx with {f} := UpTo.set hx.{f} (ifSome_some hy) i }}
    get_set := fun y _ => get_set_slot hg y
    splits := by
      show Splits _ (fun y => {lay(c)} v {{ x with {f} := x.{f}.set i (some y) }}) ({d}.layout v)
      simp only [{layn(c)}, {SC}, pointers_set hg]
      walk (Splits.present hg) }}

'''
    elif k == 'part' and f != 'creatable':
        o += f'''  have hg : x.{f} = some m := hg
  have hx : Genie.{c}.WF v x := hx
  exact {{
    wf := hx.{f}.2 m hg
    self := by show {{ x with {f} := some m }} = x; rw [← hg]
    wf_set := fun y hy _ => {{ hx with {f} := PresentIff.set hx.{f} hg hy }}
    get_set := fun _ _ => rfl
    splits := by
      have hc := hx.{f}.1.2 (by rw [hg]; rfl)
      show Splits _ (fun y => {lay(c)} v {{ x with {f} := some y }}) ({d}.layout v)
      simp only [{layn(c)}]
      walk ({'Splits.partOf' if f in ('projectile', 'building') else 'Splits.partFrom'} hc) }}

'''
    elif (c, f) == ('Graphic', 'angle_sounds'):
        o += f'''  have hg : x.{f}[i]? = some m := hg
  have hx : Genie.Graphic.WF v x := hx
  exact {{
    wf := AllOf.elem hx.{f}.1 hg
    self := by show {{ x with {f} := x.{f}.set i m }} = x; rw [set_self hg]
    wf_set := fun y hy _ => {{ hx with {f} := ⟨AllOf.set hx.{f}.1 hy i, by dsimp only [Slot.set]; rw [List.length_set]; exact hx.{f}.2⟩ }}
    get_set := fun y _ => get_set_elem hg y
    splits := by
      show Splits _ (fun y => {lay(c)} v {{ x with {f} := x.{f}.set i y }}) ({d}.layout v)
      simp only [{layn(c)}, {SC}]
      walk (Splits.elem hg) }}

'''
    elif c == 'RandomMaps':
        nf = ('map_info_1 := UpTo.set hx.map_info_1 hy i\n      map_info_2 := ⟨by dsimp only [Slot.set]; rw [List.length_set]; exact hx.map_info_2.1, hx.map_info_2.2⟩'
              if f == 'map_info_1' else 'map_info_2 := ⟨by dsimp only [Slot.set]; rw [List.length_set]; exact hx.map_info_2.1, AllOf.set hx.map_info_2.2 hy i⟩')
        o += f'''  have hg : x.{f}[i]? = some m := hg
  have hx : Genie.RandomMaps.WF v x := hx
  exact {{
    wf := AllOf.elem hx.{f}.2 hg
    self := by show {{ x with {f} := x.{f}.set i m }} = x; rw [set_self hg]
    wf_set := fun y hy _ => {{ hx with
      {nf} }}
    get_set := fun y _ => get_set_elem hg y
    splits := by
      show Splits _ (fun y => {lay(c)} v {{ x with {f} := x.{f}.set i y }}) ({d}.layout v)
      simp only [{layn(c)}, {SC}]
      walk (Splits.elem hg) }}

'''
    elif (c, f) == ('Tech', 'research_locations'):
        o += f'''  have hg : x.{f}[i]? = some m := hg
  have hx : Genie.Tech.WF v x := hx
  have hs : 88 ≤ v.num := hs
  exact {{
    wf := AllOf.elem (hx.{f}.of_ge' hs).2 hg
    self := by show {{ x with {f} := x.{f}.set i m }} = x; rw [set_self hg]
    wf_set := fun y hy _ => {{ hx with {f} := Since.of_ge hs (UpTo.set (hx.{f}.of_ge' hs) hy i) }}
    get_set := fun y _ => get_set_elem hg y
    splits := by
      show Splits _ (fun y => {lay(c)} v {{ x with {f} := x.{f}.set i y }}) ({d}.layout v)
      simp only [{layn(c)}, {SC}, if_pos hs]
      walk (Splits.elem hg) }}

'''
    elif (c, f) == ('Creatable', 'train_locations'):
        o += f'''  have hg : x.{f}[i]? = some m := hg
  obtain ⟨hk, hx⟩ : ∃ hk, Creatable.WFWith v hk x := hx
  have hs : 88 ≤ v.num := hs
  exact {{
    wf := AllOf.elem (hx.{f}.of_ge' hs).2 hg
    self := by show {{ x with {f} := x.{f}.set i m }} = x; rw [set_self hg]
    wf_set := fun y hy _ => ⟨hk, {{ hx with {f} := Since.of_ge hs (UpTo.set (hx.{f}.of_ge' hs) hy i) }}⟩
    get_set := fun y _ => get_set_elem hg y
    splits := by
      show Splits _ (fun y => {lay(c)} v {{ x with {f} := x.{f}.set i y }}) ({d}.layout v)
      simp only [{layn(c)}, {SC}, if_pos hs]
      apply Splits.right
      walk (Splits.elem hg) }}

'''
    elif (c, f) == ('Creatable', 'resource_costs'):
        o += f'''  have hg : x.{f}[i]? = some m := hg
  obtain ⟨hk, hx⟩ : ∃ hk, Creatable.WFWith v hk x := hx
  exact {{
    wf := AllOf.elem hx.{f}.2 hg
    self := by show {{ x with {f} := x.{f}.set i m }} = x; rw [set_self hg]
    wf_set := fun y hy _ => ⟨hk, {{ hx with {f} := Exactly.set hx.{f} hy i }}⟩
    get_set := fun y _ => get_set_elem hg y
    splits := by
      show Splits _ (fun y => {lay(c)} v {{ x with {f} := x.{f}.set i y }}) ({d}.layout v)
      simp only [{layn(c)}]
      exact Splits.left (Splits.elem hg) }}

'''
    elif (c, f) == ('Unit', 'creatable'):
        o += f'''  have hg : x.{f} = some m := hg
  have hx : Genie.{c}.WF v x := hx
  have key : ∀ y : Creatable, y.train_locations.head?.map (·.hot_key_id) = (x.creatable.bind (·.train_locations.head?)).map (·.hot_key_id) →
      y.train_locations.head?.map (·.hot_key_id) = m.train_locations.head?.map (·.hot_key_id) := by
    intro y h; rw [h, hg]; rfl
  exact {{
    wf := ⟨_, hx.{f}.2 m hg⟩
    self := by show {{ x with {f} := some m }} = x; rw [← hg]
    wf_set := fun y hy hk => by
      have hy : ∃ hk, Creatable.WFWith v hk y := hy
      obtain ⟨k, hy⟩ := hy
      have hk := key y hk
      refine {{ hx with
        hot_key := ?_
        creatable := PresentIff.set hx.creatable hg ?_ }}
      · by_cases h88 : 88 ≤ v.num
        · have ho := hx.hot_key.of_ge' h88
          refine Since.of_ge h88 ⟨?_, ?_⟩
          · intro c t ts hc ht
            cases hc
            rw [ht] at hk
            cases hm : m.train_locations with
            | nil => rw [hm] at hk; cases hk
            | cons t' ts' =>
              rw [hm] at hk
              have : t.hot_key_id = t'.hot_key_id := Option.some.inj hk
              rw [this]
              exact ho.1 m t' ts' hg hm
          · intro hc
            have hc := hc y rfl
            rw [hc] at hk
            refine ho.2 fun c hc' => ?_
            rw [hg] at hc'; cases hc'
            cases hm : m.train_locations with
            | nil => rfl
            | cons t' ts' => rw [hm] at hk; cases hk
        · exact Since.of_lt h88 (hx.hot_key.of_lt' h88)
      · by_cases h88 : 88 ≤ v.num
        · exact {{ hy with train_locations := Since.of_ge h88 (hy.train_locations.of_ge' h88) }}
        · obtain ⟨t, ht, h1, h2, h3, h4⟩ := hy.train_locations.of_lt' h88
          obtain ⟨t', ht', -, -, -, h4'⟩ := (hx.creatable.2 m hg).train_locations.of_lt' h88
          rw [ht, ht'] at hk
          have : t.hot_key_id = t'.hot_key_id := Option.some.inj hk
          exact {{ hy with train_locations := Since.of_lt h88 ⟨t, ht, h1, h2, h3, this.trans h4'⟩ }}
    get_set := fun _ _ => rfl
    splits := by
      have hc := hx.{f}.1.2 (by rw [hg]; rfl)
      show Splits _ (fun y => {lay(c)} v {{ x with {f} := some y }}) ({d}.layout v)
      simp only [{layn(c)}]
      walk ({'Splits.partOf' if f in ('projectile', 'building') else 'Splits.partFrom'} hc) }}

'''
    elif k == 'tasks':
        o += f'''  obtain ⟨l, ho, hg⟩ := tasks_get (show x.task_list.bind (·[i]?) = some m from hg)
  have hx : Genie.UnitHeaders.WF v x := hx
  have hc : x.exists_ ≠ 0 := hx.task_list.1.2 (by rw [ho]; rfl)
  have hl := hx.task_list.2 l ho
  exact {{
    wf := AllOf.elem hl.2 hg
    self := by show {{ x with task_list := x.task_list.map (·.set i m) }} = x; rw [ho, Option.map_some, set_self hg, ← ho]
    wf_set := fun y hy _ => {{ hx with task_list := (by
      dsimp only [Slot.set]
      rw [ho]
      exact PresentIff.set hx.task_list ho (UpTo.set hl hy i)) }}
    get_set := fun y _ => by
      show (x.task_list.map (·.set i y)).bind (·[i]?) = some y
      rw [ho]; exact get_set_elem hg y
    splits := by
      show Splits _ (fun y => UnitHeaders.layout v {{ x with task_list := x.task_list.map (·.set i y) }}) (Task.layout v)
      simp only [UnitHeaders.layout, ho, Option.map_some, Layout.part, if_pos hc, countI16_set]
      exact Splits.right (Splits.right (Splits.elem hg)) }}

'''
    elif k == 'restr':
        o += f'''  obtain ⟨hgi, hm⟩ := restrictions_get (show x.terrain_restrictions[i]?.filter (·.passable_buildable_dmg_multiplier.length = n) = some m from hg)
  have hx : Genie.DatFile.WFAt v x := hx
  obtain ⟨n', hn, hl⟩ := hx.terrain_restrictions
  have hn' : n' = n := (AllOf.elem hl.2 hgi).passable_buildable_dmg_multiplier.1.symm.trans hm
  subst hn'
  exact {{
    wf := AllOf.elem hl.2 hgi
    self := by show {{ x with {f} := x.{f}.set i m }} = x; rw [set_self hgi]
    wf_set := fun y hy _ => {{ hx with
      float_ptr_terrain_tables := ⟨by dsimp only [Slot.set]; rw [List.length_set]; exact hx.float_ptr_terrain_tables.1, hx.float_ptr_terrain_tables.2⟩
      terrain_pass_graphic_pointers := ⟨by dsimp only [Slot.set]; rw [List.length_set]; exact hx.terrain_pass_graphic_pointers.1, hx.terrain_pass_graphic_pointers.2⟩
      terrain_restrictions := ⟨n', hn, UpTo.set hl hy i⟩ }}
    get_set := fun y (hy : (Genie.TerrainRestriction.passable_buildable_dmg_multiplier y).length = n') => by
      show (x.terrain_restrictions.set i y)[i]?.filter (·.passable_buildable_dmg_multiplier.length = n') = some y
      rw [get_set_elem hgi]; simp [Option.filter, hy]
    splits := by
      show Splits (fun (y : Genie.TerrainRestriction) => y.passable_buildable_dmg_multiplier.length = n') (fun y => DatFile.layoutAt v {{ x with {f} := x.{f}.set i y }}) (TerrainRestriction.layout v)
      have ht : ∀ y : Genie.TerrainRestriction, y.passable_buildable_dmg_multiplier.length = n' → firstLen (x.terrain_restrictions.set i y) = firstLen x.terrain_restrictions := by
        intro y hy
        unfold firstLen
        cases hr : x.terrain_restrictions with
        | nil => rfl
        | cons r rs =>
          cases i with
          | zero =>
            rw [hr] at hgi
            cases hgi
            simp only [List.set_cons_zero]
            rw [hm, hy]
          | succ i => simp only [List.set_cons_succ]
      simp only [DatFile.layout_eq, sameLen_set, countI16_set]
      exact .tail (.tail (.tail (.tail (.tailP ht (.tail (.tail (.head (.elem hgi)))))))) }}

'''
o += 'theorem Slot.good {a b : Node} (s : Slot a b) (v : Version) (x : a.Obj) (m : b.Obj) (hx : a.WF v x) (hs : s.Stored v)\n    (hg : s.get x = some m) : s.Good v x m := by\n  cases s with\n'
for k, c, f, d in S:
    args = {'list': ' i', 'slots': ' i', 'tasks': ' i', 'restr': ' n i'}.get(k, '')
    if c == 'TerrainRestriction': args = ' n i'
    o += f'  | {c}_{f}{args} => exact Slot.good_{c}_{f} v{args} x m hx hs hg\n'
o += '\nend Genie\n'
open(ROOT + 'Proof/Edits/Slots.lean', 'w').write(o)
