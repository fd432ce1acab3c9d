#!/usr/bin/env python3
"""Generate lean/Verif/Proof/ConvertWF.lean: what is left after saving as another version is well-formed in that version."""
import re
src = open('lean/Verif/Spec/Versioned.lean').read()
def go(cls, special, st='WF', since=None):
    m = re.search(r'^structure '+cls+r'\.'+st+r' .*? : Prop where\n((?:  .*\n)+)', src, re.M)
    body = re.sub(r'\n    +', ' ', m.group(1))
    out=[]
    for line in body.splitlines():
        f, t = line.strip().split(' : ', 1)
        g = re.fullmatch(r'(UpTo|Exactly) \S+ \((\w+)\.WF v\) .*', t)
        g2 = re.match(r'PresentIff .* \((\w+)\.WF v\) .*', t)
        g3 = re.match(r'UpTo 32767 \(IfSome \((\w+)\.WF v\)\)', t)
        if f in special: pf = special[f]
        elif g: pf = f'h.{f}.imp {g.group(2)}.wfv'
        elif g3: pf = f'h.{f}.imp (fun k => k.imp {g3.group(1)}.wfv)'
        elif g2: pf = f'⟨h.{f}.1, h.{f}.2.imp {g2.group(1)}.wfv⟩'
        elif re.fullmatch(r'(\w+)\.WF v .*', t): pf = f'{t.split(".")[0]}.wfv h.{f}'
        elif t.startswith('Since'):
            pf = f'Since.of_ge hw (h.{f}.stored (fun e => by rw [e]; decide))' if since else 'Since.of_lt hw rfl'
        else: pf = f'h.{f}'
        out.append(f'    {f} := {pf}')
    return '{\n' + '\n'.join(out) + ' }'

TL = '''by
      by_cases hw' : 88 ≤ w.num
      · refine Since.of_ge hw' ?_
        simp only [if_pos hw']
        by_cases hv : 88 ≤ v.num
        · have := h.train_locations.of_ge' hv
          exact this.imp fun k => { train_time := k.train_time, unit_id := k.unit_id, button_id := k.button_id, hot_key_id := Since.of_ge hw' (k.hot_key_id.of_ge' hv) }
        · obtain ⟨t, ht, h1, h2, h3, h4⟩ := h.train_locations.of_lt' hv
          rw [ht]
          refine ⟨by simp, fun y hy => ?_⟩
          simp only [oneLocation, List.mem_singleton] at hy
          subst hy
          exact { train_time := h1, unit_id := h2, button_id := h3, hot_key_id := Since.of_ge hw' (h4 ▸ hhk hv) }
      · refine Since.of_lt hw' ?_
        simp only [if_neg hw']
        cases ht : x.train_locations with
        | nil => exact absurd ht (hne hw')
        | cons t l =>
          refine ⟨{ t with hot_key_id := hk' }, rfl, ?_⟩
          by_cases hv : 88 ≤ v.num
          · have := (h.train_locations.of_ge' hv).2 t (ht ▸ List.mem_cons_self)
            exact ⟨this.train_time, this.unit_id, this.button_id, rfl⟩
          · obtain ⟨t', ht', h1, h2, h3, h4⟩ := h.train_locations.of_lt' hv
            rw [ht] at ht'
            cases ht'
            exact ⟨h1, h2, h3, rfl⟩'''

E = [
go('Task', {}, since=True),
go('Task', {}, since=False),
go('Bird', {'drop_sites': '(by by_cases hw : 78 ≤ w.num; exact Since.of_ge hw ⟨len, all⟩; exact Since.of_lt hw ⟨hd (Nat.lt_of_not_le hw), all⟩)', 'tasks': 'h.tasks.map fun _ _ => Task.wf_asVersion w'}),
go('Type50', {}, since=True),
go('Type50', {}, since=False),
go('Creatable', {'train_locations': TL}, 'WFWith', since=True),
go('Creatable', {'train_locations': TL}, 'WFWith', since=False),
go('Unit', {
  'hot_key': '''by
      by_cases hw : 88 ≤ w.num
      · exact Since.of_ge hw (Unit.hotKeyAs_wf w x hw)
      · refine Since.of_lt hw ?_
        show IsI32 (x.hotKeyAs w)
        unfold Unit.hotKeyAs
        rw [if_neg hw]
        exact Unit.hotKey_isI32 h''',
  'bird': 'h.bird.map fun b hb k => Bird.wf_asVersion w k fun hw => hd hw b hb',
  'type_50': 'h.type_50.map fun _ _ => Type50.wf_asVersion w',
  'creatable': '''h.creatable.map fun c hc k => Creatable.wf_asVersion w _ k (fun hv => h.hot_key.of_lt' hv) (fun hw he => hh (by
      have hp := h.creatable.1.2 (by rw [hc]; rfl)
      exact ⟨hp.1, hp.2, c, hc, Nat.lt_of_not_le hw, he⟩))'''}),
go('Civ', {'units': '''h.units.map fun _ ho k => k.map fun u hu k' =>
      Unit.wf_asVersion w k' (hd u (hu ▸ ho)) (fun hl => hh ⟨u, hu ▸ ho, hl⟩)'''}),
go('Tech', {'research_locations': '''by
      by_cases hw : 88 ≤ w.num
      · refine Since.of_ge hw ?_
        simp only [Tech.asVersion, if_pos hw]
        exact all
      · refine Since.of_lt hw ?_
        simp only [Tech.asVersion, if_neg hw]
        cases hl : x.research_locations with
        | nil =>
          refine ⟨rfl, fun y hy => ?_⟩
          simp only [oneLocation, List.mem_singleton] at hy
          subst hy
          exact { location_id := by decide, research_time := by decide, button_id := by decide, hot_key_id := by decide }
        | cons r l =>
          refine ⟨rfl, fun y hy => ?_⟩
          simp only [oneLocation, List.mem_singleton] at hy
          subst hy
          exact all.2 _ (hl ▸ List.mem_cons_self)'''}),
go('DatFile', {
  'version': 'versionNames_value hw',
  'terrain_restrictions': 'h.terrain_restrictions.elim fun n k => ⟨n, k.1, k.2.imp TerrainRestriction.wfv⟩',
  'graphics': 'h.graphics.imp (fun k => k.imp Graphic.wfv)',
  'unit_headers': 'h.unit_headers.map fun _ _ => UnitHeaders.wf_asVersion w',
  'civs': 'h.civs.map fun c hc k => Civ.wf_asVersion w k (hd c hc) (fun hl => hh ⟨c, hc, hl⟩)',
  'techs': 'h.techs.map fun _ _ => Tech.wf_asVersion w'}, 'WFAt')]
out = '''import Verif.Spec.Convert
import Verif.Spec.Errors
import Verif.Proof.Records.AnyVersion
import Verif.Proof.DecideWF
/-!
# What is left after saving as another version is well-formed in that version (generated by `tools/gen_convwf.py`)
-/

namespace Genie

theorem Since.stored {v : Version} {n : Nat} {p q : Prop} (h : Since v n p q) (f : q → p) : p := by
  unfold Since at h
  split at h
  · exact h
  · exact f h

theorem Since.of_ge {w : Version} {n : Nat} {p q : Prop} (hw : n ≤ w.num) (h : p) : Since w n p q := by
  unfold Since; rw [if_pos hw]; exact h

theorem Since.of_lt {w : Version} {n : Nat} {p q : Prop} (hw : ¬ n ≤ w.num) (h : q) : Since w n p q := by
  unfold Since; rw [if_neg hw]; exact h

theorem Since.of_ge' {w : Version} {n : Nat} {p q : Prop} (h : Since w n p q) (hw : n ≤ w.num) : p := by
  unfold Since at h; rw [if_pos hw] at h; exact h

theorem Since.of_lt' {w : Version} {n : Nat} {p q : Prop} (h : Since w n p q) (hw : ¬ n ≤ w.num) : q := by
  unfold Since at h; rw [if_neg hw] at h; exact h

theorem AllOf.map {p : α → Prop} {q : β → Prop} {l : List α} {g : α → β} (f : ∀ x ∈ l, p x → q (g x)) (h : AllOf p l) :
    AllOf q (l.map g) := by
  intro y hy
  obtain ⟨x, hx, rfl⟩ := List.mem_map.1 hy
  exact f x hx (h x hx)

theorem UpTo.map {p : α → Prop} {q : β → Prop} {l : List α} {g : α → β} {n : Nat} (f : ∀ x ∈ l, p x → q (g x)) (h : UpTo n p l) :
    UpTo n q (l.map g) := ⟨by rw [List.length_map]; exact h.1, h.2.map f⟩

theorem IfSome.map {p : α → Prop} {q : β → Prop} {o : Option α} {g : α → β} (f : ∀ x, o = some x → p x → q (g x)) (h : IfSome p o) :
    IfSome q (o.map g) := by
  intro y hy
  cases o with
  | none => cases hy
  | some a => cases hy; exact f a rfl (h a rfl)

theorem PresentIff.map {c : Prop} {p : α → Prop} {q : β → Prop} {o : Option α} {g : α → β} (f : ∀ x, o = some x → p x → q (g x))
    (h : PresentIff c p o) : PresentIff c q (o.map g) := by
  refine ⟨?_, h.2.map f⟩
  rw [Option.isSome_map]
  exact h.1

theorem Task.wf_asVersion {v : Version} (w : Version) {x : Task} (h : Task.WF v x) : Task.WF w (x.asVersion w) := by
  unfold Task.asVersion
  by_cases hw : 88 ≤ w.num
  · rw [if_pos hw]
    exact @@0@@
  · rw [if_neg hw]
    exact @@1@@

theorem UnitHeaders.wf_asVersion {v : Version} (w : Version) {x : UnitHeaders} (h : UnitHeaders.WF v x) : UnitHeaders.WF w (x.asVersion w) where
  exists_ := h.exists_
  task_list := h.task_list.map fun _ _ k => k.map fun _ _ => Task.wf_asVersion w

theorem Bird.wf_asVersion {v : Version} (w : Version) {x : Bird} (h : Bird.WF v x) (hd : w.num < 78 → x.drop_sites.length = 3) :
    Bird.WF w (x.asVersion w) :=
  have all : AllOf IsI16 x.drop_sites := by
    by_cases hv : 78 ≤ v.num
    · exact (h.drop_sites.of_ge' hv).2
    · exact (h.drop_sites.of_lt' hv).2
  have len : x.drop_sites.length ≤ 32767 := by
    by_cases hv : 78 ≤ v.num
    · exact (h.drop_sites.of_ge' hv).1
    · rw [(h.drop_sites.of_lt' hv).1]; decide
  @@2@@

theorem Type50.wf_asVersion {v : Version} (w : Version) {x : Type50} (h : Type50.WF v x) : Type50.WF w (x.asVersion w) := by
  unfold Type50.asVersion
  by_cases hw : 84 ≤ w.num
  · rw [if_pos hw]
    exact @@3@@
  · rw [if_neg hw]
    exact @@4@@

theorem Creatable.wf_asVersion {v : Version} (w : Version) {x : Creatable} {hk : Int} (hk' : Int) (h : Creatable.WFWith v hk x)
    (hhk : ¬ 88 ≤ v.num → IsI32 hk) (hne : ¬ 88 ≤ w.num → x.train_locations ≠ []) : Creatable.WFWith w hk' (x.asVersion w hk') := by
  unfold Creatable.asVersion
  by_cases hw : 84 ≤ w.num
  · rw [if_pos hw]
    exact @@5@@
  · rw [if_neg hw]
    exact @@6@@

theorem Unit.hotKey_isI32 {v : Version} {x : Unit} (h : Unit.WF v x) : IsI32 x.hot_key := by
  by_cases hv : 88 ≤ v.num
  · have hk := h.hot_key.of_ge' hv
    cases hc : x.creatable with
    | none =>
      rw [hk.2 (fun c k => by rw [hc] at k; cases k)]; decide
    | some c =>
      cases ht : c.train_locations with
      | nil => rw [hk.2 (fun c' k => by rw [hc] at k; cases k; exact ht)]; decide
      | cons t ts =>
        rw [hk.1 c t ts hc ht]
        have := ((h.creatable.2 c hc).train_locations.of_ge' hv).2 t (ht ▸ List.mem_cons_self)
        exact this.hot_key_id.of_ge' hv
  · exact h.hot_key.of_lt' hv

theorem Unit.hotKeyAs_wf (w : Version) (x : Unit) (hw : 88 ≤ w.num) :
    (∀ c t ts, (x.asVersion w).creatable = some c → c.train_locations = t :: ts → x.hotKeyAs w = t.hot_key_id) ∧
      ((∀ c, (x.asVersion w).creatable = some c → c.train_locations = []) → x.hotKeyAs w = 16000) := by
  have hw' : 84 ≤ w.num := by omega
  unfold Unit.asVersion Unit.hotKeyAs Creatable.asVersion
  cases hc : x.creatable with
  | none => simp [hw]
  | some c =>
    simp only [Option.map_some, Option.some.injEq, if_pos hw, if_pos hw']
    constructor
    · rintro _ t ts rfl h; dsimp only at h; rw [h]
    · intro h; have := h _ rfl; dsimp only at this; rw [this]

theorem Unit.wf_asVersion {v : Version} (w : Version) {x : Unit} (h : Unit.WF v x) (hd : x.DropSitesFit w) (hh : ¬ x.Homeless w) :
    Unit.WF w (x.asVersion w) :=
  @@7@@

theorem Civ.wf_asVersion {v : Version} (w : Version) {x : Civ} (h : Civ.WF v x) (hd : ∀ u, some u ∈ x.units → u.DropSitesFit w)
    (hh : ¬ x.Homeless w) : Civ.WF w (x.asVersion w) :=
  @@8@@

theorem Tech.wf_asVersion {v : Version} (w : Version) {x : Tech} (h : Tech.WF v x) : Tech.WF w (x.asVersion w) :=
  have all : UpTo 32767 (ResearchLocation.WF w) x.research_locations := by
    by_cases hv : 88 ≤ v.num
    · exact (h.research_locations.of_ge' hv).imp ResearchLocation.wfv
    · have := h.research_locations.of_lt' hv
      exact ⟨by rw [this.1]; decide, this.2.imp ResearchLocation.wfv⟩
  @@9@@

theorem versionNames_value {w : Version} (hw : w ≠ .UNDEFINED) : (w.value, w) ∈ versionNames := by
  cases w <;> first | exact absurd rfl hw | decide +kernel

theorem DatFile.wf_asVersion {v : Version} (w : Version) {x : DatFile} (h : DatFile.WFAt v x) (hw : w ≠ .UNDEFINED)
    (hd : x.DropSitesFit w) (hh : ¬ x.Homeless w) : DatFile.WFAt w (x.asVersion w) :=
  @@10@@

end Genie
'''
for i, e in enumerate(E): out = out.replace('@@%d@@' % i, e)
open('lean/Verif/Proof/ConvertWF.lean','w').write(out)
