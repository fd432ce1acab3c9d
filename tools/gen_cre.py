import sys; sys.path.insert(0,'/verif/tools')
import gen_records as g
fields=[f for f,_ in g.struct_fields('Creatable')]
c84=['idle_attack_graphic','charge_target','charge_projectile_unit','attack_priority','invulnerability_level','button_icon_id','button_short_tooltip_id','button_extended_tooltip_id','button_hotkey_action']
o='''import Verif.Proof.Records.TaskBird
/-! # Write-read and read-write lemmas: `TrainLocation`, `Creatable` -/

namespace Genie

theorem not_ge {v w : Version} (h : ¬ w.num ≤ v.num) : ¬ v.ge w = true := fun k => h ((ge_iff _ _).1 k)

theorem TrainLocation.rw {v : Version} {x : TrainLocation} (h : TrainLocation.WF v x) :
    RW v TrainLocation.fromBytes (TrainLocation.toBytes v x) x := by
  unfold TrainLocation.fromBytes TrainLocation.toBytes
  refine RW.getVersion ?_
  by_cases hv : 88 ≤ v.num
  · have hg : v.ge .VER_88 = true := (ge_iff _ _).2 hv
    rw [if_pos hg, if_pos hg]
    unfold TrainLocation.fromBytes88
    refine RW.map (RW.unpack (cs := [.h, .h, .b, .l]) (by decide) (by decide)
      ⟨h.train_time, h.unit_id, h.button_id, h.hot_key_id.pos hv, trivial⟩) ?_
    exact Reads.pure rfl
  · have hg := not_ge (w := .VER_88) hv
    rw [if_neg hg, if_neg hg]
    unfold TrainLocation.fromBytes84
    refine RW.map (RW.unpack (cs := [.h, .h, .b]) (by decide) (by decide)
      ⟨h.train_time, h.unit_id, h.button_id, trivial⟩) ?_
    dsimp only [popInt, popFloat, popDone]
    rw [← h.hot_key_id.neg hv]
    exact Reads.pure rfl

theorem TrainLocation.good (v : Version) :
    Good v TrainLocation.fromBytes (TrainLocation.WF v) (fun x bs => TrainLocation.toBytes v x = .ok bs) := by
  unfold TrainLocation.fromBytes
  refine Good.getVersion ?_
  by_cases hv : 88 ≤ v.num
  · have hg : v.ge .VER_88 = true := (ge_iff _ _).2 hv
    rw [if_pos hg]
    unfold TrainLocation.fromBytes88
    refine Good.bind (Good.unpack (cs := [.h, .h, .b, .l]) (by decide)) fun vs hm => ?_
    obtain ⟨a, vs, rfl, h_a, hm⟩ := hm.popH
    obtain ⟨b, vs, rfl, h_b, hm⟩ := hm.popH
    obtain ⟨c, vs, rfl, h_c, hm⟩ := hm.popB
    obtain ⟨d, vs, rfl, h_d, hm⟩ := hm.popL
    obtain rfl := hm.done
    dsimp only [popInt, popFloat, popDone]
    refine Good.pure ⟨h_a, h_b, h_c, since_pos hv h_d⟩ ?_
    rintro b0 k0
    rw [List.append_nil, TrainLocation.toBytes, if_pos hg]; exact k0
  · have hg := not_ge (w := .VER_88) hv
    rw [if_neg hg]
    unfold TrainLocation.fromBytes84
    refine Good.bind (Good.unpack (cs := [.h, .h, .b]) (by decide)) fun vs hm => ?_
    obtain ⟨a, vs, rfl, h_a, hm⟩ := hm.popH
    obtain ⟨b, vs, rfl, h_b, hm⟩ := hm.popH
    obtain ⟨c, vs, rfl, h_c, hm⟩ := hm.popB
    obtain rfl := hm.done
    dsimp only [popInt, popFloat, popDone]
    refine Good.pure ⟨h_a, h_b, h_c, since_neg hv rfl⟩ ?_
    rintro b0 k0
    rw [List.append_nil, TrainLocation.toBytes, if_neg hg]; exact k0

'''
spec={'train_time':'ht1','train_location_id':'ht2','button_id':'ht3'}
def unp(ver):
    rd='Creatable.fromBytes%d'%ver
    steps,ret,feeds,counts=g.analyse('Creatable',rd)
    fmt=[s[1] for s in steps if s[0]=='unpack'][0]
    pops=[s[1] for s in steps if s[0]=='pop']
    ms=[]
    for v in pops:
        if v in feeds:
            f,k=feeds[v]
            ms.append(f'h_{f}' if k is None else f'h_{f} _ (by simp)')
        else: ms.append(spec[v])
    return fmt,pops,f'RW.unpack (cs := {g.codes_list(fmt)}) (by decide) (by decide)\n      ⟨{", ".join(ms)}, trivial⟩'
o+='''theorem Creatable.rw {v : Version} {x : Creatable} (h : Creatable.WF v x) :
    RW v Creatable.fromBytes (Creatable.toBytes v x) x := by
  have h : Creatable.WFWith v 16000 x := h
  obtain ⟨'''+', '.join('x_'+f for f in fields)+'''⟩ := x
  obtain ⟨'''+', '.join('h_'+f for f in fields)+'''⟩ := h
  dsimp only at '''+' '.join('h_'+f for f in fields)+'''
  obtain ⟨hl_projectile_spawning_area, h_projectile_spawning_area⟩ := h_projectile_spawning_area
  obtain ⟨a1, a2, a3, rfl⟩ := length_eq_3 hl_projectile_spawning_area
  unfold Creatable.fromBytes Creatable.toBytes
  refine RW.getVersion ?_
  by_cases hv : 88 ≤ v.num
  · have hg : v.ge .VER_88 = true := (ge_iff _ _).2 hv
    have hv4 : 84 ≤ v.num := by omega
    rw [if_pos hg, if_pos hg]
'''
for f in c84: o+=f'    replace h_{f} := h_{f}.pos hv4\n'
o+='''    replace h_train_locations := h_train_locations.pos hv
    unfold Creatable.fromBytes88 Creatable.toBytes88
    refine RW.bind (RW.classArray3 h_resource_costs.1 fun y hy => ResourceCost.rw (h_resource_costs.2 y hy)) ?_
    refine RW.bind (RW.int16 (isI16_len h_train_locations.1)) ?_
    refine RW.bind (RW.classArray rfl fun y hy => TrainLocation.rw (h_train_locations.2 y hy)) ?_
    refine RW.bind ('''+unp(88)[2]+''') ?_
    dsimp only [popInt, popFloat, popDone, List.map, List.cons_append, List.nil_append]
    exact RW.pure rfl
  · have hg := not_ge (w := .VER_88) hv
    rw [if_neg hg, if_neg hg]
    obtain ⟨⟨t1, t2, t3, t4⟩, rfl, ht1, ht2, ht3, ht4⟩ := h_train_locations.neg hv
    dsimp only at ht1 ht2 ht3 ht4
    subst ht4
    by_cases hv4 : 84 ≤ v.num
    · have hg4 : v.ge .VER_84 = true := (ge_iff _ _).2 hv4
      rw [if_pos hg4, if_pos hg4]
'''
for f in c84: o+=f'      replace h_{f} := h_{f}.pos hv4\n'
o+='''      unfold Creatable.fromBytes84 Creatable.toBytes84
      refine RW.bind (RW.classArray3 h_resource_costs.1 fun y hy => ResourceCost.rw (h_resource_costs.2 y hy)) ?_
      refine RW.bind ('''+unp(84)[2]+''') ?_
      dsimp only [popInt, popFloat, popDone, List.map, List.cons_append, List.nil_append]
      exact RW.pure rfl
    · have hg4 := not_ge (w := .VER_84) hv4
      rw [if_neg hg4, if_neg hg4]
'''
for f in c84: o+=f'      replace h_{f} := h_{f}.neg hv4\n      subst h_{f}\n'
o+='''      unfold Creatable.fromBytes78 Creatable.toBytes78
      refine RW.bind (RW.classArray3 h_resource_costs.1 fun y hy => ResourceCost.rw (h_resource_costs.2 y hy)) ?_
      refine RW.bind ('''+unp(78)[2]+''') ?_
      dsimp only [popInt, popFloat, popDone, List.map, List.cons_append, List.nil_append]
      exact RW.pure rfl

'''
def goodbranch(ver,ind):
    steps,ret,feeds,counts=g.analyse('Creatable','Creatable.fromBytes%d'%ver)
    fmt=[s[1] for s in steps if s[0]=='unpack'][0]
    pops=[s[1] for s in steps if s[0]=='pop']
    o=f'{ind}unfold Creatable.fromBytes{ver}\n'
    o+=f'{ind}refine Good.bind (Good.classArray3 (ResourceCost.good v)) fun resource_costs h_resource_costs => ?_\n'
    n=1
    if ver==88:
        o+=f'{ind}refine Good.bind Good.int16 fun n hn => ?_\n'
        o+=f'{ind}refine Good.bind (Good.classArray _ (TrainLocation.good v)) fun train_locations h_train_locations => ?_\n'
        n=3
    o+=f'{ind}refine Good.bind (Good.unpack (cs := {g.codes_list(fmt)}) (by decide)) fun vs hm => ?_\n'
    for f,c in zip(pops,g.FMT[fmt]): o+=f'{ind}obtain ⟨{f}, vs, rfl, h_{f}, hm⟩ := hm.pop{c.upper()}\n'
    o+=f'{ind}obtain rfl := hm.done\n{ind}dsimp only [popInt, popFloat, popDone]\n'
    ev=[]
    for f in fields:
        if f=='train_locations':
            ev.append('since_pos hv (upTo_i16 hn h_train_locations)' if ver==88 else 'since_neg hv ⟨_, rfl, h_train_time, h_train_location_id, h_button_id, rfl⟩')
        elif f=='projectile_spawning_area':
            ev.append('⟨rfl, by simp [AllOf, h_projectile_spawning_area_1, h_projectile_spawning_area_2, h_projectile_spawning_area_3]⟩')
        elif f in c84: ev.append(f'since_pos hv4 h_{f}' if ver>=84 else 'since_neg hv4 rfl')
        else: ev.append('h_'+f)
    o+=f'{ind}refine Good.pure ⟨{", ".join(ev)}⟩ ?_\n'
    if ver==88:
        o+=f'{ind}rintro b3 k3 b2 ⟨rfl, k2⟩ b1 k1 b0 k0\n'
        ch='joinB_cons_ok k0 (joinB_cons_ok k1 (joinB_cons_ok k2 (joinB_cons_ok k3 rfl)))'
    else:
        o+=f'{ind}rintro b1 k1 b0 k0\n'
        ch='joinB_cons_ok k0 (joinB_cons_ok k1 rfl)'
    rws={88:'if_pos hg',84:'if_neg hg, if_pos hg4',78:'if_neg hg, if_neg hg4'}[ver]
    o+=f'{ind}rw [Creatable.toBytes, {rws}, Creatable.toBytes{ver}]\n{ind}exact {ch}\n'
    return o
o+='''theorem Creatable.good (v : Version) :
    Good v Creatable.fromBytes (Creatable.WF v) (fun x bs => Creatable.toBytes v x = .ok bs) := by
  unfold Creatable.fromBytes Creatable.WF
  refine Good.getVersion ?_
  by_cases hv : 88 ≤ v.num
  · have hg : v.ge .VER_88 = true := (ge_iff _ _).2 hv
    have hv4 : 84 ≤ v.num := by omega
    rw [if_pos hg]
'''+goodbranch(88,'    ')+'''  · have hg := not_ge (w := .VER_88) hv
    rw [if_neg hg]
    by_cases hv4 : 84 ≤ v.num
    · have hg4 : v.ge .VER_84 = true := (ge_iff _ _).2 hv4
      rw [if_pos hg4]
'''+goodbranch(84,'      ')+'''    · have hg4 := not_ge (w := .VER_84) hv4
      rw [if_neg hg4]
'''+goodbranch(78,'      ')+'''
/-- Below 8.8 the encoding does not contain the hot key of the train location. -/
theorem Creatable.toBytes_withHotKey {v : Version} (hv : ¬ 88 ≤ v.num) (k : Int) {x : Creatable}
    (hx : x.train_locations ≠ []) : Creatable.toBytes v (x.withHotKey k) = Creatable.toBytes v x := by
  have hg := not_ge (w := .VER_88) hv
  cases x with
  | mk rc tl =>
    cases tl with
    | nil => exact absurd rfl hx
    | cons t ts =>
      simp only [Creatable.toBytes, if_neg hg, Creatable.withHotKey]
      rfl

theorem Creatable.WFWith.withHotKey {v : Version} (hv : ¬ 88 ≤ v.num) {k k' : Int} {x : Creatable}
    (h : Creatable.WFWith v k x) : Creatable.WFWith v k' (x.withHotKey k') := by
  obtain ⟨'''+', '.join('x_'+f for f in fields)+'''⟩ := x
  obtain ⟨'''+', '.join('h_'+f for f in fields)+'''⟩ := h
  obtain ⟨⟨t1, t2, t3, t4⟩, h1, ht1, ht2, ht3, ht4⟩ := h_train_locations.neg hv
  dsimp only at h1
  subst h1
  exact ⟨'''+', '.join('since_neg hv ⟨_, rfl, ht1, ht2, ht3, rfl⟩' if f=='train_locations' else 'h_'+f for f in fields)+'''⟩

theorem Creatable.WFWith.of_ge {v : Version} (hv : 88 ≤ v.num) {k k' : Int} {x : Creatable}
    (h : Creatable.WFWith v k x) : Creatable.WFWith v k' x := by
  obtain ⟨'''+', '.join('h_'+f for f in fields)+'''⟩ := h
  exact ⟨'''+', '.join('since_pos hv (h_train_locations.pos hv)' if f=='train_locations' else 'h_'+f for f in fields)+'''⟩

theorem Creatable.WFWith.withHotKey_self {v : Version} (hv : ¬ 88 ≤ v.num) {k k' : Int} {x : Creatable}
    (h : Creatable.WFWith v k x) : (x.withHotKey k').withHotKey k = x := by
  obtain ⟨⟨t1, t2, t3, t4⟩, h1, -, -, -, ht4⟩ := h.train_locations.neg hv
  dsimp only at ht4
  subst ht4
  obtain ⟨'''+', '.join('x_'+f for f in fields)+'''⟩ := x
  dsimp only at h1
  subst h1
  rfl

theorem Creatable.WFWith.nonempty {v : Version} (hv : ¬ 88 ≤ v.num) {k : Int} {x : Creatable}
    (h : Creatable.WFWith v k x) : x.train_locations ≠ [] := by
  obtain ⟨t, h1, -⟩ := h.train_locations.neg hv
  rw [h1]; simp

/-- Below 8.8: reading back gives the default hot key 16000, whatever the hot key was. -/
theorem Creatable.rwWith {v : Version} (hv : ¬ 88 ≤ v.num) {k : Int} {x : Creatable}
    (h : Creatable.WFWith v k x) :
    RW v Creatable.fromBytes (Creatable.toBytes v x) (x.withHotKey 16000) := by
  have := Creatable.rw (h.withHotKey hv (k' := 16000))
  rwa [Creatable.toBytes_withHotKey hv 16000 (h.nonempty hv)] at this

end Genie
'''
open('/verif/lean/Verif/Proof/Records/Creatable.lean','w').write(o)
