import sys; sys.path.insert(0,'/verif/tools')
import gen_records as g
fields=[f for f,_ in g.struct_fields('Unit')]
tup={'standing_graphic':2,'placement_side_terrain':2,'placement_terrain':2,'clearance_size':2}
opts=['speed','dead_fish','bird','type_50','projectile','creatable','building']
cls={'dead_fish':'DeadFish','bird':'Bird','type_50':'Type50','projectile':'Projectile','creatable':'Creatable','building':'Building'}
def info(ver):
    steps,ret,feeds,counts=g.analyse('Unit','Unit.fromBytes%d'%ver)
    fmt=[s[1] for s in steps if s[0]=='unpack'][0]
    pops=[s[1] for s in steps if s[0]=='pop']
    reads=[(s[1],s[2]) for s in steps if s[0]=='read']
    return fmt,pops,reads,feeds,counts,ret
PRED={'speed':('x.type ≠ 90 ∧ 20 ≤ x.type')}
o='''import Verif.Proof.Records.Creatable
/-! # Write-read and read-write lemmas: `Unit` -/

namespace Genie

theorem has_speed (t : Int) : (t ≠ UnitType.AoeTrees ∧ t ≥ UnitType.Flag) ↔ (t ≠ 90 ∧ 20 ≤ t) := by
  unfold UnitType.AoeTrees UnitType.Flag; omega
theorem has_dead_fish (t : Int) : (t ≠ UnitType.AoeTrees ∧ t ≥ UnitType.Flag ∧ t ≥ UnitType.DeadFish) ↔
    (t ≠ 90 ∧ 30 ≤ t) := by
  unfold UnitType.AoeTrees UnitType.Flag UnitType.DeadFish; omega
theorem has_bird (t : Int) : (t ≠ UnitType.AoeTrees ∧ t ≥ UnitType.Flag ∧ t ≥ UnitType.Bird) ↔
    (t ≠ 90 ∧ 40 ≤ t) := by
  unfold UnitType.AoeTrees UnitType.Flag UnitType.Bird; omega
theorem has_type_50 (t : Int) : (t ≠ UnitType.AoeTrees ∧ t ≥ UnitType.Flag ∧ t ≥ UnitType.Combatant) ↔
    (t ≠ 90 ∧ 50 ≤ t) := by
  unfold UnitType.AoeTrees UnitType.Flag UnitType.Combatant; omega
theorem has_projectile (t : Int) : (t ≠ UnitType.AoeTrees ∧ t ≥ UnitType.Flag ∧ t = UnitType.Projectile) ↔
    (t = 60) := by
  unfold UnitType.AoeTrees UnitType.Flag UnitType.Projectile; omega
theorem has_creatable (t : Int) : (t ≠ UnitType.AoeTrees ∧ t ≥ UnitType.Flag ∧ t ≥ UnitType.Creatable) ↔
    (t ≠ 90 ∧ 70 ≤ t) := by
  unfold UnitType.AoeTrees UnitType.Flag UnitType.Creatable; omega
theorem has_building (t : Int) : (t ≠ UnitType.AoeTrees ∧ t ≥ UnitType.Flag ∧ t = UnitType.Building) ↔
    (t = 80) := by
  unfold UnitType.AoeTrees UnitType.Flag UnitType.Building; omega

theorem py_bind_ok (a : α) (f : α → Py β) : ((Except.ok a : Py α) >>= f) = f a := rfl

/-- An optional part written and read under equivalent conditions. -/
theorem RW.optional {v : Version} {c d : Prop} [Decidable c] {r : Reader α} {w : α → Py Bytes}
    {o : Option α} {p : α → Prop} (hcd : c ↔ d) (h : PresentIff d p o)
    (hrw : ∀ a, p a → RW v r (w a) a) : RW v (Genie.readIf c r) (writeIf c w o) o := by
  refine RW.readIf Iff.rfl ?_ ?_
  · intro hc
    obtain ⟨a, rfl⟩ := Option.isSome_iff_exists.1 (h.1.1 (hcd.1 hc))
    exact ⟨a, rfl, hrw a (h.2 a rfl)⟩
  · intro hc
    cases o with
    | none => rfl
    | some a => exact absurd (hcd.2 (h.1.2 rfl)) hc

theorem presentIff_of {c d : Prop} {p : α → Prop} {o : Option α} (hcd : c ↔ d)
    (h : (c ↔ o.isSome = true) ∧ IfSome p o) : PresentIff d p o := ⟨hcd.symm.trans h.1, h.2⟩

theorem presentIff_map {c d : Prop} {p q : α → Prop} {o : Option α} {f : α → α} (hcd : c ↔ d)
    (h : (c ↔ o.isSome = true) ∧ IfSome p o) (hf : ∀ a, p a → q (f a)) : PresentIff d q (o.map f) := by
  refine ⟨by simpa using hcd.symm.trans h.1, ?_⟩
  cases o with
  | none => rintro a ⟨⟩
  | some b => rintro a ⟨⟩; exact hf b (h.2 b rfl)

'''
def rwbranch(ver,ind):
    fmt,pops,reads,feeds,counts,ret=info(ver)
    o=''
    # optional
    for f in opts:
        if f=='speed': t=f'RW.optional (has_speed _) h_speed fun a ha => RW.float ha'
        elif f=='creatable' and ver==88:
            t='RW.optional (has_creatable _) h_creatable fun a ha => RW.class_ (Creatable.rw (ha.of_ge hv))'
        elif f=='creatable':
            continue
        else: t=f'RW.optional (has_{f} _) h_{f} fun a ha => RW.class_ ({cls[f]}.rw ha)'
        r={'speed':'readFloat'}.get(f) or f'readClass {cls[f]}.fromBytes'
        o+=f'{ind}obtain ⟨w_{f}, e_{f}, r_{f}⟩ := {t}\n'
    if ver==84:
        o+=f'''{ind}obtain ⟨w_creatable, e_creatable, r_creatable⟩ : RW v
{ind}    (readIf (x_type ≠ UnitType.AoeTrees ∧ x_type ≥ UnitType.Flag ∧ x_type ≥ UnitType.Creatable)
{ind}      (readClass Creatable.fromBytes))
{ind}    (writeIf (x_type ≠ UnitType.AoeTrees ∧ x_type ≥ UnitType.Flag ∧ x_type ≥ UnitType.Creatable)
{ind}      (fun x => writeClass Creatable.toBytes x v) x_creatable)
{ind}    (x_creatable.map (Creatable.withHotKey 16000)) := by
{ind}  cases x_creatable with
{ind}  | none =>
{ind}    have hn : ¬ (x_type ≠ UnitType.AoeTrees ∧ x_type ≥ UnitType.Flag ∧ x_type ≥ UnitType.Creatable) := by
{ind}      intro k
{ind}      have := h_creatable.1.1 ((has_creatable _).1 k)
{ind}      simp at this
{ind}    rw [Genie.readIf, writeIf, if_neg hn, if_neg hn]
{ind}    exact RW.pure rfl
{ind}  | some c =>
{ind}    have hp := (has_creatable _).2 (h_creatable.1.2 rfl)
{ind}    rw [Genie.readIf, writeIf, if_pos hp, if_pos hp]
{ind}    exact RW.map (Creatable.rwWith hv (h_creatable.2 c rfl)) (Reads.pure rfl)
'''
    o+=f'{ind}simp only [{", ".join("e_"+f for f in opts)}, py_bind_ok]\n'
    ms=[]
    for v in pops:
        f,k=feeds[v]
        ms.append(f'h_{f}' if k is None else f'h_{f} _ (by simp)')
    o+=f'{ind}refine RW.bind (RW.unpack (cs := {g.codes_list(fmt)}) (by decide) (by decide)\n{ind}    ⟨{", ".join(ms)}, trivial⟩) ?_\n'
    o+=f'{ind}dsimp only [popInt, popFloat, popDone, List.map, List.cons_append, List.nil_append]\n'
    o+=f'{ind}rw [joinB_single]\n'
    for v,e in reads:
        if v in opts: t=f'⟨w_{v}, rfl, r_{v}⟩'
        elif e in g.SCALAR:
            t=f'(RW.int8 (isU8_len h_damage_graphics.1))' if v in counts else f'(RW.{g.SCALAR[e][1]} h_{v})'
        elif v=='resource_storages': t=f'(RW.classArray3 h_{v}.1 fun y hy => ResourceStorage.rw (h_{v}.2 y hy))'
        elif v=='damage_graphics': t=f'(RW.classArray rfl fun y hy => DamageGraphic.rw (h_{v}.2 y hy))'
        else: raise Exception(v)
        o+=f'{ind}refine RW.bind {t} ?_\n'
    return o
o+='''set_option maxRecDepth 4000 in
theorem Unit.rw {v : Version} {x : Unit} (h : Unit.WF v x) :
    RW v Unit.fromBytes (Unit.toBytes v x) x := by
  obtain ⟨'''+', '.join('x_'+f for f in fields)+'''⟩ := x
  obtain ⟨'''+', '.join('h_'+f for f in fields)+'''⟩ := h
  dsimp only at '''+' '.join('h_'+f for f in fields)+'''
'''
for f,n in tup.items():
    o+=f'  obtain ⟨hl_{f}, h_{f}⟩ := h_{f}\n  obtain ⟨{f}_1, {f}_2, rfl⟩ := length_eq_2 hl_{f}\n'
o+='''  unfold Unit.fromBytes Unit.toBytes
  refine RW.getVersion ?_
  by_cases hv : 88 ≤ v.num
  · have hg : v.ge .VER_88 = true := (ge_iff _ _).2 hv
    rw [if_pos hg, if_pos hg]
    replace h_hot_key := h_hot_key.pos hv
    unfold Unit.fromBytes88 Unit.toBytes88
'''+rwbranch(88,'    ')+'''    refine RW.pure ?_
    have : Creatable.firstHotKey x_creatable 16000 = x_hot_key := by
      cases x_creatable with
      | none => exact (h_hot_key.2 (by simp)).symm
      | some c =>
        unfold Creatable.firstHotKey
        cases hc : c.train_locations with
        | nil => simp only [hc]; exact (h_hot_key.2 (by rintro c' ⟨⟩; exact hc)).symm
        | cons t ts => simp only [hc]; exact (h_hot_key.1 c t ts rfl hc).symm
    rw [this]
  · have hg := not_ge (w := .VER_88) hv
    rw [if_neg hg, if_neg hg]
    replace h_hot_key := h_hot_key.neg hv
    unfold Unit.fromBytes84 Unit.toBytes84
'''+rwbranch(84,'    ')+'''    refine RW.pure ?_
    have : (x_creatable.map (Creatable.withHotKey 16000)).map (Creatable.withHotKey x_hot_key) = x_creatable := by
      cases x_creatable with
      | none => rfl
      | some c => simp only [Option.map_some]; rw [(h_creatable.2 c rfl).withHotKey_self hv]
    rw [this]

'''
def goodbranch(ver,ind):
    fmt,pops,reads,feeds,counts,ret=info(ver)
    o=f'{ind}unfold Unit.fromBytes{ver}\n'
    o+=f'{ind}refine Good.bind (Good.unpack (cs := {g.codes_list(fmt)}) (by decide)) fun vs hm => ?_\n'
    for f,c in zip(pops,g.FMT[fmt]): o+=f'{ind}obtain ⟨{f}, vs, rfl, h_{f}, hm⟩ := hm.pop{c.upper()}\n'
    o+=f'{ind}obtain rfl := hm.done\n{ind}dsimp only [popInt, popFloat, popDone]\n'
    for v,e in reads:
        if v=='speed': t='(Good.readIf Good.float)'
        elif v in opts: t=f'(Good.readIf (Good.class_ ({cls[v]}.good v)))'
        elif e in g.SCALAR: t=f'Good.{g.SCALAR[e][1]}'
        elif v=='resource_storages': t='(Good.classArray3 (ResourceStorage.good v))'
        elif v=='damage_graphics': t='(Good.classArray _ (DamageGraphic.good v))'
        o+=f'{ind}refine Good.bind {t} fun {v} h_{v} => ?_\n'
    ev=[]
    for f in fields:
        if f in tup: ev.append(f'⟨rfl, by simp [AllOf, h_{f}_1, h_{f}_2]⟩')
        elif f=='hot_key': ev.append('since_pos hv ?_' if ver==88 else 'since_neg hv h_hot_key')
        elif f=='damage_graphics': ev.append('upTo_u8 h_damage_graphic_size h_damage_graphics')
        elif f=='creatable':
            if ver==88: ev.append('presentIff_map (f := id) (has_creatable _) h_creatable (fun c hc => hc.of_ge hv)')
            else: ev.append('presentIff_map (has_creatable _) h_creatable (fun c hc => Creatable.WFWith.withHotKey (k := 16000) hv hc)')
        elif f in opts: ev.append(f'presentIff_of (has_{f} _) h_{f}')
        else: ev.append('h_'+ret[f])
    if ver==88:
        o+=f'''{ind}have hck : PresentIff (type_ ≠ 90 ∧ 70 ≤ type_) (Creatable.WFWith v (Creatable.firstHotKey creatable 16000)) creatable := by
{ind}  have := presentIff_of (has_creatable _) h_creatable
{ind}  exact ⟨this.1, fun c hc => (this.2 c hc).of_ge hv⟩
'''
        ev=['hck' if e.startswith('presentIff_map') else e for e in ev]
    o+=f'{ind}refine Good.pure ⟨{", ".join(ev)}⟩ ?_\n'
    if ver==88:
        o+=f'''{ind}· dsimp only
{ind}  constructor
{ind}  · rintro c t ts rfl hc
{ind}    simp only [Creatable.firstHotKey, hc]
{ind}  · intro hc
{ind}    cases creatable with
{ind}    | none => rfl
{ind}    | some c => simp only [Creatable.firstHotKey, hc c rfl]
'''
    n=len(reads)+1
    names=['vs']+[r[0] for r in reads]
    idx={nm:j for j,nm in enumerate(names)}
    pats=[]
    for j in reversed(range(n)):
        pats.append(f'b{j} ⟨rfl, k{j}⟩' if names[j]=='damage_graphics' else f'b{j} k{j}')
    b='·' if ver==88 else ''
    i2=ind+('  ' if ver==88 else '')
    o+=f'{ind}{"· " if ver==88 else ""}rintro {" ".join(pats)}\n'
    if ver==84:
        o+=f'''{i2}have k' : writeIf (type_ ≠ UnitType.AoeTrees ∧ type_ ≥ UnitType.Flag ∧ type_ ≥ UnitType.Creatable)
{i2}    (fun x => writeClass Creatable.toBytes x v) (creatable.map (Creatable.withHotKey hot_key)) = .ok b{idx["creatable"]} := by
{i2}  rw [← k{idx["creatable"]}]
{i2}  cases creatable with
{i2}  | none => rfl
{i2}  | some c =>
{i2}    have hw : Creatable.WFWith v 16000 c := h_creatable.2 c rfl
{i2}    simp only [Option.map_some, writeIf, writeClass, Creatable.toBytes_withHotKey hv hot_key (hw.nonempty hv)]
'''
    o+=f'{i2}rw [Unit.toBytes, {"if_pos" if ver==88 else "if_neg"} hg, Unit.toBytes{ver}]\n'
    kk=[f'k{idx[f]}' if not(f=="creatable" and ver==84) else "k'" for f in opts]
    o+=f'{i2}simp only [{", ".join(kk)}, py_bind_ok]\n'
    ex='rfl'
    for j in reversed(range(1,n)):
        k='rfl' if names[j] in opts else f'k{j}'
        ex=f'(joinB_cons_ok {k} {ex})'
    ex=f'joinB_cons_ok k0 ((joinB_single _).trans {ex})'
    o+=f'{i2}exact {ex}\n'
    return o
o+='''set_option maxRecDepth 4000 in
theorem Unit.good (v : Version) :
    Good v Unit.fromBytes (Unit.WF v) (fun x bs => Unit.toBytes v x = .ok bs) := by
  unfold Unit.fromBytes
  refine Good.getVersion ?_
  by_cases hv : 88 ≤ v.num
  · have hg : v.ge .VER_88 = true := (ge_iff _ _).2 hv
    rw [if_pos hg]
'''+goodbranch(88,'    ')+'''  · have hg := not_ge (w := .VER_88) hv
    rw [if_neg hg]
'''+goodbranch(84,'    ')+'''
end Genie
'''
open('/verif/lean/Verif/Proof/Records/Unit.lean','w').write(o)
