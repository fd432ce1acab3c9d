import sys; sys.path.insert(0,'/verif/tools')
import gen_records as g
def hdr(cls):
    fs=[f for f,_ in g.struct_fields(cls)]
    return f'''  obtain ⟨{", ".join("x_"+f for f in fs)}⟩ := x
  obtain ⟨{", ".join("h_"+f for f in fs)}⟩ := h
  dsimp only at {" ".join("h_"+f for f in fs)}
'''
def rwstep(v,e,fld,counts,ind,override):
    if v in override: t=override[v]
    elif e in g.SCALAR:
        if v in counts: t=f'RW.{g.SCALAR[e][1]} ({g.SCALAR[e][4]} h_{counts[v]}.1)'
        else: t=f'RW.{g.SCALAR[e][1]} h_{fld.get(v,v)}'
    elif e in g.TUPLE: t=f'RW.{g.TUPLE[e][2]} h_{fld.get(v,v)}'
    else:
        w=e.split(); f=fld.get(v,v)
        if w[0]=='readClass': t=f'RW.class_ ({w[1].split(".")[0]}.rw h_{f})'
        elif w[0][:-1]=='readClassArray': t=f'RW.classArray{w[0][-1]} h_{f}.1 fun y hy => {w[1].split(".")[0]}.rw (h_{f}.2 y hy)'
        elif w[0] in g.ARR: t=f'RW.{g.ARR[w[0]][1]} rfl h_{f}.2'
        elif w[0]=='readClassArray': t=f'RW.classArray rfl fun y hy => {w[1].split(".")[0]}.rw (h_{f}.2 y hy)'
        elif w[0]=='readClassArrayWithPointers': t=f'RW.classArrayWithPointers rfl rfl fun o ho y hy => {w[1].split(".")[0]}.rw (h_{f}.2 o ho y hy)'
        else: raise Exception(e)
    return f'{ind}refine RW.bind ({t}) ?_\n'
def goodstep(v,e,ind,override):
    if v in override: t=override[v]
    elif e in g.SCALAR: t=f'Good.{g.SCALAR[e][1]}'
    elif e in g.TUPLE: t=f'Good.{g.TUPLE[e][2]}'
    else:
        w=e.split()
        if w[0]=='readClass': t=f'Good.class_ ({w[1].split(".")[0]}.good v)'
        elif w[0][:-1]=='readClassArray': t=f'Good.classArray{w[0][-1]} ({w[1].split(".")[0]}.good v)'
        elif w[0] in g.ARR: t=f'Good.{g.ARR[w[0]][1]} _'
        elif w[0]=='readClassArray': t=f'Good.classArray _ ({w[1].split(".")[0]}.good v)'
        elif w[0]=='readClassArrayWithPointers': t=f'Good.classArrayWithPointers h_{w[3]}.1 ({w[1].split(".")[0]}.good v)'
        else: raise Exception(e)
    return f'{ind}refine Good.bind ({t}) fun {v} h_{v} => ?_\n'
def cons(n,ks=None):
    ex='rfl'
    for j in reversed(range(n)): ex=f'(joinB_cons_ok {(ks or {}).get(j,"k%d"%j)} {ex})'
    return ex
def pats(names,special):
    return ' '.join(special.get(names[j],'b{j} k{j}').format(j=j) for j in reversed(range(len(names))))

# ---------------- Graphic
o='''import Verif.Proof.Records.Misc
import Verif.Proof.Records.TechTree
import Verif.Proof.Records.Unit
import Verif.Spec.Versioned
/-! # Write-read and read-write lemmas: `Graphic`, `Tech`, `Civ`, `TerrainRestriction` -/

namespace Genie

theorem RW.angleSounds {v : Version} {used cnt : Int} {l : List GraphicAngleSound}
    (h : AllOf (GraphicAngleSound.WF v) l) (hl : l.length = if used = 0 then 0 else cnt.toNat) :
    RW v (readOr (used ≠ 0) (readClassArray GraphicAngleSound.fromBytes cnt (countStored := true)) [])
      (writeClassArray GraphicAngleSound.toBytes l v) l := by
  unfold readOr
  by_cases hu : used = 0
  · rw [if_pos hu] at hl
    rw [if_neg (by simpa using hu)]
    obtain rfl := List.length_eq_zero_iff.1 hl
    exact RW.pure rfl
  · rw [if_neg hu] at hl
    rw [if_pos hu]
    exact RW.arrayStored hl.symm fun y hy => GraphicAngleSound.rw (h y hy)

theorem Good.angleSounds {v : Version} {used cnt : Int} :
    Good v (readOr (used ≠ 0) (readClassArray GraphicAngleSound.fromBytes cnt (countStored := true)) [])
      (fun l => AllOf (GraphicAngleSound.WF v) l ∧ l.length = if used = 0 then 0 else cnt.toNat)
      (fun l bs => writeClassArray GraphicAngleSound.toBytes l v = .ok bs) := by
  unfold readOr
  by_cases hu : used = 0
  · rw [if_neg (by simpa using hu)]
    exact Good.pure ⟨by simp [AllOf], by simp [hu]⟩ rfl
  · rw [if_pos hu]
    refine Good.mono (Good.arrayStored cnt (GraphicAngleSound.good v)) ?_ (fun _ _ _ h => h)
    intro l hl
    exact ⟨hl.2, by rw [if_neg hu]; exact hl.1⟩

'''
st,ret,feeds,counts=g.analyse('Graphic')
fs=[f for f,_ in g.struct_fields('Graphic')]
reads=[(s[1],s[2]) for s in st]
fld={'id_':'id'}
counts={'delta_count':'deltas'}
o+='theorem Graphic.rw {v : Version} {x : Graphic} (h : Graphic.WF v x) :\n    RW v Graphic.fromBytes (Graphic.toBytes v x) x := by\n'+hdr('Graphic')+'  unfold Graphic.fromBytes Graphic.toBytes\n'
for v,e in reads: o+=rwstep(v,e,fld,counts,'  ',{'angle_sounds':'RW.angleSounds h_angle_sounds.1 h_angle_sounds.2'})
o+='  exact RW.pure rfl\n\n'
o+='theorem Graphic.good (v : Version) :\n    Good v Graphic.fromBytes (Graphic.WF v) (fun x bs => Graphic.toBytes v x = .ok bs) := by\n  unfold Graphic.fromBytes\n'
for v,e in reads: o+=goodstep(v,e,'  ',{'angle_sounds':'Good.angleSounds'})
ev=[('upTo_i16 h_delta_count h_deltas' if f=='deltas' else 'h_'+ret[f]) for f in fs]
o+=f'  refine Good.pure ⟨{", ".join(ev)}⟩ ?_\n'
names=[r[0] for r in reads]
o+=f'  rintro {pats(names,{"deltas":"b{j} ⟨rfl, k{j}⟩"})}\n  exact {cons(len(names))[1:-1]}\n\n'

# ---------------- Tech
o+='theorem Tech.rw {v : Version} {x : Tech} (h : Tech.WF v x) :\n    RW v Tech.fromBytes (Tech.toBytes v x) x := by\n'+hdr('Tech')+'''  unfold Tech.fromBytes Tech.toBytes
  refine RW.getVersion ?_
  by_cases hv : 88 ≤ v.num
  · have hg : v.ge .VER_88 = true := (ge_iff _ _).2 hv
    rw [if_pos hg, if_pos hg]
    replace h_research_locations := h_research_locations.pos hv
    unfold Tech.fromBytes88 Tech.toBytes88
'''
st88,ret88,_,_=g.analyse('Tech','Tech.fromBytes88')
st84,ret84,_,_=g.analyse('Tech','Tech.fromBytes84')
r88=[(s[1],s[2]) for s in st88 if s[0]=='read']; r84=[(s[1],s[2]) for s in st84 if s[0]=='read']
for v,e in r88: o+=rwstep(v,e,{},{'research_location_count':'research_locations'},'    ',{})
o+='''    exact RW.pure rfl
  · have hg := not_ge (w := .VER_88) hv
    rw [if_neg hg, if_neg hg]
    replace h_research_locations := h_research_locations.neg hv
    obtain ⟨hl, hr⟩ := h_research_locations
    obtain ⟨r, rfl⟩ := length_eq_1 hl
    obtain ⟨hr_location_id, hr_research_time, hr_button_id, hr_hot_key_id⟩ := hr r (by simp)
    unfold Tech.fromBytes84 Tech.toBytes84
    dsimp only
'''
loc={'research_location':'location_id','research_time':'research_time','button_id':'button_id','hot_key':'hot_key_id'}
for v,e in r84: o+=rwstep(v,e,{},{},'    ',{k:f'RW.{g.SCALAR[e][1]} hr_{loc[k]}' for k in loc if k==v})
o+='''    exact RW.pure rfl

theorem Tech.good (v : Version) :
    Good v Tech.fromBytes (Tech.WF v) (fun x bs => Tech.toBytes v x = .ok bs) := by
  unfold Tech.fromBytes
  refine Good.getVersion ?_
  by_cases hv : 88 ≤ v.num
  · have hg : v.ge .VER_88 = true := (ge_iff _ _).2 hv
    rw [if_pos hg]
    unfold Tech.fromBytes88
'''
fs=[f for f,_ in g.struct_fields('Tech')]
for v,e in r88: o+=goodstep(v,e,'    ',{})
ev=[('since_pos hv (upTo_i16 h_research_location_count h_research_locations)' if f=='research_locations' else 'h_'+ret88[f]) for f in fs]
o+=f'    refine Good.pure ⟨{", ".join(ev)}⟩ ?_\n'
names=[r[0] for r in r88]
o+=f'    rintro {pats(names,{"research_locations":"b{j} ⟨rfl, k{j}⟩"})}\n    rw [Tech.toBytes, if_pos hg, Tech.toBytes88]\n    exact {cons(len(names))[1:-1]}\n'
o+='''  · have hg := not_ge (w := .VER_88) hv
    rw [if_neg hg]
    unfold Tech.fromBytes84
'''
for v,e in r84: o+=goodstep(v,e,'    ',{})
ev=[('since_neg hv ⟨rfl, by rintro y hy; obtain rfl := List.mem_singleton.1 hy; exact ⟨h_research_location, h_research_time, h_button_id, h_hot_key⟩⟩' if f=='research_locations' else 'h_'+ret84[f]) for f in fs]
o+=f'    refine Good.pure ⟨{", ".join(ev)}⟩ ?_\n'
names=[r[0] for r in r84]
o+=f'    rintro {pats(names,{})}\n    rw [Tech.toBytes, if_neg hg, Tech.toBytes84]\n    exact {cons(len(names))[1:-1]}\n\n'

# ---------------- Civ
def civ():
    st,ret,_,_=g.analyse('Civ'); reads=[(s[1],s[2]) for s in st]
    fs=[f for f,_ in g.struct_fields('Civ')]
    o='''theorem slotPointers_i32 (l : List (Option α)) : AllOf IsI32 (slotPointers l) := by
  intro y hy
  obtain ⟨o, -, rfl⟩ := List.mem_map.1 hy
  cases o <;> simp [slotPointer, IsI32]

theorem slotPointers_length (l : List (Option α)) : (slotPointers l).length = l.length := by
  simp [slotPointers]

theorem Civ.unit_pointers_eq (x : Civ) : x.unit_pointers = slotPointers x.units := by
  unfold Civ.unit_pointers slotPointers
  congr 1; funext u; cases u <;> rfl

'''
    o+='theorem Civ.rw {v : Version} {x : Civ} (h : Civ.WF v x) :\n    RW v Civ.fromBytes (Civ.toBytes v x) x := by\n'+hdr('Civ')+'  unfold Civ.fromBytes Civ.toBytes\n  simp only [Civ.unit_pointers_eq]\n'
    for v,e in reads: o+=rwstep(v,e,{},{'resources_size':'resources','units_size':'units'},'  ',{'unit_pointers':'RW.int32Array (by rw [slotPointers_length]) (slotPointers_i32 _)'})
    o+='  exact RW.pure rfl\n\n'
    o+='theorem Civ.good (v : Version) :\n    Good v Civ.fromBytes (Civ.WF v) (fun x bs => Civ.toBytes v x = .ok bs) := by\n  unfold Civ.fromBytes\n'
    for v,e in reads: o+=goodstep(v,e,'  ',{})
    ev=[{'resources':'upTo_i16 h_resources_size h_resources','units':'upTo_i16 h_units_size ⟨h_units.1.trans h_unit_pointers.1, h_units.2⟩'}.get(f,'h_'+ret[f]) for f in fs]
    o+=f'  refine Good.pure ⟨{", ".join(ev)}⟩ ?_\n'
    names=[r[0] for r in reads]
    i=names.index('unit_pointers')
    o+=f'  rintro {pats(names,{"units":"b{j} ⟨rfl, k{j}⟩","unit_pointers":"b{j} ⟨l{j}, k{j}⟩","resources":"b{j} ⟨rfl, k{j}⟩"})}\n'
    o+=f'  obtain rfl := l{i}.trans (by rw [slotPointers_length])\n'
    o+=f'  unfold Civ.toBytes\n  simp only [Civ.unit_pointers_eq]\n  exact {cons(len(names))[1:-1]}\n\n'
    return o
o+=civ()
o+='''theorem TerrainRestriction.rw {v : Version} {n : Nat} {x : TerrainRestriction} (h : TerrainRestriction.WF v n x) :
    RW v (TerrainRestriction.fromBytesWithCount n) (TerrainRestriction.toBytes v x) x := by
  obtain ⟨x_a, x_b⟩ := x
  obtain ⟨⟨hl_a, h_a⟩, ⟨hl_b, h_b⟩⟩ := h
  dsimp only at hl_a h_a hl_b h_b
  unfold TerrainRestriction.fromBytesWithCount TerrainRestriction.toBytes
  rw [if_neg (by dsimp only; omega)]
  refine RW.bind (RW.floatArray (by dsimp only; omega) h_a) ?_
  refine RW.bind (RW.classArray (by dsimp only; omega) fun y hy => TerrainPassGraphic.rw (h_b y hy)) ?_
  exact RW.pure rfl

theorem TerrainRestriction.good (v : Version) (n : Int) :
    Good v (TerrainRestriction.fromBytesWithCount n) (TerrainRestriction.WF v n.toNat)
      (fun x bs => n = x.passable_buildable_dmg_multiplier.length ∧ TerrainRestriction.toBytes v x = .ok bs) := by
  unfold TerrainRestriction.fromBytesWithCount
  refine Good.bind (Good.floatArray n) fun a h_a => ?_
  refine Good.bind (Good.classArray n (TerrainPassGraphic.good v)) fun b h_b => ?_
  refine Good.pure ⟨h_a, h_b⟩ ?_
  rintro b1 ⟨l1, k1⟩ b0 ⟨l0, k0⟩
  refine ⟨l0, ?_⟩
  rw [TerrainRestriction.toBytes, if_neg (by dsimp only; omega)]
  exact joinB_cons_ok k0 (joinB_cons_ok k1 rfl)

end Genie
'''
open('/verif/lean/Verif/Proof/Records/Top.lean','w').write(o)
