import sys; sys.path.insert(0,'/verif/tools'); sys.path.insert(0,'/tmp')
import re
src=open('/verif/tools/gen_top.py').read().split('# ---------------- Graphic')[0]
exec(src)
body=re.search(r'def DatFile.fromBytes.*?return \{',g.TXT,re.S).group(0)
reads=re.findall(r'let (\w+) ← (.*?)(?=\n  (?:let|noteLossy|setVersion|return))',body,re.S)
reads=[(v,' '.join(e.split())) for v,e in reads][2:]
fs=[f for f,_ in g.struct_fields('DatFile')]
cnt={'player_colours_size':'player_colours','sounds_size':'sounds','graphics_size':'graphics','effects_size':'effects','unit_headers_size':'unit_headers','civs_size':'civs','techs_size':'techs','terrain_restrictions_size':'terrain_restrictions'}
o='''import Verif.Proof.Header
import Verif.Proof.Records.Terrain
import Verif.Proof.Records.RandomMaps
/-! # Write-read and read-write lemmas: `DatFile` -/

namespace Genie

theorem DatFile.graphic_pointers_eq (x : DatFile) : x.graphic_pointers = slotPointers x.graphics := by
  unfold DatFile.graphic_pointers slotPointers
  congr 1; funext u; cases u <;> rfl

def usedOf : List TerrainRestriction → Int
  | [] => 0
  | r :: _ => r.passable_buildable_dmg_multiplier.length

theorem DatFile.terrains_used_eq (x : DatFile) : x.terrains_used = usedOf x.terrain_restrictions := by
  unfold DatFile.terrains_used usedOf
  cases x.terrain_restrictions <;> rfl

theorem terrains_used_isI16 {v : Version} {n : Nat} {l : List TerrainRestriction}
    (h : AllOf (TerrainRestriction.WF v n) l) (hl : l ≠ []) :
    usedOf l = n := by
  cases l with
  | nil => exact absurd rfl hl
  | cons r rs => simp [usedOf, (h r (by simp)).passable_buildable_dmg_multiplier.1]

theorem Good.restrictions (v : Version) (size n : Int) :
    Good v (readClassArrayWithParam TerrainRestriction.fromBytesWithCount size n)
      (fun l => l.length = size.toNat ∧ AllOf (TerrainRestriction.WF v n.toNat) l)
      (fun l bs => size = l.length ∧ (∀ r ∈ l, n = r.passable_buildable_dmg_multiplier.length) ∧
        writeClassArray TerrainRestriction.toBytes l v = .ok bs) := by
  have h : Good v (TerrainRestriction.fromBytesWithCount n) (TerrainRestriction.WF v n.toNat)
      (fun x bs => (if n = x.passable_buildable_dmg_multiplier.length then TerrainRestriction.toBytes v x
        else .error .typeError) = .ok bs) := by
    refine Good.mono (TerrainRestriction.good v n) (fun _ h => h) ?_
    rintro x bs - ⟨h1, h2⟩
    rw [if_pos h1, h2]
  refine Good.mono (Good.array (w := fun x : TerrainRestriction =>
    if n = x.passable_buildable_dmg_multiplier.length then TerrainRestriction.toBytes v x
        else .error .typeError) size h) (fun _ h => h) ?_
  rintro l bs - ⟨h1, h2⟩
  refine ⟨h1, ?_⟩
  clear h1
  induction l generalizing bs with
  | nil => exact ⟨by simp, h2⟩
  | cons r rs ih =>
    rw [List.map_cons, joinB_cons_eq_ok] at h2
    obtain ⟨b, bs', e1, e2, rfl⟩ := h2
    obtain ⟨i1, i2⟩ := ih bs' e2
    split at e1
    · rename_i hr
      refine ⟨?_, joinB_cons_ok e1 i2⟩
      intro r' hr'
      rcases List.mem_cons.1 hr' with rfl | hr'
      · exact hr
      · exact i1 r' hr'
    · simp at e1

'''
o+='''/-- Write then read, for a whole file. -/
theorem DatFile.reads {v : Version} {x : DatFile} (h : DatFile.WFAt v x) :
    ∃ bs, DatFile.toBytes x = .ok bs ∧ ∀ hd : ByteHandler, bs <+: hd.content.drop hd.offset →
      DatFile.fromBytes hd = .ok (x, { hd with offset := hd.offset + bs.length, version := v }) := by
'''+hdr('DatFile')+'''  obtain ⟨n, hn, h_tr⟩ := h_terrain_restrictions
  obtain ⟨n', hn', h_tr', hu⟩ : ∃ n' : Nat, n' ≤ 32767 ∧ AllOf (TerrainRestriction.WF v n') x_terrain_restrictions ∧
      usedOf x_terrain_restrictions = n' := by
    by_cases hl : x_terrain_restrictions = []
    · subst hl; exact ⟨0, by omega, by simp [AllOf], rfl⟩
    · exact ⟨n, hn, h_tr.2, terrains_used_isI16 h_tr.2 hl⟩
  unfold DatFile.fromBytes DatFile.toBytes
  simp only [(versionNames_spec h_version).1]
  rw [if_neg (by rw [h_float_ptr_terrain_tables.1, h_terrain_pass_graphic_pointers.1]; simp)]
  refine Reads.header h_version ?_
  simp only [DatFile.graphic_pointers_eq, DatFile.terrains_used_eq, hu]
'''
ov={'terrain_restrictions_size':'RW.int16 (isI16_len h_tr.1)','terrains_used_1':'RW.int16 (isI16_len hn\')',
'float_ptr_terrain_tables':'RW.int32Array (by rw [h_float_ptr_terrain_tables.1]) h_float_ptr_terrain_tables.2',
'terrain_pass_graphic_pointers':'RW.int32Array (by rw [h_terrain_pass_graphic_pointers.1]) h_terrain_pass_graphic_pointers.2',
'terrain_restrictions':'RW.array rfl fun y hy => TerrainRestriction.rw (h_tr\' y hy)',
'graphic_pointers':'RW.int32Array (by rw [slotPointers_length]) (slotPointers_i32 _)'}
for v,e in reads:
    o+=rwstep(v,e,{},cnt,'  ',ov)
    if v=='terrain_restrictions':
        o+='''  refine RW.bind0 (Reads.noteLossy (by
    rw [decide_eq_false]
    rintro ⟨rfl, h2⟩
    exact h2 hu.symm)) ?_
'''
o+='  exact RW.pure rfl\n\n'
o+='''set_option maxRecDepth 2000 in
theorem DatFile.goodFile :
    GoodFile DatFile.fromBytes DatFile.WFAt (fun x bs => DatFile.toBytes x = .ok bs) := by
  refine GoodFile.header fun version v h_version => ?_
'''
for v,e in reads:
    o+=goodstep(v,e,'  ',{'terrain_restrictions':'Good.restrictions v _ _'})
    if v=='terrain_restrictions':
        o+='''  refine Good.bind (P := fun _ bs => bs = [] ∧ ¬ (terrain_restrictions = [] ∧ terrains_used_1 ≠ 0))
    (Good.noteLossy (fun h => ⟨rfl, by simpa only [decide_eq_false_iff_not] using h⟩)) fun _ _ => ?_
'''
names=[]
for v,e in reads:
    names.append(v)
    if v=='terrain_restrictions': names.append('_note')
ev=[]
for f in fs:
    if f in ('float_ptr_terrain_tables','terrain_pass_graphic_pointers'): ev.append(f'⟨h_{f}.1.trans h_terrain_restrictions.1.symm, h_{f}.2⟩')
    elif f=='terrain_restrictions': ev.append('⟨terrains_used_1.toNat, by unfold IsI16 at h_terrains_used_1; omega, upTo_i16 h_terrain_restrictions_size h_terrain_restrictions⟩')
    elif f=='graphics': ev.append('upTo_i16 h_graphics_size ⟨h_graphics.1.trans h_graphic_pointers.1, h_graphics.2⟩')
    elif f+'_size' in cnt: ev.append(f'upTo_{"i32" if f in ("effects","unit_headers") else "i16"} h_{f}_size h_{f}')
    else: ev.append('h_'+f)
o+=f'  refine Good.pure ⟨{", ".join(ev)}⟩ ?_\n'
sp={f:'b{j} ⟨rfl, k{j}⟩' for f in cnt.values()}
sp['terrain_restrictions']='b{j} ⟨rfl, u{j}, k{j}⟩'
sp['float_ptr_terrain_tables']='b{j} ⟨l{j}, k{j}⟩'
sp['terrain_pass_graphic_pointers']='b{j} ⟨l{j}, k{j}⟩'
sp['graphic_pointers']='b{j} ⟨l{j}, k{j}⟩'
sp['_note']='b{j} ⟨rfl, k{j}⟩'
o+=f'  rintro {pats(names,sp)} bh kh\n'
ig=names.index('graphic_pointers'); i1=names.index('float_ptr_terrain_tables'); i2=names.index('terrain_pass_graphic_pointers'); it=names.index('terrain_restrictions'); iu=names.index('terrains_used_1'); inn=names.index('_note')
ex='rfl'
for j in reversed(range(len(names))):
    if j==inn: continue
    k='k%d'%j
    if j==iu: k='(hu ▸ k%d)'%j
    ex=f'(joinB_cons_ok {k} {ex})'
o+=f'''  obtain rfl := l{ig}.trans (by rw [slotPointers_length])
  have hu : terrains_used_1 = usedOf terrain_restrictions := by
    cases terrain_restrictions with
    | nil => simpa [usedOf] using k{inn}
    | cons r rs => exact u{it} r (by simp)
  unfold DatFile.toBytes
  simp only [(versionNames_spec h_version).1]
  have q1 : float_ptr_terrain_tables.length = terrain_restrictions.length := (Int.ofNat.inj l{i1}).symm
  have q2 : terrain_pass_graphic_pointers.length = terrain_restrictions.length := (Int.ofNat.inj l{i2}).symm
  rw [if_neg (not_not_intro ⟨q1.trans q2.symm, q2⟩)]
  simp only [DatFile.graphic_pointers_eq, DatFile.terrains_used_eq, ← hu, List.nil_append]
  exact joinB_cons_ok kh {ex.replace("(hu ▸ k%d)"%iu,"k%d"%iu)}

end Genie
'''
open('/verif/lean/Verif/Proof/Records/DatFile.lean','w').write(o)
