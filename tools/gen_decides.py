import re,glob,sys
order=["EffectCommand","Effect","SoundItem","Sound","PlayerColour","GraphicDelta","GraphicAngleSound","Graphic","TerrainPassGraphic","FrameData","Terrain","TileSize","TerrainBlock","MapUnit","MapTerrain","MapLand","MapElevation","MapInfo","RandomMaps","ResearchResourceCost","ResearchLocation","Tech","Common","TechTreeAge","BuildingConnection","UnitConnection","ResearchConnection","TechTree","ResourceStorage","DamageGraphic","DeadFish","Task","Bird","AttackOrArmor","Type50","Projectile","ResourceCost","TrainLocation","Creatable","BuildingAnnex","Building","Unit","UnitHeaders","Civ","TerrainRestriction"]
src="".join(open(f).read() for f in glob.glob('Verif/Model/*.lean'))
defs={}
for m in re.finditer(r'^def (\w+)\.(fromBytes\w*)[^\n]*:=(.*?)(?=^/--|^end |\Z)',src,re.S|re.M):
    defs[(m.group(1),m.group(2))]=m.group(3)
def gen(P,name,tac):
    out=[]
    for c in order:
        fs=[f for (k,f) in defs if k==c and f!='fromBytes' and f!='fromBytesWithCount']
        main='fromBytes' if (c,'fromBytes') in defs else 'fromBytesWithCount'
        body="".join(defs[(c,f)] for f in fs+[main])
        deps=sorted(set(re.findall(r'\b(\w+)\.fromBytes\b',body))-{c},key=order.index)
        haves="".join(f"  have := {d}.{name}\n" for d in deps)
        if main=='fromBytesWithCount':
            out.append(f"theorem {c}.{name} (n : Int) : {P} ({c}.fromBytesWithCount n) := by\n{haves}  unfold {c}.fromBytesWithCount; {tac}\n")
            continue
        for f in fs:
            out.append(f"theorem {c}.{name}_{f} : {P} {c}.{f} := by\n{haves}  unfold {c}.{f}; {tac}\n")
        if fs: haves="".join(f"  have := {c}.{name}_{f}\n" for f in fs)
        out.append(f"theorem {c}.{name} : {P} {c}.fromBytes := by\n{haves}  unfold {c}.fromBytes; {tac}\n")
    return "\n".join(out)
if __name__=='__main__':
    open('Verif/Proof/StreamClasses.lean','w').write('''import Verif.Proof.Stream
/-!
# `Decides` for all record classes (generated)
-/

set_option maxRecDepth 4000

namespace Genie

'''+gen('Decides','decides','decides')+'''
theorem DatFile.decides : Decides DatFile.fromBytes := by
  have := PlayerColour.decides
  have := Sound.decides
  have := Graphic.decides
  have := TerrainBlock.decides
  have := RandomMaps.decides
  have := Effect.decides
  have := UnitHeaders.decides
  have := Civ.decides
  have := Tech.decides
  have := TechTree.decides
  have h1 := fun s => Decides.liftPy (Version.ofStr_ne s)
  have h2 := fun w => Decides.setVersion (w := w)
  have h3 := TerrainRestriction.decides
  unfold DatFile.fromBytes
  refine Decides.bind Decides.string fun _ => Decides.bind (h1 _) fun _ => Decides.bind (h2 _) fun _ => ?_
  refine Decides.bind Decides.int16 fun _ => Decides.bind Decides.int16 fun _ => ?_
  refine Decides.bind Decides.int32Array fun _ => Decides.bind Decides.int32Array fun _ => ?_
  refine Decides.bind (Decides.withParam (h3 _)) fun _ => ?_
  decides

end Genie
''')
