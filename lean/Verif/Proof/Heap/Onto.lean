import Verif.Proof.Heap.Fits
import Verif.Proof.Heap.Typed
import Verif.Spec.Lengths
import Verif.Spec.Sized
/-! # Well-typed objects are the objects of values (generated by `tools/gen_fits.py`) -/

set_option linter.unusedVariables false
set_option maxRecDepth 20000

namespace Genie

/-- Any function of names will do that tells the classes apart. -/
def PyStr.key (s : PyStr) : Nat := s.foldl (fun h c => h * 131 + c) 7

def Declares.table : List (PyStr × List (PyStr × Ann)) :=
  [(lit "EffectCommand", EffectCommand.annotations),
   (lit "Effect", Effect.annotations),
   (lit "SoundItem", SoundItem.annotations),
   (lit "Sound", Sound.annotations),
   (lit "PlayerColour", PlayerColour.annotations),
   (lit "GraphicDelta", GraphicDelta.annotations),
   (lit "GraphicAngleSound", GraphicAngleSound.annotations),
   (lit "Graphic", Graphic.annotations),
   (lit "TerrainPassGraphic", TerrainPassGraphic.annotations),
   (lit "TerrainRestriction", TerrainRestriction.annotations),
   (lit "FrameData", FrameData.annotations),
   (lit "Terrain", Terrain.annotations),
   (lit "TileSize", TileSize.annotations),
   (lit "TerrainBlock", TerrainBlock.annotations),
   (lit "MapUnit", MapUnit.annotations),
   (lit "MapTerrain", MapTerrain.annotations),
   (lit "MapLand", MapLand.annotations),
   (lit "MapElevation", MapElevation.annotations),
   (lit "MapInfo", MapInfo.annotations),
   (lit "RandomMaps", RandomMaps.annotations),
   (lit "ResearchResourceCost", ResearchResourceCost.annotations),
   (lit "ResearchLocation", ResearchLocation.annotations),
   (lit "Tech", Tech.annotations),
   (lit "Common", Common.annotations),
   (lit "TechTreeAge", TechTreeAge.annotations),
   (lit "BuildingConnection", BuildingConnection.annotations),
   (lit "UnitConnection", UnitConnection.annotations),
   (lit "ResearchConnection", ResearchConnection.annotations),
   (lit "TechTree", TechTree.annotations),
   (lit "Task", Task.annotations),
   (lit "ResourceStorage", ResourceStorage.annotations),
   (lit "DamageGraphic", DamageGraphic.annotations),
   (lit "DeadFish", DeadFish.annotations),
   (lit "Bird", Bird.annotations),
   (lit "AttackOrArmor", AttackOrArmor.annotations),
   (lit "Type50", Type50.annotations),
   (lit "Projectile", Projectile.annotations),
   (lit "ResourceCost", ResourceCost.annotations),
   (lit "TrainLocation", TrainLocation.annotations),
   (lit "Creatable", Creatable.annotations false),
   (lit "BuildingAnnex", BuildingAnnex.annotations),
   (lit "Building", Building.annotations),
   (lit "Unit", Unit.annotations),
   (lit "UnitHeaders", UnitHeaders.annotations),
   (lit "Civ", Civ.annotations),
   (lit "DatFile", DatFile.annotations)]

theorem Declares.index {c : PyStr} {fs : List (PyStr × Ann)} : Declares false c fs → ∃ i : Nat, Declares.table[i]? = some (c, fs)
  | .EffectCommand => ⟨0, rfl⟩
  | .Effect => ⟨1, rfl⟩
  | .SoundItem => ⟨2, rfl⟩
  | .Sound => ⟨3, rfl⟩
  | .PlayerColour => ⟨4, rfl⟩
  | .GraphicDelta => ⟨5, rfl⟩
  | .GraphicAngleSound => ⟨6, rfl⟩
  | .Graphic => ⟨7, rfl⟩
  | .TerrainPassGraphic => ⟨8, rfl⟩
  | .TerrainRestriction => ⟨9, rfl⟩
  | .FrameData => ⟨10, rfl⟩
  | .Terrain => ⟨11, rfl⟩
  | .TileSize => ⟨12, rfl⟩
  | .TerrainBlock => ⟨13, rfl⟩
  | .MapUnit => ⟨14, rfl⟩
  | .MapTerrain => ⟨15, rfl⟩
  | .MapLand => ⟨16, rfl⟩
  | .MapElevation => ⟨17, rfl⟩
  | .MapInfo => ⟨18, rfl⟩
  | .RandomMaps => ⟨19, rfl⟩
  | .ResearchResourceCost => ⟨20, rfl⟩
  | .ResearchLocation => ⟨21, rfl⟩
  | .Tech => ⟨22, rfl⟩
  | .Common => ⟨23, rfl⟩
  | .TechTreeAge => ⟨24, rfl⟩
  | .BuildingConnection => ⟨25, rfl⟩
  | .UnitConnection => ⟨26, rfl⟩
  | .ResearchConnection => ⟨27, rfl⟩
  | .TechTree => ⟨28, rfl⟩
  | .Task => ⟨29, rfl⟩
  | .ResourceStorage => ⟨30, rfl⟩
  | .DamageGraphic => ⟨31, rfl⟩
  | .DeadFish => ⟨32, rfl⟩
  | .Bird => ⟨33, rfl⟩
  | .AttackOrArmor => ⟨34, rfl⟩
  | .Type50 => ⟨35, rfl⟩
  | .Projectile => ⟨36, rfl⟩
  | .ResourceCost => ⟨37, rfl⟩
  | .TrainLocation => ⟨38, rfl⟩
  | .Creatable => ⟨39, rfl⟩
  | .BuildingAnnex => ⟨40, rfl⟩
  | .Building => ⟨41, rfl⟩
  | .Unit => ⟨42, rfl⟩
  | .UnitHeaders => ⟨43, rfl⟩
  | .Civ => ⟨44, rfl⟩
  | .DatFile => ⟨45, rfl⟩

theorem Declares.keys : (Declares.table.map fun p => PyStr.key p.1).Nodup := by
  have e : ([lit "EffectCommand", lit "Effect", lit "SoundItem", lit "Sound", lit "PlayerColour", lit "GraphicDelta", lit "GraphicAngleSound", lit "Graphic", lit "TerrainPassGraphic", lit "TerrainRestriction", lit "FrameData", lit "Terrain", lit "TileSize", lit "TerrainBlock", lit "MapUnit", lit "MapTerrain", lit "MapLand", lit "MapElevation", lit "MapInfo", lit "RandomMaps", lit "ResearchResourceCost", lit "ResearchLocation", lit "Tech", lit "Common", lit "TechTreeAge", lit "BuildingConnection", lit "UnitConnection", lit "ResearchConnection", lit "TechTree", lit "Task", lit "ResourceStorage", lit "DamageGraphic", lit "DeadFish", lit "Bird", lit "AttackOrArmor", lit "Type50", lit "Projectile", lit "ResourceCost", lit "TrainLocation", lit "Creatable", lit "BuildingAnnex", lit "Building", lit "Unit", lit "UnitHeaders", lit "Civ", lit "DatFile"] : List PyStr).map PyStr.key = [25204490201368505140124429339, 38069646839456, 86804288001235080267, 294751481448, 194554315038145387829419196, 192808448013024295432738319, 7438451524743842285551145846951594317, 4997693068446969, 987150523396197827160771418565208852881, 987150523396197830182972967680470034966, 85678680427444261656, 5062897416831882, 663259541920645186, 195323998496740244507559743, 5027365052891929, 11301974123722388687988, 5027365032436656, 193953176640815752064514928, 5027365025914439, 11358781164116193501177, 16906670162230641857503379614890393338434509, 57408063488854524536012408793108835, 2252085425, 37995154234934, 1491021581649058987397764, 969533179759019659581656534802448656401, 3355529271372266738517547534333, 985179777532232495460261385217845968880, 663238979938560755, 2252018880, 438229494260873685318942348393362, 25177983649878870373619608614, 652645899619542907, 2211690392, 25105072524372395679381802493, 38653957157536, 11337532956263735655208, 194934054831798928618942926, 25589953105585000798149709982, 85418509574218653816, 25130793292748725261224333517, 651402948045408431, 2254488763, 1492612741845503167979523, 16900297, 4981880978786292] := by
    decide +kernel
  have e' : (Declares.table.map fun p => PyStr.key p.1) = [25204490201368505140124429339, 38069646839456, 86804288001235080267, 294751481448, 194554315038145387829419196, 192808448013024295432738319, 7438451524743842285551145846951594317, 4997693068446969, 987150523396197827160771418565208852881, 987150523396197830182972967680470034966, 85678680427444261656, 5062897416831882, 663259541920645186, 195323998496740244507559743, 5027365052891929, 11301974123722388687988, 5027365032436656, 193953176640815752064514928, 5027365025914439, 11358781164116193501177, 16906670162230641857503379614890393338434509, 57408063488854524536012408793108835, 2252085425, 37995154234934, 1491021581649058987397764, 969533179759019659581656534802448656401, 3355529271372266738517547534333, 985179777532232495460261385217845968880, 663238979938560755, 2252018880, 438229494260873685318942348393362, 25177983649878870373619608614, 652645899619542907, 2211690392, 25105072524372395679381802493, 38653957157536, 11337532956263735655208, 194934054831798928618942926, 25589953105585000798149709982, 85418509574218653816, 25130793292748725261224333517, 651402948045408431, 2254488763, 1492612741845503167979523, 16900297, 4981880978786292] := e
  rw [e']
  decide +kernel

theorem nodup_index {β : Type} {f : α → β} : ∀ {l : List α} {i j : Nat} {a b : α}, (l.map f).Nodup → l[i]? = some a → l[j]? = some b → f a = f b → a = b
  | [], _, _, _, _, _, h, _, _ => by simp at h
  | x :: l, 0, 0, _, _, _, h, h', _ => by simp at h h'; rw [← h, ← h']
  | x :: l, 0, j + 1, _, b, nd, h, h', e => by
    simp at h h'
    rw [List.map_cons, List.nodup_cons] at nd
    exact (nd.1 (List.mem_map.mpr ⟨b, List.mem_of_getElem? h', by rw [h, e]⟩)).elim
  | x :: l, i + 1, 0, a, _, nd, h, h', e => by
    simp at h h'
    rw [List.map_cons, List.nodup_cons] at nd
    exact (nd.1 (List.mem_map.mpr ⟨a, List.mem_of_getElem? h, by rw [h', e]⟩)).elim
  | x :: l, i + 1, j + 1, _, _, nd, h, h', e => by
    simp at h h'
    rw [List.map_cons, List.nodup_cons] at nd
    exact nodup_index nd.2 h h' e

theorem Declares.oneDef : OneDef (Declares false) := by
  intro c fs fs' h h'
  obtain ⟨i, hi⟩ := h.index
  obtain ⟨j, hj⟩ := h'.index
  exact (Prod.mk.inj (nodup_index Declares.keys hi hj rfl)).2

theorem EffectCommand.onto : Onto (Declares false) (.cls (lit "EffectCommand")) (EffectCommand.object) (fun _ => True) := by
  intro t ht
  cases ht with
  | cls hd hf =>
  cases Declares.oneDef _ _ _ hd .EffectCommand
  obtain ⟨t0, ts0, e0, f0, hf0⟩ := SuitsFields.uncons hf
  subst e0
  obtain ⟨x0, p0, c0⟩ := Onto.int t0 f0
  obtain ⟨t1, ts1, e1, f1, hf1⟩ := SuitsFields.uncons hf0
  subst e1
  obtain ⟨x1, p1, c1⟩ := Onto.int t1 f1
  obtain ⟨t2, ts2, e2, f2, hf2⟩ := SuitsFields.uncons hf1
  subst e2
  obtain ⟨x2, p2, c2⟩ := Onto.int t2 f2
  obtain ⟨t3, ts3, e3, f3, hf3⟩ := SuitsFields.uncons hf2
  subst e3
  obtain ⟨x3, p3, c3⟩ := Onto.int t3 f3
  obtain ⟨t4, ts4, e4, f4, hf4⟩ := SuitsFields.uncons hf3
  subst e4
  obtain ⟨x4, p4, c4⟩ := Onto.float t4 f4
  have eN := SuitsFields.unnil hf4
  subst eN
  refine ⟨⟨x0, x1, x2, x3, x4⟩, trivial, .obj ?_⟩
  exact .cons c0 <| .cons c1 <| .cons c2 <| .cons c3 <| .cons c4 <| .nil

theorem Effect.onto : Onto (Declares false) (.cls (lit "Effect")) (Effect.object) (fun _ => True) := by
  intro t ht
  cases ht with
  | cls hd hf =>
  cases Declares.oneDef _ _ _ hd .Effect
  obtain ⟨t0, ts0, e0, f0, hf0⟩ := SuitsFields.uncons hf
  subst e0
  obtain ⟨x0, p0, c0⟩ := Onto.str t0 f0
  obtain ⟨t1, ts1, e1, f1, hf1⟩ := SuitsFields.uncons hf0
  subst e1
  obtain ⟨x1, p1, c1⟩ := (Onto.list EffectCommand.onto) t1 f1
  have eN := SuitsFields.unnil hf1
  subst eN
  refine ⟨⟨x0, x1⟩, trivial, .obj ?_⟩
  exact .cons c0 <| .cons c1 <| .nil

theorem SoundItem.onto : Onto (Declares false) (.cls (lit "SoundItem")) (SoundItem.object) (fun _ => True) := by
  intro t ht
  cases ht with
  | cls hd hf =>
  cases Declares.oneDef _ _ _ hd .SoundItem
  obtain ⟨t0, ts0, e0, f0, hf0⟩ := SuitsFields.uncons hf
  subst e0
  obtain ⟨x0, p0, c0⟩ := Onto.str t0 f0
  obtain ⟨t1, ts1, e1, f1, hf1⟩ := SuitsFields.uncons hf0
  subst e1
  obtain ⟨x1, p1, c1⟩ := Onto.int t1 f1
  obtain ⟨t2, ts2, e2, f2, hf2⟩ := SuitsFields.uncons hf1
  subst e2
  obtain ⟨x2, p2, c2⟩ := Onto.int t2 f2
  obtain ⟨t3, ts3, e3, f3, hf3⟩ := SuitsFields.uncons hf2
  subst e3
  obtain ⟨x3, p3, c3⟩ := Onto.int t3 f3
  obtain ⟨t4, ts4, e4, f4, hf4⟩ := SuitsFields.uncons hf3
  subst e4
  obtain ⟨x4, p4, c4⟩ := Onto.int t4 f4
  have eN := SuitsFields.unnil hf4
  subst eN
  refine ⟨⟨x0, x1, x2, x3, x4⟩, trivial, .obj ?_⟩
  exact .cons c0 <| .cons c1 <| .cons c2 <| .cons c3 <| .cons c4 <| .nil

theorem Sound.onto : Onto (Declares false) (.cls (lit "Sound")) (Sound.object) (fun _ => True) := by
  intro t ht
  cases ht with
  | cls hd hf =>
  cases Declares.oneDef _ _ _ hd .Sound
  obtain ⟨t0, ts0, e0, f0, hf0⟩ := SuitsFields.uncons hf
  subst e0
  obtain ⟨x0, p0, c0⟩ := Onto.int t0 f0
  obtain ⟨t1, ts1, e1, f1, hf1⟩ := SuitsFields.uncons hf0
  subst e1
  obtain ⟨x1, p1, c1⟩ := Onto.int t1 f1
  obtain ⟨t2, ts2, e2, f2, hf2⟩ := SuitsFields.uncons hf1
  subst e2
  obtain ⟨x2, p2, c2⟩ := Onto.int t2 f2
  obtain ⟨t3, ts3, e3, f3, hf3⟩ := SuitsFields.uncons hf2
  subst e3
  obtain ⟨x3, p3, c3⟩ := Onto.int t3 f3
  obtain ⟨t4, ts4, e4, f4, hf4⟩ := SuitsFields.uncons hf3
  subst e4
  obtain ⟨x4, p4, c4⟩ := (Onto.list SoundItem.onto) t4 f4
  have eN := SuitsFields.unnil hf4
  subst eN
  refine ⟨⟨x0, x1, x2, x3, x4⟩, trivial, .obj ?_⟩
  exact .cons c0 <| .cons c1 <| .cons c2 <| .cons c3 <| .cons c4 <| .nil

theorem PlayerColour.onto : Onto (Declares false) (.cls (lit "PlayerColour")) (PlayerColour.object) (fun _ => True) := by
  intro t ht
  cases ht with
  | cls hd hf =>
  cases Declares.oneDef _ _ _ hd .PlayerColour
  obtain ⟨t0, ts0, e0, f0, hf0⟩ := SuitsFields.uncons hf
  subst e0
  obtain ⟨x0, p0, c0⟩ := Onto.int t0 f0
  obtain ⟨t1, ts1, e1, f1, hf1⟩ := SuitsFields.uncons hf0
  subst e1
  obtain ⟨x1, p1, c1⟩ := Onto.int t1 f1
  obtain ⟨t2, ts2, e2, f2, hf2⟩ := SuitsFields.uncons hf1
  subst e2
  obtain ⟨x2, p2, c2⟩ := Onto.int t2 f2
  obtain ⟨t3, ts3, e3, f3, hf3⟩ := SuitsFields.uncons hf2
  subst e3
  obtain ⟨x3, p3, c3⟩ := Onto.int t3 f3
  obtain ⟨t4, ts4, e4, f4, hf4⟩ := SuitsFields.uncons hf3
  subst e4
  obtain ⟨x4, p4, c4⟩ := Onto.int t4 f4
  obtain ⟨t5, ts5, e5, f5, hf5⟩ := SuitsFields.uncons hf4
  subst e5
  obtain ⟨x5, p5, c5⟩ := Onto.int t5 f5
  obtain ⟨t6, ts6, e6, f6, hf6⟩ := SuitsFields.uncons hf5
  subst e6
  obtain ⟨x6, p6, c6⟩ := Onto.int t6 f6
  obtain ⟨t7, ts7, e7, f7, hf7⟩ := SuitsFields.uncons hf6
  subst e7
  obtain ⟨x7, p7, c7⟩ := Onto.int t7 f7
  obtain ⟨t8, ts8, e8, f8, hf8⟩ := SuitsFields.uncons hf7
  subst e8
  obtain ⟨x8, p8, c8⟩ := Onto.int t8 f8
  have eN := SuitsFields.unnil hf8
  subst eN
  refine ⟨⟨x0, x1, x2, x3, x4, x5, x6, x7, x8⟩, trivial, .obj ?_⟩
  exact .cons c0 <| .cons c1 <| .cons c2 <| .cons c3 <| .cons c4 <| .cons c5 <| .cons c6 <| .cons c7 <| .cons c8 <| .nil

theorem GraphicDelta.onto : Onto (Declares false) (.cls (lit "GraphicDelta")) (GraphicDelta.object) (fun _ => True) := by
  intro t ht
  cases ht with
  | cls hd hf =>
  cases Declares.oneDef _ _ _ hd .GraphicDelta
  obtain ⟨t0, ts0, e0, f0, hf0⟩ := SuitsFields.uncons hf
  subst e0
  obtain ⟨x0, p0, c0⟩ := Onto.int t0 f0
  obtain ⟨t1, ts1, e1, f1, hf1⟩ := SuitsFields.uncons hf0
  subst e1
  obtain ⟨x1, p1, c1⟩ := Onto.int t1 f1
  obtain ⟨t2, ts2, e2, f2, hf2⟩ := SuitsFields.uncons hf1
  subst e2
  obtain ⟨x2, p2, c2⟩ := Onto.int t2 f2
  obtain ⟨t3, ts3, e3, f3, hf3⟩ := SuitsFields.uncons hf2
  subst e3
  obtain ⟨x3, p3, c3⟩ := Onto.int t3 f3
  obtain ⟨t4, ts4, e4, f4, hf4⟩ := SuitsFields.uncons hf3
  subst e4
  obtain ⟨x4, p4, c4⟩ := Onto.int t4 f4
  obtain ⟨t5, ts5, e5, f5, hf5⟩ := SuitsFields.uncons hf4
  subst e5
  obtain ⟨x5, p5, c5⟩ := Onto.int t5 f5
  obtain ⟨t6, ts6, e6, f6, hf6⟩ := SuitsFields.uncons hf5
  subst e6
  obtain ⟨x6, p6, c6⟩ := Onto.int t6 f6
  have eN := SuitsFields.unnil hf6
  subst eN
  refine ⟨⟨x0, x1, x2, x3, x4, x5, x6⟩, trivial, .obj ?_⟩
  exact .cons c0 <| .cons c1 <| .cons c2 <| .cons c3 <| .cons c4 <| .cons c5 <| .cons c6 <| .nil

theorem GraphicAngleSound.onto : Onto (Declares false) (.cls (lit "GraphicAngleSound")) (GraphicAngleSound.object) (fun _ => True) := by
  intro t ht
  cases ht with
  | cls hd hf =>
  cases Declares.oneDef _ _ _ hd .GraphicAngleSound
  obtain ⟨t0, ts0, e0, f0, hf0⟩ := SuitsFields.uncons hf
  subst e0
  obtain ⟨x0, p0, c0⟩ := Onto.int t0 f0
  obtain ⟨t1, ts1, e1, f1, hf1⟩ := SuitsFields.uncons hf0
  subst e1
  obtain ⟨x1, p1, c1⟩ := Onto.int t1 f1
  obtain ⟨t2, ts2, e2, f2, hf2⟩ := SuitsFields.uncons hf1
  subst e2
  obtain ⟨x2, p2, c2⟩ := Onto.int t2 f2
  obtain ⟨t3, ts3, e3, f3, hf3⟩ := SuitsFields.uncons hf2
  subst e3
  obtain ⟨x3, p3, c3⟩ := Onto.int t3 f3
  obtain ⟨t4, ts4, e4, f4, hf4⟩ := SuitsFields.uncons hf3
  subst e4
  obtain ⟨x4, p4, c4⟩ := Onto.int t4 f4
  obtain ⟨t5, ts5, e5, f5, hf5⟩ := SuitsFields.uncons hf4
  subst e5
  obtain ⟨x5, p5, c5⟩ := Onto.int t5 f5
  obtain ⟨t6, ts6, e6, f6, hf6⟩ := SuitsFields.uncons hf5
  subst e6
  obtain ⟨x6, p6, c6⟩ := Onto.int t6 f6
  obtain ⟨t7, ts7, e7, f7, hf7⟩ := SuitsFields.uncons hf6
  subst e7
  obtain ⟨x7, p7, c7⟩ := Onto.int t7 f7
  obtain ⟨t8, ts8, e8, f8, hf8⟩ := SuitsFields.uncons hf7
  subst e8
  obtain ⟨x8, p8, c8⟩ := Onto.int t8 f8
  have eN := SuitsFields.unnil hf8
  subst eN
  refine ⟨⟨x0, x1, x2, x3, x4, x5, x6, x7, x8⟩, trivial, .obj ?_⟩
  exact .cons c0 <| .cons c1 <| .cons c2 <| .cons c3 <| .cons c4 <| .cons c5 <| .cons c6 <| .cons c7 <| .cons c8 <| .nil

theorem Graphic.onto : Onto (Declares false) (.cls (lit "Graphic")) (Graphic.object) (Graphic.Lengths) := by
  intro t ht
  cases ht with
  | cls hd hf =>
  cases Declares.oneDef _ _ _ hd .Graphic
  obtain ⟨t0, ts0, e0, f0, hf0⟩ := SuitsFields.uncons hf
  subst e0
  obtain ⟨x0, p0, c0⟩ := Onto.str t0 f0
  obtain ⟨t1, ts1, e1, f1, hf1⟩ := SuitsFields.uncons hf0
  subst e1
  obtain ⟨x1, p1, c1⟩ := Onto.str t1 f1
  obtain ⟨t2, ts2, e2, f2, hf2⟩ := SuitsFields.uncons hf1
  subst e2
  obtain ⟨x2, p2, c2⟩ := Onto.str t2 f2
  obtain ⟨t3, ts3, e3, f3, hf3⟩ := SuitsFields.uncons hf2
  subst e3
  obtain ⟨x3, p3, c3⟩ := Onto.int t3 f3
  obtain ⟨t4, ts4, e4, f4, hf4⟩ := SuitsFields.uncons hf3
  subst e4
  obtain ⟨x4, p4, c4⟩ := Onto.int t4 f4
  obtain ⟨t5, ts5, e5, f5, hf5⟩ := SuitsFields.uncons hf4
  subst e5
  obtain ⟨x5, p5, c5⟩ := Onto.int t5 f5
  obtain ⟨t6, ts6, e6, f6, hf6⟩ := SuitsFields.uncons hf5
  subst e6
  obtain ⟨x6, p6, c6⟩ := Onto.int t6 f6
  obtain ⟨t7, ts7, e7, f7, hf7⟩ := SuitsFields.uncons hf6
  subst e7
  obtain ⟨x7, p7, c7⟩ := Onto.int t7 f7
  obtain ⟨t8, ts8, e8, f8, hf8⟩ := SuitsFields.uncons hf7
  subst e8
  obtain ⟨x8, p8, c8⟩ := Onto.int t8 f8
  obtain ⟨t9, ts9, e9, f9, hf9⟩ := SuitsFields.uncons hf8
  subst e9
  obtain ⟨x9, p9, c9⟩ := (Onto.tuple (n := 4) rfl Onto.int) t9 f9
  obtain ⟨t10, ts10, e10, f10, hf10⟩ := SuitsFields.uncons hf9
  subst e10
  obtain ⟨x10, p10, c10⟩ := Onto.int t10 f10
  obtain ⟨t11, ts11, e11, f11, hf11⟩ := SuitsFields.uncons hf10
  subst e11
  obtain ⟨x11, p11, c11⟩ := Onto.int t11 f11
  obtain ⟨t12, ts12, e12, f12, hf12⟩ := SuitsFields.uncons hf11
  subst e12
  obtain ⟨x12, p12, c12⟩ := Onto.int t12 f12
  obtain ⟨t13, ts13, e13, f13, hf13⟩ := SuitsFields.uncons hf12
  subst e13
  obtain ⟨x13, p13, c13⟩ := Onto.int t13 f13
  obtain ⟨t14, ts14, e14, f14, hf14⟩ := SuitsFields.uncons hf13
  subst e14
  obtain ⟨x14, p14, c14⟩ := Onto.int t14 f14
  obtain ⟨t15, ts15, e15, f15, hf15⟩ := SuitsFields.uncons hf14
  subst e15
  obtain ⟨x15, p15, c15⟩ := Onto.float t15 f15
  obtain ⟨t16, ts16, e16, f16, hf16⟩ := SuitsFields.uncons hf15
  subst e16
  obtain ⟨x16, p16, c16⟩ := Onto.float t16 f16
  obtain ⟨t17, ts17, e17, f17, hf17⟩ := SuitsFields.uncons hf16
  subst e17
  obtain ⟨x17, p17, c17⟩ := Onto.float t17 f17
  obtain ⟨t18, ts18, e18, f18, hf18⟩ := SuitsFields.uncons hf17
  subst e18
  obtain ⟨x18, p18, c18⟩ := Onto.int t18 f18
  obtain ⟨t19, ts19, e19, f19, hf19⟩ := SuitsFields.uncons hf18
  subst e19
  obtain ⟨x19, p19, c19⟩ := Onto.int t19 f19
  obtain ⟨t20, ts20, e20, f20, hf20⟩ := SuitsFields.uncons hf19
  subst e20
  obtain ⟨x20, p20, c20⟩ := Onto.int t20 f20
  obtain ⟨t21, ts21, e21, f21, hf21⟩ := SuitsFields.uncons hf20
  subst e21
  obtain ⟨x21, p21, c21⟩ := Onto.int t21 f21
  obtain ⟨t22, ts22, e22, f22, hf22⟩ := SuitsFields.uncons hf21
  subst e22
  obtain ⟨x22, p22, c22⟩ := (Onto.list GraphicDelta.onto) t22 f22
  obtain ⟨t23, ts23, e23, f23, hf23⟩ := SuitsFields.uncons hf22
  subst e23
  obtain ⟨x23, p23, c23⟩ := (Onto.list GraphicAngleSound.onto) t23 f23
  have eN := SuitsFields.unnil hf23
  subst eN
  refine ⟨⟨x0, x1, x2, x3, x4, x5, x6, x7, x8, x9, x10, x11, x12, x13, x14, x15, x16, x17, x18, x19, x20, x21, x22, x23⟩, ⟨p9.1⟩, .obj ?_⟩
  exact .cons c0 <| .cons c1 <| .cons c2 <| .cons c3 <| .cons c4 <| .cons c5 <| .cons c6 <| .cons c7 <| .cons c8 <| .cons c9 <| .cons c10 <| .cons c11 <| .cons c12 <| .cons c13 <| .cons c14 <| .cons c15 <| .cons c16 <| .cons c17 <| .cons c18 <| .cons c19 <| .cons c20 <| .cons c21 <| .cons c22 <| .cons c23 <| .nil

theorem TerrainPassGraphic.onto : Onto (Declares false) (.cls (lit "TerrainPassGraphic")) (TerrainPassGraphic.object) (fun _ => True) := by
  intro t ht
  cases ht with
  | cls hd hf =>
  cases Declares.oneDef _ _ _ hd .TerrainPassGraphic
  obtain ⟨t0, ts0, e0, f0, hf0⟩ := SuitsFields.uncons hf
  subst e0
  obtain ⟨x0, p0, c0⟩ := Onto.int t0 f0
  obtain ⟨t1, ts1, e1, f1, hf1⟩ := SuitsFields.uncons hf0
  subst e1
  obtain ⟨x1, p1, c1⟩ := Onto.int t1 f1
  obtain ⟨t2, ts2, e2, f2, hf2⟩ := SuitsFields.uncons hf1
  subst e2
  obtain ⟨x2, p2, c2⟩ := Onto.int t2 f2
  obtain ⟨t3, ts3, e3, f3, hf3⟩ := SuitsFields.uncons hf2
  subst e3
  obtain ⟨x3, p3, c3⟩ := Onto.int t3 f3
  have eN := SuitsFields.unnil hf3
  subst eN
  refine ⟨⟨x0, x1, x2, x3⟩, trivial, .obj ?_⟩
  exact .cons c0 <| .cons c1 <| .cons c2 <| .cons c3 <| .nil

theorem TerrainRestriction.onto : Onto (Declares false) (.cls (lit "TerrainRestriction")) (TerrainRestriction.object) (fun _ => True) := by
  intro t ht
  cases ht with
  | cls hd hf =>
  cases Declares.oneDef _ _ _ hd .TerrainRestriction
  obtain ⟨t0, ts0, e0, f0, hf0⟩ := SuitsFields.uncons hf
  subst e0
  obtain ⟨x0, p0, c0⟩ := (Onto.list Onto.float) t0 f0
  obtain ⟨t1, ts1, e1, f1, hf1⟩ := SuitsFields.uncons hf0
  subst e1
  obtain ⟨x1, p1, c1⟩ := (Onto.list TerrainPassGraphic.onto) t1 f1
  have eN := SuitsFields.unnil hf1
  subst eN
  refine ⟨⟨x0, x1⟩, trivial, .obj ?_⟩
  exact .cons c0 <| .cons c1 <| .nil

theorem FrameData.onto : Onto (Declares false) (.cls (lit "FrameData")) (FrameData.object) (fun _ => True) := by
  intro t ht
  cases ht with
  | cls hd hf =>
  cases Declares.oneDef _ _ _ hd .FrameData
  obtain ⟨t0, ts0, e0, f0, hf0⟩ := SuitsFields.uncons hf
  subst e0
  obtain ⟨x0, p0, c0⟩ := Onto.int t0 f0
  obtain ⟨t1, ts1, e1, f1, hf1⟩ := SuitsFields.uncons hf0
  subst e1
  obtain ⟨x1, p1, c1⟩ := Onto.int t1 f1
  obtain ⟨t2, ts2, e2, f2, hf2⟩ := SuitsFields.uncons hf1
  subst e2
  obtain ⟨x2, p2, c2⟩ := Onto.int t2 f2
  have eN := SuitsFields.unnil hf2
  subst eN
  refine ⟨⟨x0, x1, x2⟩, trivial, .obj ?_⟩
  exact .cons c0 <| .cons c1 <| .cons c2 <| .nil

theorem Terrain.onto : Onto (Declares false) (.cls (lit "Terrain")) (Terrain.object) (Terrain.Lengths) := by
  intro t ht
  cases ht with
  | cls hd hf =>
  cases Declares.oneDef _ _ _ hd .Terrain
  obtain ⟨t0, ts0, e0, f0, hf0⟩ := SuitsFields.uncons hf
  subst e0
  obtain ⟨x0, p0, c0⟩ := Onto.int t0 f0
  obtain ⟨t1, ts1, e1, f1, hf1⟩ := SuitsFields.uncons hf0
  subst e1
  obtain ⟨x1, p1, c1⟩ := Onto.int t1 f1
  obtain ⟨t2, ts2, e2, f2, hf2⟩ := SuitsFields.uncons hf1
  subst e2
  obtain ⟨x2, p2, c2⟩ := Onto.int t2 f2
  obtain ⟨t3, ts3, e3, f3, hf3⟩ := SuitsFields.uncons hf2
  subst e3
  obtain ⟨x3, p3, c3⟩ := Onto.int t3 f3
  obtain ⟨t4, ts4, e4, f4, hf4⟩ := SuitsFields.uncons hf3
  subst e4
  obtain ⟨x4, p4, c4⟩ := Onto.int t4 f4
  obtain ⟨t5, ts5, e5, f5, hf5⟩ := SuitsFields.uncons hf4
  subst e5
  obtain ⟨x5, p5, c5⟩ := Onto.str t5 f5
  obtain ⟨t6, ts6, e6, f6, hf6⟩ := SuitsFields.uncons hf5
  subst e6
  obtain ⟨x6, p6, c6⟩ := Onto.str t6 f6
  obtain ⟨t7, ts7, e7, f7, hf7⟩ := SuitsFields.uncons hf6
  subst e7
  obtain ⟨x7, p7, c7⟩ := Onto.int t7 f7
  obtain ⟨t8, ts8, e8, f8, hf8⟩ := SuitsFields.uncons hf7
  subst e8
  obtain ⟨x8, p8, c8⟩ := Onto.int t8 f8
  obtain ⟨t9, ts9, e9, f9, hf9⟩ := SuitsFields.uncons hf8
  subst e9
  obtain ⟨x9, p9, c9⟩ := Onto.int t9 f9
  obtain ⟨t10, ts10, e10, f10, hf10⟩ := SuitsFields.uncons hf9
  subst e10
  obtain ⟨x10, p10, c10⟩ := Onto.int t10 f10
  obtain ⟨t11, ts11, e11, f11, hf11⟩ := SuitsFields.uncons hf10
  subst e11
  obtain ⟨x11, p11, c11⟩ := Onto.int t11 f11
  obtain ⟨t12, ts12, e12, f12, hf12⟩ := SuitsFields.uncons hf11
  subst e12
  obtain ⟨x12, p12, c12⟩ := Onto.int t12 f12
  obtain ⟨t13, ts13, e13, f13, hf13⟩ := SuitsFields.uncons hf12
  subst e13
  obtain ⟨x13, p13, c13⟩ := Onto.int t13 f13
  obtain ⟨t14, ts14, e14, f14, hf14⟩ := SuitsFields.uncons hf13
  subst e14
  obtain ⟨x14, p14, c14⟩ := Onto.str t14 f14
  obtain ⟨t15, ts15, e15, f15, hf15⟩ := SuitsFields.uncons hf14
  subst e15
  obtain ⟨x15, p15, c15⟩ := (Onto.tuple (n := 3) rfl Onto.int) t15 f15
  obtain ⟨t16, ts16, e16, f16, hf16⟩ := SuitsFields.uncons hf15
  subst e16
  obtain ⟨x16, p16, c16⟩ := (Onto.tuple (n := 2) rfl Onto.int) t16 f16
  obtain ⟨t17, ts17, e17, f17, hf17⟩ := SuitsFields.uncons hf16
  subst e17
  obtain ⟨x17, p17, c17⟩ := Onto.int t17 f17
  obtain ⟨t18, ts18, e18, f18, hf18⟩ := SuitsFields.uncons hf17
  subst e18
  obtain ⟨x18, p18, c18⟩ := Onto.int t18 f18
  obtain ⟨t19, ts19, e19, f19, hf19⟩ := SuitsFields.uncons hf18
  subst e19
  obtain ⟨x19, p19, c19⟩ := Onto.int t19 f19
  obtain ⟨t20, ts20, e20, f20, hf20⟩ := SuitsFields.uncons hf19
  subst e20
  obtain ⟨x20, p20, c20⟩ := Onto.int t20 f20
  obtain ⟨t21, ts21, e21, f21, hf21⟩ := SuitsFields.uncons hf20
  subst e21
  obtain ⟨x21, p21, c21⟩ := Onto.int t21 f21
  obtain ⟨t22, ts22, e22, f22, hf22⟩ := SuitsFields.uncons hf21
  subst e22
  obtain ⟨x22, p22, c22⟩ := Onto.float t22 f22
  obtain ⟨t23, ts23, e23, f23, hf23⟩ := SuitsFields.uncons hf22
  subst e23
  obtain ⟨x23, p23, c23⟩ := Onto.float t23 f23
  obtain ⟨t24, ts24, e24, f24, hf24⟩ := SuitsFields.uncons hf23
  subst e24
  obtain ⟨x24, p24, c24⟩ := Onto.int t24 f24
  obtain ⟨t25, ts25, e25, f25, hf25⟩ := SuitsFields.uncons hf24
  subst e25
  obtain ⟨x25, p25, c25⟩ := Onto.int t25 f25
  obtain ⟨t26, ts26, e26, f26, hf26⟩ := SuitsFields.uncons hf25
  subst e26
  obtain ⟨x26, p26, c26⟩ := Onto.float t26 f26
  obtain ⟨t27, ts27, e27, f27, hf27⟩ := SuitsFields.uncons hf26
  subst e27
  obtain ⟨x27, p27, c27⟩ := Onto.int t27 f27
  obtain ⟨t28, ts28, e28, f28, hf28⟩ := SuitsFields.uncons hf27
  subst e28
  obtain ⟨x28, p28, c28⟩ := Onto.int t28 f28
  obtain ⟨t29, ts29, e29, f29, hf29⟩ := SuitsFields.uncons hf28
  subst e29
  obtain ⟨x29, p29, c29⟩ := (Onto.list FrameData.onto) t29 f29
  obtain ⟨t30, ts30, e30, f30, hf30⟩ := SuitsFields.uncons hf29
  subst e30
  obtain ⟨x30, p30, c30⟩ := Onto.int t30 f30
  obtain ⟨t31, ts31, e31, f31, hf31⟩ := SuitsFields.uncons hf30
  subst e31
  obtain ⟨x31, p31, c31⟩ := (Onto.tuple (n := 2) rfl Onto.int) t31 f31
  obtain ⟨t32, ts32, e32, f32, hf32⟩ := SuitsFields.uncons hf31
  subst e32
  obtain ⟨x32, p32, c32⟩ := (Onto.list Onto.int) t32 f32
  obtain ⟨t33, ts33, e33, f33, hf33⟩ := SuitsFields.uncons hf32
  subst e33
  obtain ⟨x33, p33, c33⟩ := (Onto.list Onto.int) t33 f33
  obtain ⟨t34, ts34, e34, f34, hf34⟩ := SuitsFields.uncons hf33
  subst e34
  obtain ⟨x34, p34, c34⟩ := (Onto.list Onto.int) t34 f34
  obtain ⟨t35, ts35, e35, f35, hf35⟩ := SuitsFields.uncons hf34
  subst e35
  obtain ⟨x35, p35, c35⟩ := (Onto.list Onto.int) t35 f35
  obtain ⟨t36, ts36, e36, f36, hf36⟩ := SuitsFields.uncons hf35
  subst e36
  obtain ⟨x36, p36, c36⟩ := Onto.int t36 f36
  obtain ⟨t37, ts37, e37, f37, hf37⟩ := SuitsFields.uncons hf36
  subst e37
  obtain ⟨x37, p37, c37⟩ := Onto.int t37 f37
  have eN := SuitsFields.unnil hf37
  subst eN
  refine ⟨⟨x0, x1, x2, x3, x4, x5, x6, x7, x8, x9, x10, x11, x12, x13, x14, x15, x16, x17, x18, x19, x20, x21, x22, x23, x24, x25, x26, x27, x28, x29, x30, x31, x32, x33, x34, x35, x36, x37⟩, ⟨p15.1, p16.1, p31.1⟩, .obj ?_⟩
  exact .cons c0 <| .cons c1 <| .cons c2 <| .cons c3 <| .cons c4 <| .cons c5 <| .cons c6 <| .cons c7 <| .cons c8 <| .cons c9 <| .cons c10 <| .cons c11 <| .cons c12 <| .cons c13 <| .cons c14 <| .cons c15 <| .cons c16 <| .cons c17 <| .cons c18 <| .cons c19 <| .cons c20 <| .cons c21 <| .cons c22 <| .cons c23 <| .cons c24 <| .cons c25 <| .cons c26 <| .cons c27 <| .cons c28 <| .cons c29 <| .cons c30 <| .cons c31 <| .cons c32 <| .cons c33 <| .cons c34 <| .cons c35 <| .cons c36 <| .cons c37 <| .nil

theorem TileSize.onto : Onto (Declares false) (.cls (lit "TileSize")) (TileSize.object) (fun _ => True) := by
  intro t ht
  cases ht with
  | cls hd hf =>
  cases Declares.oneDef _ _ _ hd .TileSize
  obtain ⟨t0, ts0, e0, f0, hf0⟩ := SuitsFields.uncons hf
  subst e0
  obtain ⟨x0, p0, c0⟩ := Onto.int t0 f0
  obtain ⟨t1, ts1, e1, f1, hf1⟩ := SuitsFields.uncons hf0
  subst e1
  obtain ⟨x1, p1, c1⟩ := Onto.int t1 f1
  obtain ⟨t2, ts2, e2, f2, hf2⟩ := SuitsFields.uncons hf1
  subst e2
  obtain ⟨x2, p2, c2⟩ := Onto.int t2 f2
  have eN := SuitsFields.unnil hf2
  subst eN
  refine ⟨⟨x0, x1, x2⟩, trivial, .obj ?_⟩
  exact .cons c0 <| .cons c1 <| .cons c2 <| .nil

theorem TerrainBlock.onto : Onto (Declares false) (.cls (lit "TerrainBlock")) (TerrainBlock.object) (TerrainBlock.Lengths) := by
  intro t ht
  cases ht with
  | cls hd hf =>
  cases Declares.oneDef _ _ _ hd .TerrainBlock
  obtain ⟨t0, ts0, e0, f0, hf0⟩ := SuitsFields.uncons hf
  subst e0
  obtain ⟨x0, p0, c0⟩ := Onto.int t0 f0
  obtain ⟨t1, ts1, e1, f1, hf1⟩ := SuitsFields.uncons hf0
  subst e1
  obtain ⟨x1, p1, c1⟩ := Onto.int t1 f1
  obtain ⟨t2, ts2, e2, f2, hf2⟩ := SuitsFields.uncons hf1
  subst e2
  obtain ⟨x2, p2, c2⟩ := Onto.int t2 f2
  obtain ⟨t3, ts3, e3, f3, hf3⟩ := SuitsFields.uncons hf2
  subst e3
  obtain ⟨x3, p3, c3⟩ := Onto.int t3 f3
  obtain ⟨t4, ts4, e4, f4, hf4⟩ := SuitsFields.uncons hf3
  subst e4
  obtain ⟨x4, p4, c4⟩ := Onto.int t4 f4
  obtain ⟨t5, ts5, e5, f5, hf5⟩ := SuitsFields.uncons hf4
  subst e5
  obtain ⟨x5, p5, c5⟩ := Onto.int t5 f5
  obtain ⟨t6, ts6, e6, f6, hf6⟩ := SuitsFields.uncons hf5
  subst e6
  obtain ⟨x6, p6, c6⟩ := (Onto.list TileSize.onto) t6 f6
  obtain ⟨t7, ts7, e7, f7, hf7⟩ := SuitsFields.uncons hf6
  subst e7
  obtain ⟨x7, p7, c7⟩ := Onto.int t7 f7
  obtain ⟨t8, ts8, e8, f8, hf8⟩ := SuitsFields.uncons hf7
  subst e8
  obtain ⟨x8, p8, c8⟩ := (Onto.list Terrain.onto) t8 f8
  obtain ⟨t9, ts9, e9, f9, hf9⟩ := SuitsFields.uncons hf8
  subst e9
  obtain ⟨x9, p9, c9⟩ := Onto.float t9 f9
  obtain ⟨t10, ts10, e10, f10, hf10⟩ := SuitsFields.uncons hf9
  subst e10
  obtain ⟨x10, p10, c10⟩ := Onto.float t10 f10
  obtain ⟨t11, ts11, e11, f11, hf11⟩ := SuitsFields.uncons hf10
  subst e11
  obtain ⟨x11, p11, c11⟩ := Onto.float t11 f11
  obtain ⟨t12, ts12, e12, f12, hf12⟩ := SuitsFields.uncons hf11
  subst e12
  obtain ⟨x12, p12, c12⟩ := Onto.float t12 f12
  obtain ⟨t13, ts13, e13, f13, hf13⟩ := SuitsFields.uncons hf12
  subst e13
  obtain ⟨x13, p13, c13⟩ := Onto.float t13 f13
  obtain ⟨t14, ts14, e14, f14, hf14⟩ := SuitsFields.uncons hf13
  subst e14
  obtain ⟨x14, p14, c14⟩ := Onto.float t14 f14
  obtain ⟨t15, ts15, e15, f15, hf15⟩ := SuitsFields.uncons hf14
  subst e15
  obtain ⟨x15, p15, c15⟩ := Onto.int t15 f15
  obtain ⟨t16, ts16, e16, f16, hf16⟩ := SuitsFields.uncons hf15
  subst e16
  obtain ⟨x16, p16, c16⟩ := Onto.int t16 f16
  obtain ⟨t17, ts17, e17, f17, hf17⟩ := SuitsFields.uncons hf16
  subst e17
  obtain ⟨x17, p17, c17⟩ := Onto.int t17 f17
  obtain ⟨t18, ts18, e18, f18, hf18⟩ := SuitsFields.uncons hf17
  subst e18
  obtain ⟨x18, p18, c18⟩ := Onto.int t18 f18
  obtain ⟨t19, ts19, e19, f19, hf19⟩ := SuitsFields.uncons hf18
  subst e19
  obtain ⟨x19, p19, c19⟩ := Onto.int t19 f19
  obtain ⟨t20, ts20, e20, f20, hf20⟩ := SuitsFields.uncons hf19
  subst e20
  obtain ⟨x20, p20, c20⟩ := Onto.int t20 f20
  obtain ⟨t21, ts21, e21, f21, hf21⟩ := SuitsFields.uncons hf20
  subst e21
  obtain ⟨x21, p21, c21⟩ := Onto.int t21 f21
  obtain ⟨t22, ts22, e22, f22, hf22⟩ := SuitsFields.uncons hf21
  subst e22
  obtain ⟨x22, p22, c22⟩ := Onto.int t22 f22
  obtain ⟨t23, ts23, e23, f23, hf23⟩ := SuitsFields.uncons hf22
  subst e23
  obtain ⟨x23, p23, c23⟩ := Onto.int t23 f23
  obtain ⟨t24, ts24, e24, f24, hf24⟩ := SuitsFields.uncons hf23
  subst e24
  obtain ⟨x24, p24, c24⟩ := Onto.int t24 f24
  obtain ⟨t25, ts25, e25, f25, hf25⟩ := SuitsFields.uncons hf24
  subst e25
  obtain ⟨x25, p25, c25⟩ := Onto.int t25 f25
  obtain ⟨t26, ts26, e26, f26, hf26⟩ := SuitsFields.uncons hf25
  subst e26
  obtain ⟨x26, p26, c26⟩ := Onto.int t26 f26
  obtain ⟨t27, ts27, e27, f27, hf27⟩ := SuitsFields.uncons hf26
  subst e27
  obtain ⟨x27, p27, c27⟩ := Onto.int t27 f27
  obtain ⟨t28, ts28, e28, f28, hf28⟩ := SuitsFields.uncons hf27
  subst e28
  obtain ⟨x28, p28, c28⟩ := Onto.int t28 f28
  obtain ⟨t29, ts29, e29, f29, hf29⟩ := SuitsFields.uncons hf28
  subst e29
  obtain ⟨x29, p29, c29⟩ := Onto.int t29 f29
  obtain ⟨t30, ts30, e30, f30, hf30⟩ := SuitsFields.uncons hf29
  subst e30
  obtain ⟨x30, p30, c30⟩ := Onto.int t30 f30
  obtain ⟨t31, ts31, e31, f31, hf31⟩ := SuitsFields.uncons hf30
  subst e31
  obtain ⟨x31, p31, c31⟩ := Onto.int t31 f31
  obtain ⟨t32, ts32, e32, f32, hf32⟩ := SuitsFields.uncons hf31
  subst e32
  obtain ⟨x32, p32, c32⟩ := Onto.int t32 f32
  obtain ⟨t33, ts33, e33, f33, hf33⟩ := SuitsFields.uncons hf32
  subst e33
  obtain ⟨x33, p33, c33⟩ := Onto.int t33 f33
  have eN := SuitsFields.unnil hf33
  subst eN
  refine ⟨⟨x0, x1, x2, x3, x4, x5, x6, x7, x8, x9, x10, x11, x12, x13, x14, x15, x16, x17, x18, x19, x20, x21, x22, x23, x24, x25, x26, x27, x28, x29, x30, x31, x32, x33⟩, ⟨p8⟩, .obj ?_⟩
  exact .cons c0 <| .cons c1 <| .cons c2 <| .cons c3 <| .cons c4 <| .cons c5 <| .cons c6 <| .cons c7 <| .cons c8 <| .cons c9 <| .cons c10 <| .cons c11 <| .cons c12 <| .cons c13 <| .cons c14 <| .cons c15 <| .cons c16 <| .cons c17 <| .cons c18 <| .cons c19 <| .cons c20 <| .cons c21 <| .cons c22 <| .cons c23 <| .cons c24 <| .cons c25 <| .cons c26 <| .cons c27 <| .cons c28 <| .cons c29 <| .cons c30 <| .cons c31 <| .cons c32 <| .cons c33 <| .nil

theorem MapUnit.onto : Onto (Declares false) (.cls (lit "MapUnit")) (MapUnit.object) (fun _ => True) := by
  intro t ht
  cases ht with
  | cls hd hf =>
  cases Declares.oneDef _ _ _ hd .MapUnit
  obtain ⟨t0, ts0, e0, f0, hf0⟩ := SuitsFields.uncons hf
  subst e0
  obtain ⟨x0, p0, c0⟩ := Onto.int t0 f0
  obtain ⟨t1, ts1, e1, f1, hf1⟩ := SuitsFields.uncons hf0
  subst e1
  obtain ⟨x1, p1, c1⟩ := Onto.int t1 f1
  obtain ⟨t2, ts2, e2, f2, hf2⟩ := SuitsFields.uncons hf1
  subst e2
  obtain ⟨x2, p2, c2⟩ := Onto.int t2 f2
  obtain ⟨t3, ts3, e3, f3, hf3⟩ := SuitsFields.uncons hf2
  subst e3
  obtain ⟨x3, p3, c3⟩ := Onto.int t3 f3
  obtain ⟨t4, ts4, e4, f4, hf4⟩ := SuitsFields.uncons hf3
  subst e4
  obtain ⟨x4, p4, c4⟩ := Onto.int t4 f4
  obtain ⟨t5, ts5, e5, f5, hf5⟩ := SuitsFields.uncons hf4
  subst e5
  obtain ⟨x5, p5, c5⟩ := Onto.int t5 f5
  obtain ⟨t6, ts6, e6, f6, hf6⟩ := SuitsFields.uncons hf5
  subst e6
  obtain ⟨x6, p6, c6⟩ := Onto.int t6 f6
  obtain ⟨t7, ts7, e7, f7, hf7⟩ := SuitsFields.uncons hf6
  subst e7
  obtain ⟨x7, p7, c7⟩ := Onto.int t7 f7
  obtain ⟨t8, ts8, e8, f8, hf8⟩ := SuitsFields.uncons hf7
  subst e8
  obtain ⟨x8, p8, c8⟩ := Onto.int t8 f8
  obtain ⟨t9, ts9, e9, f9, hf9⟩ := SuitsFields.uncons hf8
  subst e9
  obtain ⟨x9, p9, c9⟩ := Onto.int t9 f9
  obtain ⟨t10, ts10, e10, f10, hf10⟩ := SuitsFields.uncons hf9
  subst e10
  obtain ⟨x10, p10, c10⟩ := Onto.int t10 f10
  obtain ⟨t11, ts11, e11, f11, hf11⟩ := SuitsFields.uncons hf10
  subst e11
  obtain ⟨x11, p11, c11⟩ := Onto.int t11 f11
  obtain ⟨t12, ts12, e12, f12, hf12⟩ := SuitsFields.uncons hf11
  subst e12
  obtain ⟨x12, p12, c12⟩ := Onto.int t12 f12
  have eN := SuitsFields.unnil hf12
  subst eN
  refine ⟨⟨x0, x1, x2, x3, x4, x5, x6, x7, x8, x9, x10, x11, x12⟩, trivial, .obj ?_⟩
  exact .cons c0 <| .cons c1 <| .cons c2 <| .cons c3 <| .cons c4 <| .cons c5 <| .cons c6 <| .cons c7 <| .cons c8 <| .cons c9 <| .cons c10 <| .cons c11 <| .cons c12 <| .nil

theorem MapTerrain.onto : Onto (Declares false) (.cls (lit "MapTerrain")) (MapTerrain.object) (fun _ => True) := by
  intro t ht
  cases ht with
  | cls hd hf =>
  cases Declares.oneDef _ _ _ hd .MapTerrain
  obtain ⟨t0, ts0, e0, f0, hf0⟩ := SuitsFields.uncons hf
  subst e0
  obtain ⟨x0, p0, c0⟩ := Onto.int t0 f0
  obtain ⟨t1, ts1, e1, f1, hf1⟩ := SuitsFields.uncons hf0
  subst e1
  obtain ⟨x1, p1, c1⟩ := Onto.int t1 f1
  obtain ⟨t2, ts2, e2, f2, hf2⟩ := SuitsFields.uncons hf1
  subst e2
  obtain ⟨x2, p2, c2⟩ := Onto.int t2 f2
  obtain ⟨t3, ts3, e3, f3, hf3⟩ := SuitsFields.uncons hf2
  subst e3
  obtain ⟨x3, p3, c3⟩ := Onto.int t3 f3
  obtain ⟨t4, ts4, e4, f4, hf4⟩ := SuitsFields.uncons hf3
  subst e4
  obtain ⟨x4, p4, c4⟩ := Onto.int t4 f4
  obtain ⟨t5, ts5, e5, f5, hf5⟩ := SuitsFields.uncons hf4
  subst e5
  obtain ⟨x5, p5, c5⟩ := Onto.int t5 f5
  have eN := SuitsFields.unnil hf5
  subst eN
  refine ⟨⟨x0, x1, x2, x3, x4, x5⟩, trivial, .obj ?_⟩
  exact .cons c0 <| .cons c1 <| .cons c2 <| .cons c3 <| .cons c4 <| .cons c5 <| .nil

theorem MapLand.onto : Onto (Declares false) (.cls (lit "MapLand")) (MapLand.object) (fun _ => True) := by
  intro t ht
  cases ht with
  | cls hd hf =>
  cases Declares.oneDef _ _ _ hd .MapLand
  obtain ⟨t0, ts0, e0, f0, hf0⟩ := SuitsFields.uncons hf
  subst e0
  obtain ⟨x0, p0, c0⟩ := Onto.int t0 f0
  obtain ⟨t1, ts1, e1, f1, hf1⟩ := SuitsFields.uncons hf0
  subst e1
  obtain ⟨x1, p1, c1⟩ := Onto.int t1 f1
  obtain ⟨t2, ts2, e2, f2, hf2⟩ := SuitsFields.uncons hf1
  subst e2
  obtain ⟨x2, p2, c2⟩ := Onto.int t2 f2
  obtain ⟨t3, ts3, e3, f3, hf3⟩ := SuitsFields.uncons hf2
  subst e3
  obtain ⟨x3, p3, c3⟩ := Onto.int t3 f3
  obtain ⟨t4, ts4, e4, f4, hf4⟩ := SuitsFields.uncons hf3
  subst e4
  obtain ⟨x4, p4, c4⟩ := Onto.int t4 f4
  obtain ⟨t5, ts5, e5, f5, hf5⟩ := SuitsFields.uncons hf4
  subst e5
  obtain ⟨x5, p5, c5⟩ := Onto.int t5 f5
  obtain ⟨t6, ts6, e6, f6, hf6⟩ := SuitsFields.uncons hf5
  subst e6
  obtain ⟨x6, p6, c6⟩ := Onto.int t6 f6
  obtain ⟨t7, ts7, e7, f7, hf7⟩ := SuitsFields.uncons hf6
  subst e7
  obtain ⟨x7, p7, c7⟩ := Onto.int t7 f7
  obtain ⟨t8, ts8, e8, f8, hf8⟩ := SuitsFields.uncons hf7
  subst e8
  obtain ⟨x8, p8, c8⟩ := Onto.int t8 f8
  obtain ⟨t9, ts9, e9, f9, hf9⟩ := SuitsFields.uncons hf8
  subst e9
  obtain ⟨x9, p9, c9⟩ := Onto.int t9 f9
  obtain ⟨t10, ts10, e10, f10, hf10⟩ := SuitsFields.uncons hf9
  subst e10
  obtain ⟨x10, p10, c10⟩ := Onto.int t10 f10
  obtain ⟨t11, ts11, e11, f11, hf11⟩ := SuitsFields.uncons hf10
  subst e11
  obtain ⟨x11, p11, c11⟩ := Onto.int t11 f11
  obtain ⟨t12, ts12, e12, f12, hf12⟩ := SuitsFields.uncons hf11
  subst e12
  obtain ⟨x12, p12, c12⟩ := Onto.int t12 f12
  obtain ⟨t13, ts13, e13, f13, hf13⟩ := SuitsFields.uncons hf12
  subst e13
  obtain ⟨x13, p13, c13⟩ := Onto.int t13 f13
  obtain ⟨t14, ts14, e14, f14, hf14⟩ := SuitsFields.uncons hf13
  subst e14
  obtain ⟨x14, p14, c14⟩ := Onto.int t14 f14
  have eN := SuitsFields.unnil hf14
  subst eN
  refine ⟨⟨x0, x1, x2, x3, x4, x5, x6, x7, x8, x9, x10, x11, x12, x13, x14⟩, trivial, .obj ?_⟩
  exact .cons c0 <| .cons c1 <| .cons c2 <| .cons c3 <| .cons c4 <| .cons c5 <| .cons c6 <| .cons c7 <| .cons c8 <| .cons c9 <| .cons c10 <| .cons c11 <| .cons c12 <| .cons c13 <| .cons c14 <| .nil

theorem MapElevation.onto : Onto (Declares false) (.cls (lit "MapElevation")) (MapElevation.object) (fun _ => True) := by
  intro t ht
  cases ht with
  | cls hd hf =>
  cases Declares.oneDef _ _ _ hd .MapElevation
  obtain ⟨t0, ts0, e0, f0, hf0⟩ := SuitsFields.uncons hf
  subst e0
  obtain ⟨x0, p0, c0⟩ := Onto.int t0 f0
  obtain ⟨t1, ts1, e1, f1, hf1⟩ := SuitsFields.uncons hf0
  subst e1
  obtain ⟨x1, p1, c1⟩ := Onto.int t1 f1
  obtain ⟨t2, ts2, e2, f2, hf2⟩ := SuitsFields.uncons hf1
  subst e2
  obtain ⟨x2, p2, c2⟩ := Onto.int t2 f2
  obtain ⟨t3, ts3, e3, f3, hf3⟩ := SuitsFields.uncons hf2
  subst e3
  obtain ⟨x3, p3, c3⟩ := Onto.int t3 f3
  obtain ⟨t4, ts4, e4, f4, hf4⟩ := SuitsFields.uncons hf3
  subst e4
  obtain ⟨x4, p4, c4⟩ := Onto.int t4 f4
  obtain ⟨t5, ts5, e5, f5, hf5⟩ := SuitsFields.uncons hf4
  subst e5
  obtain ⟨x5, p5, c5⟩ := Onto.int t5 f5
  have eN := SuitsFields.unnil hf5
  subst eN
  refine ⟨⟨x0, x1, x2, x3, x4, x5⟩, trivial, .obj ?_⟩
  exact .cons c0 <| .cons c1 <| .cons c2 <| .cons c3 <| .cons c4 <| .cons c5 <| .nil

theorem MapInfo.onto : Onto (Declares false) (.cls (lit "MapInfo")) (MapInfo.object) (fun _ => True) := by
  intro t ht
  cases ht with
  | cls hd hf =>
  cases Declares.oneDef _ _ _ hd .MapInfo
  obtain ⟨t0, ts0, e0, f0, hf0⟩ := SuitsFields.uncons hf
  subst e0
  obtain ⟨x0, p0, c0⟩ := Onto.int t0 f0
  obtain ⟨t1, ts1, e1, f1, hf1⟩ := SuitsFields.uncons hf0
  subst e1
  obtain ⟨x1, p1, c1⟩ := Onto.int t1 f1
  obtain ⟨t2, ts2, e2, f2, hf2⟩ := SuitsFields.uncons hf1
  subst e2
  obtain ⟨x2, p2, c2⟩ := Onto.int t2 f2
  obtain ⟨t3, ts3, e3, f3, hf3⟩ := SuitsFields.uncons hf2
  subst e3
  obtain ⟨x3, p3, c3⟩ := Onto.int t3 f3
  obtain ⟨t4, ts4, e4, f4, hf4⟩ := SuitsFields.uncons hf3
  subst e4
  obtain ⟨x4, p4, c4⟩ := Onto.int t4 f4
  obtain ⟨t5, ts5, e5, f5, hf5⟩ := SuitsFields.uncons hf4
  subst e5
  obtain ⟨x5, p5, c5⟩ := Onto.int t5 f5
  obtain ⟨t6, ts6, e6, f6, hf6⟩ := SuitsFields.uncons hf5
  subst e6
  obtain ⟨x6, p6, c6⟩ := Onto.int t6 f6
  obtain ⟨t7, ts7, e7, f7, hf7⟩ := SuitsFields.uncons hf6
  subst e7
  obtain ⟨x7, p7, c7⟩ := Onto.int t7 f7
  obtain ⟨t8, ts8, e8, f8, hf8⟩ := SuitsFields.uncons hf7
  subst e8
  obtain ⟨x8, p8, c8⟩ := Onto.int t8 f8
  obtain ⟨t9, ts9, e9, f9, hf9⟩ := SuitsFields.uncons hf8
  subst e9
  obtain ⟨x9, p9, c9⟩ := Onto.int t9 f9
  obtain ⟨t10, ts10, e10, f10, hf10⟩ := SuitsFields.uncons hf9
  subst e10
  obtain ⟨x10, p10, c10⟩ := Onto.int t10 f10
  obtain ⟨t11, ts11, e11, f11, hf11⟩ := SuitsFields.uncons hf10
  subst e11
  obtain ⟨x11, p11, c11⟩ := Onto.int t11 f11
  obtain ⟨t12, ts12, e12, f12, hf12⟩ := SuitsFields.uncons hf11
  subst e12
  obtain ⟨x12, p12, c12⟩ := (Onto.list MapLand.onto) t12 f12
  obtain ⟨t13, ts13, e13, f13, hf13⟩ := SuitsFields.uncons hf12
  subst e13
  obtain ⟨x13, p13, c13⟩ := Onto.int t13 f13
  obtain ⟨t14, ts14, e14, f14, hf14⟩ := SuitsFields.uncons hf13
  subst e14
  obtain ⟨x14, p14, c14⟩ := Onto.int t14 f14
  obtain ⟨t15, ts15, e15, f15, hf15⟩ := SuitsFields.uncons hf14
  subst e15
  obtain ⟨x15, p15, c15⟩ := (Onto.list MapTerrain.onto) t15 f15
  obtain ⟨t16, ts16, e16, f16, hf16⟩ := SuitsFields.uncons hf15
  subst e16
  obtain ⟨x16, p16, c16⟩ := Onto.int t16 f16
  obtain ⟨t17, ts17, e17, f17, hf17⟩ := SuitsFields.uncons hf16
  subst e17
  obtain ⟨x17, p17, c17⟩ := Onto.int t17 f17
  obtain ⟨t18, ts18, e18, f18, hf18⟩ := SuitsFields.uncons hf17
  subst e18
  obtain ⟨x18, p18, c18⟩ := (Onto.list MapUnit.onto) t18 f18
  obtain ⟨t19, ts19, e19, f19, hf19⟩ := SuitsFields.uncons hf18
  subst e19
  obtain ⟨x19, p19, c19⟩ := Onto.int t19 f19
  obtain ⟨t20, ts20, e20, f20, hf20⟩ := SuitsFields.uncons hf19
  subst e20
  obtain ⟨x20, p20, c20⟩ := Onto.int t20 f20
  obtain ⟨t21, ts21, e21, f21, hf21⟩ := SuitsFields.uncons hf20
  subst e21
  obtain ⟨x21, p21, c21⟩ := (Onto.list MapElevation.onto) t21 f21
  have eN := SuitsFields.unnil hf21
  subst eN
  refine ⟨⟨x0, x1, x2, x3, x4, x5, x6, x7, x8, x9, x10, x11, x12, x13, x14, x15, x16, x17, x18, x19, x20, x21⟩, trivial, .obj ?_⟩
  exact .cons c0 <| .cons c1 <| .cons c2 <| .cons c3 <| .cons c4 <| .cons c5 <| .cons c6 <| .cons c7 <| .cons c8 <| .cons c9 <| .cons c10 <| .cons c11 <| .cons c12 <| .cons c13 <| .cons c14 <| .cons c15 <| .cons c16 <| .cons c17 <| .cons c18 <| .cons c19 <| .cons c20 <| .cons c21 <| .nil

theorem RandomMaps.onto : Onto (Declares false) (.cls (lit "RandomMaps")) (RandomMaps.object) (fun _ => True) := by
  intro t ht
  cases ht with
  | cls hd hf =>
  cases Declares.oneDef _ _ _ hd .RandomMaps
  obtain ⟨t0, ts0, e0, f0, hf0⟩ := SuitsFields.uncons hf
  subst e0
  obtain ⟨x0, p0, c0⟩ := Onto.int t0 f0
  obtain ⟨t1, ts1, e1, f1, hf1⟩ := SuitsFields.uncons hf0
  subst e1
  obtain ⟨x1, p1, c1⟩ := (Onto.list MapInfo.onto) t1 f1
  obtain ⟨t2, ts2, e2, f2, hf2⟩ := SuitsFields.uncons hf1
  subst e2
  obtain ⟨x2, p2, c2⟩ := (Onto.list MapInfo.onto) t2 f2
  have eN := SuitsFields.unnil hf2
  subst eN
  refine ⟨⟨x0, x1, x2⟩, trivial, .obj ?_⟩
  exact .cons c0 <| .cons c1 <| .cons c2 <| .nil

theorem ResearchResourceCost.onto : Onto (Declares false) (.cls (lit "ResearchResourceCost")) (ResearchResourceCost.object) (fun _ => True) := by
  intro t ht
  cases ht with
  | cls hd hf =>
  cases Declares.oneDef _ _ _ hd .ResearchResourceCost
  obtain ⟨t0, ts0, e0, f0, hf0⟩ := SuitsFields.uncons hf
  subst e0
  obtain ⟨x0, p0, c0⟩ := Onto.int t0 f0
  obtain ⟨t1, ts1, e1, f1, hf1⟩ := SuitsFields.uncons hf0
  subst e1
  obtain ⟨x1, p1, c1⟩ := Onto.int t1 f1
  obtain ⟨t2, ts2, e2, f2, hf2⟩ := SuitsFields.uncons hf1
  subst e2
  obtain ⟨x2, p2, c2⟩ := Onto.int t2 f2
  have eN := SuitsFields.unnil hf2
  subst eN
  refine ⟨⟨x0, x1, x2⟩, trivial, .obj ?_⟩
  exact .cons c0 <| .cons c1 <| .cons c2 <| .nil

theorem ResearchLocation.onto : Onto (Declares false) (.cls (lit "ResearchLocation")) (ResearchLocation.object) (fun _ => True) := by
  intro t ht
  cases ht with
  | cls hd hf =>
  cases Declares.oneDef _ _ _ hd .ResearchLocation
  obtain ⟨t0, ts0, e0, f0, hf0⟩ := SuitsFields.uncons hf
  subst e0
  obtain ⟨x0, p0, c0⟩ := Onto.int t0 f0
  obtain ⟨t1, ts1, e1, f1, hf1⟩ := SuitsFields.uncons hf0
  subst e1
  obtain ⟨x1, p1, c1⟩ := Onto.int t1 f1
  obtain ⟨t2, ts2, e2, f2, hf2⟩ := SuitsFields.uncons hf1
  subst e2
  obtain ⟨x2, p2, c2⟩ := Onto.int t2 f2
  obtain ⟨t3, ts3, e3, f3, hf3⟩ := SuitsFields.uncons hf2
  subst e3
  obtain ⟨x3, p3, c3⟩ := Onto.int t3 f3
  have eN := SuitsFields.unnil hf3
  subst eN
  refine ⟨⟨x0, x1, x2, x3⟩, trivial, .obj ?_⟩
  exact .cons c0 <| .cons c1 <| .cons c2 <| .cons c3 <| .nil

theorem Tech.onto : Onto (Declares false) (.cls (lit "Tech")) (Tech.object) (Tech.Lengths) := by
  intro t ht
  cases ht with
  | cls hd hf =>
  cases Declares.oneDef _ _ _ hd .Tech
  obtain ⟨t0, ts0, e0, f0, hf0⟩ := SuitsFields.uncons hf
  subst e0
  obtain ⟨x0, p0, c0⟩ := (Onto.tuple (n := 6) rfl Onto.int) t0 f0
  obtain ⟨t1, ts1, e1, f1, hf1⟩ := SuitsFields.uncons hf0
  subst e1
  obtain ⟨x1, p1, c1⟩ := (Onto.tuple (n := 3) rfl ResearchResourceCost.onto) t1 f1
  obtain ⟨t2, ts2, e2, f2, hf2⟩ := SuitsFields.uncons hf1
  subst e2
  obtain ⟨x2, p2, c2⟩ := Onto.int t2 f2
  obtain ⟨t3, ts3, e3, f3, hf3⟩ := SuitsFields.uncons hf2
  subst e3
  obtain ⟨x3, p3, c3⟩ := Onto.int t3 f3
  obtain ⟨t4, ts4, e4, f4, hf4⟩ := SuitsFields.uncons hf3
  subst e4
  obtain ⟨x4, p4, c4⟩ := Onto.int t4 f4
  obtain ⟨t5, ts5, e5, f5, hf5⟩ := SuitsFields.uncons hf4
  subst e5
  obtain ⟨x5, p5, c5⟩ := Onto.int t5 f5
  obtain ⟨t6, ts6, e6, f6, hf6⟩ := SuitsFields.uncons hf5
  subst e6
  obtain ⟨x6, p6, c6⟩ := Onto.int t6 f6
  obtain ⟨t7, ts7, e7, f7, hf7⟩ := SuitsFields.uncons hf6
  subst e7
  obtain ⟨x7, p7, c7⟩ := Onto.int t7 f7
  obtain ⟨t8, ts8, e8, f8, hf8⟩ := SuitsFields.uncons hf7
  subst e8
  obtain ⟨x8, p8, c8⟩ := Onto.int t8 f8
  obtain ⟨t9, ts9, e9, f9, hf9⟩ := SuitsFields.uncons hf8
  subst e9
  obtain ⟨x9, p9, c9⟩ := Onto.int t9 f9
  obtain ⟨t10, ts10, e10, f10, hf10⟩ := SuitsFields.uncons hf9
  subst e10
  obtain ⟨x10, p10, c10⟩ := Onto.int t10 f10
  obtain ⟨t11, ts11, e11, f11, hf11⟩ := SuitsFields.uncons hf10
  subst e11
  obtain ⟨x11, p11, c11⟩ := Onto.int t11 f11
  obtain ⟨t12, ts12, e12, f12, hf12⟩ := SuitsFields.uncons hf11
  subst e12
  obtain ⟨x12, p12, c12⟩ := Onto.str t12 f12
  obtain ⟨t13, ts13, e13, f13, hf13⟩ := SuitsFields.uncons hf12
  subst e13
  obtain ⟨x13, p13, c13⟩ := Onto.int t13 f13
  obtain ⟨t14, ts14, e14, f14, hf14⟩ := SuitsFields.uncons hf13
  subst e14
  obtain ⟨x14, p14, c14⟩ := (Onto.list ResearchLocation.onto) t14 f14
  have eN := SuitsFields.unnil hf14
  subst eN
  refine ⟨⟨x0, x1, x2, x3, x4, x5, x6, x7, x8, x9, x10, x11, x12, x13, x14⟩, ⟨p0.1, p1.1⟩, .obj ?_⟩
  exact .cons c0 <| .cons c1 <| .cons c2 <| .cons c3 <| .cons c4 <| .cons c5 <| .cons c6 <| .cons c7 <| .cons c8 <| .cons c9 <| .cons c10 <| .cons c11 <| .cons c12 <| .cons c13 <| .cons c14 <| .nil

theorem Common.onto : Onto (Declares false) (.cls (lit "Common")) (Common.object) (Common.Lengths) := by
  intro t ht
  cases ht with
  | cls hd hf =>
  cases Declares.oneDef _ _ _ hd .Common
  obtain ⟨t0, ts0, e0, f0, hf0⟩ := SuitsFields.uncons hf
  subst e0
  obtain ⟨x0, p0, c0⟩ := Onto.int t0 f0
  obtain ⟨t1, ts1, e1, f1, hf1⟩ := SuitsFields.uncons hf0
  subst e1
  obtain ⟨x1, p1, c1⟩ := (Onto.tuple (n := 10) rfl Onto.int) t1 f1
  obtain ⟨t2, ts2, e2, f2, hf2⟩ := SuitsFields.uncons hf1
  subst e2
  obtain ⟨x2, p2, c2⟩ := (Onto.tuple (n := 10) rfl Onto.int) t2 f2
  have eN := SuitsFields.unnil hf2
  subst eN
  refine ⟨⟨x0, x1, x2⟩, ⟨p1.1, p2.1⟩, .obj ?_⟩
  exact .cons c0 <| .cons c1 <| .cons c2 <| .nil

theorem TechTreeAge.onto : Onto (Declares false) (.cls (lit "TechTreeAge")) (TechTreeAge.object) (TechTreeAge.Lengths) := by
  intro t ht
  cases ht with
  | cls hd hf =>
  cases Declares.oneDef _ _ _ hd .TechTreeAge
  obtain ⟨t0, ts0, e0, f0, hf0⟩ := SuitsFields.uncons hf
  subst e0
  obtain ⟨x0, p0, c0⟩ := Onto.int t0 f0
  obtain ⟨t1, ts1, e1, f1, hf1⟩ := SuitsFields.uncons hf0
  subst e1
  obtain ⟨x1, p1, c1⟩ := Onto.int t1 f1
  obtain ⟨t2, ts2, e2, f2, hf2⟩ := SuitsFields.uncons hf1
  subst e2
  obtain ⟨x2, p2, c2⟩ := (Onto.list Onto.int) t2 f2
  obtain ⟨t3, ts3, e3, f3, hf3⟩ := SuitsFields.uncons hf2
  subst e3
  obtain ⟨x3, p3, c3⟩ := (Onto.list Onto.int) t3 f3
  obtain ⟨t4, ts4, e4, f4, hf4⟩ := SuitsFields.uncons hf3
  subst e4
  obtain ⟨x4, p4, c4⟩ := (Onto.list Onto.int) t4 f4
  obtain ⟨t5, ts5, e5, f5, hf5⟩ := SuitsFields.uncons hf4
  subst e5
  obtain ⟨x5, p5, c5⟩ := Common.onto t5 f5
  obtain ⟨t6, ts6, e6, f6, hf6⟩ := SuitsFields.uncons hf5
  subst e6
  obtain ⟨x6, p6, c6⟩ := Onto.int t6 f6
  obtain ⟨t7, ts7, e7, f7, hf7⟩ := SuitsFields.uncons hf6
  subst e7
  obtain ⟨x7, p7, c7⟩ := (Onto.tuple (n := 10) rfl Onto.int) t7 f7
  obtain ⟨t8, ts8, e8, f8, hf8⟩ := SuitsFields.uncons hf7
  subst e8
  obtain ⟨x8, p8, c8⟩ := (Onto.tuple (n := 10) rfl Onto.int) t8 f8
  obtain ⟨t9, ts9, e9, f9, hf9⟩ := SuitsFields.uncons hf8
  subst e9
  obtain ⟨x9, p9, c9⟩ := Onto.int t9 f9
  obtain ⟨t10, ts10, e10, f10, hf10⟩ := SuitsFields.uncons hf9
  subst e10
  obtain ⟨x10, p10, c10⟩ := Onto.int t10 f10
  have eN := SuitsFields.unnil hf10
  subst eN
  refine ⟨⟨x0, x1, x2, x3, x4, x5, x6, x7, x8, x9, x10⟩, ⟨p5, p7.1, p8.1⟩, .obj ?_⟩
  exact .cons c0 <| .cons c1 <| .cons c2 <| .cons c3 <| .cons c4 <| .cons c5 <| .cons c6 <| .cons c7 <| .cons c8 <| .cons c9 <| .cons c10 <| .nil

theorem BuildingConnection.onto : Onto (Declares false) (.cls (lit "BuildingConnection")) (BuildingConnection.object) (BuildingConnection.Lengths) := by
  intro t ht
  cases ht with
  | cls hd hf =>
  cases Declares.oneDef _ _ _ hd .BuildingConnection
  obtain ⟨t0, ts0, e0, f0, hf0⟩ := SuitsFields.uncons hf
  subst e0
  obtain ⟨x0, p0, c0⟩ := Onto.int t0 f0
  obtain ⟨t1, ts1, e1, f1, hf1⟩ := SuitsFields.uncons hf0
  subst e1
  obtain ⟨x1, p1, c1⟩ := Onto.int t1 f1
  obtain ⟨t2, ts2, e2, f2, hf2⟩ := SuitsFields.uncons hf1
  subst e2
  obtain ⟨x2, p2, c2⟩ := (Onto.list Onto.int) t2 f2
  obtain ⟨t3, ts3, e3, f3, hf3⟩ := SuitsFields.uncons hf2
  subst e3
  obtain ⟨x3, p3, c3⟩ := (Onto.list Onto.int) t3 f3
  obtain ⟨t4, ts4, e4, f4, hf4⟩ := SuitsFields.uncons hf3
  subst e4
  obtain ⟨x4, p4, c4⟩ := (Onto.list Onto.int) t4 f4
  obtain ⟨t5, ts5, e5, f5, hf5⟩ := SuitsFields.uncons hf4
  subst e5
  obtain ⟨x5, p5, c5⟩ := Common.onto t5 f5
  obtain ⟨t6, ts6, e6, f6, hf6⟩ := SuitsFields.uncons hf5
  subst e6
  obtain ⟨x6, p6, c6⟩ := Onto.int t6 f6
  obtain ⟨t7, ts7, e7, f7, hf7⟩ := SuitsFields.uncons hf6
  subst e7
  obtain ⟨x7, p7, c7⟩ := (Onto.tuple (n := 5) rfl Onto.int) t7 f7
  obtain ⟨t8, ts8, e8, f8, hf8⟩ := SuitsFields.uncons hf7
  subst e8
  obtain ⟨x8, p8, c8⟩ := (Onto.tuple (n := 5) rfl Onto.int) t8 f8
  obtain ⟨t9, ts9, e9, f9, hf9⟩ := SuitsFields.uncons hf8
  subst e9
  obtain ⟨x9, p9, c9⟩ := Onto.int t9 f9
  obtain ⟨t10, ts10, e10, f10, hf10⟩ := SuitsFields.uncons hf9
  subst e10
  obtain ⟨x10, p10, c10⟩ := Onto.int t10 f10
  have eN := SuitsFields.unnil hf10
  subst eN
  refine ⟨⟨x0, x1, x2, x3, x4, x5, x6, x7, x8, x9, x10⟩, ⟨p5, p7.1, p8.1⟩, .obj ?_⟩
  exact .cons c0 <| .cons c1 <| .cons c2 <| .cons c3 <| .cons c4 <| .cons c5 <| .cons c6 <| .cons c7 <| .cons c8 <| .cons c9 <| .cons c10 <| .nil

theorem UnitConnection.onto : Onto (Declares false) (.cls (lit "UnitConnection")) (UnitConnection.object) (UnitConnection.Lengths) := by
  intro t ht
  cases ht with
  | cls hd hf =>
  cases Declares.oneDef _ _ _ hd .UnitConnection
  obtain ⟨t0, ts0, e0, f0, hf0⟩ := SuitsFields.uncons hf
  subst e0
  obtain ⟨x0, p0, c0⟩ := Onto.int t0 f0
  obtain ⟨t1, ts1, e1, f1, hf1⟩ := SuitsFields.uncons hf0
  subst e1
  obtain ⟨x1, p1, c1⟩ := Onto.int t1 f1
  obtain ⟨t2, ts2, e2, f2, hf2⟩ := SuitsFields.uncons hf1
  subst e2
  obtain ⟨x2, p2, c2⟩ := Onto.int t2 f2
  obtain ⟨t3, ts3, e3, f3, hf3⟩ := SuitsFields.uncons hf2
  subst e3
  obtain ⟨x3, p3, c3⟩ := Common.onto t3 f3
  obtain ⟨t4, ts4, e4, f4, hf4⟩ := SuitsFields.uncons hf3
  subst e4
  obtain ⟨x4, p4, c4⟩ := Onto.int t4 f4
  obtain ⟨t5, ts5, e5, f5, hf5⟩ := SuitsFields.uncons hf4
  subst e5
  obtain ⟨x5, p5, c5⟩ := (Onto.list Onto.int) t5 f5
  obtain ⟨t6, ts6, e6, f6, hf6⟩ := SuitsFields.uncons hf5
  subst e6
  obtain ⟨x6, p6, c6⟩ := Onto.int t6 f6
  obtain ⟨t7, ts7, e7, f7, hf7⟩ := SuitsFields.uncons hf6
  subst e7
  obtain ⟨x7, p7, c7⟩ := Onto.int t7 f7
  obtain ⟨t8, ts8, e8, f8, hf8⟩ := SuitsFields.uncons hf7
  subst e8
  obtain ⟨x8, p8, c8⟩ := Onto.int t8 f8
  obtain ⟨t9, ts9, e9, f9, hf9⟩ := SuitsFields.uncons hf8
  subst e9
  obtain ⟨x9, p9, c9⟩ := Onto.int t9 f9
  have eN := SuitsFields.unnil hf9
  subst eN
  refine ⟨⟨x0, x1, x2, x3, x4, x5, x6, x7, x8, x9⟩, ⟨p3⟩, .obj ?_⟩
  exact .cons c0 <| .cons c1 <| .cons c2 <| .cons c3 <| .cons c4 <| .cons c5 <| .cons c6 <| .cons c7 <| .cons c8 <| .cons c9 <| .nil

theorem ResearchConnection.onto : Onto (Declares false) (.cls (lit "ResearchConnection")) (ResearchConnection.object) (ResearchConnection.Lengths) := by
  intro t ht
  cases ht with
  | cls hd hf =>
  cases Declares.oneDef _ _ _ hd .ResearchConnection
  obtain ⟨t0, ts0, e0, f0, hf0⟩ := SuitsFields.uncons hf
  subst e0
  obtain ⟨x0, p0, c0⟩ := Onto.int t0 f0
  obtain ⟨t1, ts1, e1, f1, hf1⟩ := SuitsFields.uncons hf0
  subst e1
  obtain ⟨x1, p1, c1⟩ := Onto.int t1 f1
  obtain ⟨t2, ts2, e2, f2, hf2⟩ := SuitsFields.uncons hf1
  subst e2
  obtain ⟨x2, p2, c2⟩ := Onto.int t2 f2
  obtain ⟨t3, ts3, e3, f3, hf3⟩ := SuitsFields.uncons hf2
  subst e3
  obtain ⟨x3, p3, c3⟩ := (Onto.list Onto.int) t3 f3
  obtain ⟨t4, ts4, e4, f4, hf4⟩ := SuitsFields.uncons hf3
  subst e4
  obtain ⟨x4, p4, c4⟩ := (Onto.list Onto.int) t4 f4
  obtain ⟨t5, ts5, e5, f5, hf5⟩ := SuitsFields.uncons hf4
  subst e5
  obtain ⟨x5, p5, c5⟩ := (Onto.list Onto.int) t5 f5
  obtain ⟨t6, ts6, e6, f6, hf6⟩ := SuitsFields.uncons hf5
  subst e6
  obtain ⟨x6, p6, c6⟩ := Common.onto t6 f6
  obtain ⟨t7, ts7, e7, f7, hf7⟩ := SuitsFields.uncons hf6
  subst e7
  obtain ⟨x7, p7, c7⟩ := Onto.int t7 f7
  obtain ⟨t8, ts8, e8, f8, hf8⟩ := SuitsFields.uncons hf7
  subst e8
  obtain ⟨x8, p8, c8⟩ := Onto.int t8 f8
  obtain ⟨t9, ts9, e9, f9, hf9⟩ := SuitsFields.uncons hf8
  subst e9
  obtain ⟨x9, p9, c9⟩ := Onto.int t9 f9
  have eN := SuitsFields.unnil hf9
  subst eN
  refine ⟨⟨x0, x1, x2, x3, x4, x5, x6, x7, x8, x9⟩, ⟨p6⟩, .obj ?_⟩
  exact .cons c0 <| .cons c1 <| .cons c2 <| .cons c3 <| .cons c4 <| .cons c5 <| .cons c6 <| .cons c7 <| .cons c8 <| .cons c9 <| .nil

theorem TechTree.onto : Onto (Declares false) (.cls (lit "TechTree")) (TechTree.object) (TechTree.Lengths) := by
  intro t ht
  cases ht with
  | cls hd hf =>
  cases Declares.oneDef _ _ _ hd .TechTree
  obtain ⟨t0, ts0, e0, f0, hf0⟩ := SuitsFields.uncons hf
  subst e0
  obtain ⟨x0, p0, c0⟩ := Onto.int t0 f0
  obtain ⟨t1, ts1, e1, f1, hf1⟩ := SuitsFields.uncons hf0
  subst e1
  obtain ⟨x1, p1, c1⟩ := (Onto.list TechTreeAge.onto) t1 f1
  obtain ⟨t2, ts2, e2, f2, hf2⟩ := SuitsFields.uncons hf1
  subst e2
  obtain ⟨x2, p2, c2⟩ := (Onto.list BuildingConnection.onto) t2 f2
  obtain ⟨t3, ts3, e3, f3, hf3⟩ := SuitsFields.uncons hf2
  subst e3
  obtain ⟨x3, p3, c3⟩ := (Onto.list UnitConnection.onto) t3 f3
  obtain ⟨t4, ts4, e4, f4, hf4⟩ := SuitsFields.uncons hf3
  subst e4
  obtain ⟨x4, p4, c4⟩ := (Onto.list ResearchConnection.onto) t4 f4
  have eN := SuitsFields.unnil hf4
  subst eN
  refine ⟨⟨x0, x1, x2, x3, x4⟩, ⟨p1, p2, p3, p4⟩, .obj ?_⟩
  exact .cons c0 <| .cons c1 <| .cons c2 <| .cons c3 <| .cons c4 <| .nil

theorem Task.onto : Onto (Declares false) (.cls (lit "Task")) (Task.object) (fun _ => True) := by
  intro t ht
  cases ht with
  | cls hd hf =>
  cases Declares.oneDef _ _ _ hd .Task
  obtain ⟨t0, ts0, e0, f0, hf0⟩ := SuitsFields.uncons hf
  subst e0
  obtain ⟨x0, p0, c0⟩ := Onto.int t0 f0
  obtain ⟨t1, ts1, e1, f1, hf1⟩ := SuitsFields.uncons hf0
  subst e1
  obtain ⟨x1, p1, c1⟩ := Onto.int t1 f1
  obtain ⟨t2, ts2, e2, f2, hf2⟩ := SuitsFields.uncons hf1
  subst e2
  obtain ⟨x2, p2, c2⟩ := Onto.int t2 f2
  obtain ⟨t3, ts3, e3, f3, hf3⟩ := SuitsFields.uncons hf2
  subst e3
  obtain ⟨x3, p3, c3⟩ := Onto.int t3 f3
  obtain ⟨t4, ts4, e4, f4, hf4⟩ := SuitsFields.uncons hf3
  subst e4
  obtain ⟨x4, p4, c4⟩ := Onto.int t4 f4
  obtain ⟨t5, ts5, e5, f5, hf5⟩ := SuitsFields.uncons hf4
  subst e5
  obtain ⟨x5, p5, c5⟩ := Onto.int t5 f5
  obtain ⟨t6, ts6, e6, f6, hf6⟩ := SuitsFields.uncons hf5
  subst e6
  obtain ⟨x6, p6, c6⟩ := Onto.int t6 f6
  obtain ⟨t7, ts7, e7, f7, hf7⟩ := SuitsFields.uncons hf6
  subst e7
  obtain ⟨x7, p7, c7⟩ := Onto.int t7 f7
  obtain ⟨t8, ts8, e8, f8, hf8⟩ := SuitsFields.uncons hf7
  subst e8
  obtain ⟨x8, p8, c8⟩ := Onto.int t8 f8
  obtain ⟨t9, ts9, e9, f9, hf9⟩ := SuitsFields.uncons hf8
  subst e9
  obtain ⟨x9, p9, c9⟩ := Onto.int t9 f9
  obtain ⟨t10, ts10, e10, f10, hf10⟩ := SuitsFields.uncons hf9
  subst e10
  obtain ⟨x10, p10, c10⟩ := Onto.int t10 f10
  obtain ⟨t11, ts11, e11, f11, hf11⟩ := SuitsFields.uncons hf10
  subst e11
  obtain ⟨x11, p11, c11⟩ := Onto.float t11 f11
  obtain ⟨t12, ts12, e12, f12, hf12⟩ := SuitsFields.uncons hf11
  subst e12
  obtain ⟨x12, p12, c12⟩ := Onto.float t12 f12
  obtain ⟨t13, ts13, e13, f13, hf13⟩ := SuitsFields.uncons hf12
  subst e13
  obtain ⟨x13, p13, c13⟩ := Onto.float t13 f13
  obtain ⟨t14, ts14, e14, f14, hf14⟩ := SuitsFields.uncons hf13
  subst e14
  obtain ⟨x14, p14, c14⟩ := Onto.int t14 f14
  obtain ⟨t15, ts15, e15, f15, hf15⟩ := SuitsFields.uncons hf14
  subst e15
  obtain ⟨x15, p15, c15⟩ := Onto.float t15 f15
  obtain ⟨t16, ts16, e16, f16, hf16⟩ := SuitsFields.uncons hf15
  subst e16
  obtain ⟨x16, p16, c16⟩ := Onto.int t16 f16
  obtain ⟨t17, ts17, e17, f17, hf17⟩ := SuitsFields.uncons hf16
  subst e17
  obtain ⟨x17, p17, c17⟩ := Onto.int t17 f17
  obtain ⟨t18, ts18, e18, f18, hf18⟩ := SuitsFields.uncons hf17
  subst e18
  obtain ⟨x18, p18, c18⟩ := Onto.int t18 f18
  obtain ⟨t19, ts19, e19, f19, hf19⟩ := SuitsFields.uncons hf18
  subst e19
  obtain ⟨x19, p19, c19⟩ := Onto.int t19 f19
  obtain ⟨t20, ts20, e20, f20, hf20⟩ := SuitsFields.uncons hf19
  subst e20
  obtain ⟨x20, p20, c20⟩ := Onto.int t20 f20
  obtain ⟨t21, ts21, e21, f21, hf21⟩ := SuitsFields.uncons hf20
  subst e21
  obtain ⟨x21, p21, c21⟩ := Onto.int t21 f21
  obtain ⟨t22, ts22, e22, f22, hf22⟩ := SuitsFields.uncons hf21
  subst e22
  obtain ⟨x22, p22, c22⟩ := Onto.int t22 f22
  obtain ⟨t23, ts23, e23, f23, hf23⟩ := SuitsFields.uncons hf22
  subst e23
  obtain ⟨x23, p23, c23⟩ := Onto.int t23 f23
  obtain ⟨t24, ts24, e24, f24, hf24⟩ := SuitsFields.uncons hf23
  subst e24
  obtain ⟨x24, p24, c24⟩ := Onto.int t24 f24
  obtain ⟨t25, ts25, e25, f25, hf25⟩ := SuitsFields.uncons hf24
  subst e25
  obtain ⟨x25, p25, c25⟩ := Onto.int t25 f25
  obtain ⟨t26, ts26, e26, f26, hf26⟩ := SuitsFields.uncons hf25
  subst e26
  obtain ⟨x26, p26, c26⟩ := Onto.int t26 f26
  obtain ⟨t27, ts27, e27, f27, hf27⟩ := SuitsFields.uncons hf26
  subst e27
  obtain ⟨x27, p27, c27⟩ := Onto.int t27 f27
  obtain ⟨t28, ts28, e28, f28, hf28⟩ := SuitsFields.uncons hf27
  subst e28
  obtain ⟨x28, p28, c28⟩ := Onto.int t28 f28
  obtain ⟨t29, ts29, e29, f29, hf29⟩ := SuitsFields.uncons hf28
  subst e29
  obtain ⟨x29, p29, c29⟩ := Onto.int t29 f29
  obtain ⟨t30, ts30, e30, f30, hf30⟩ := SuitsFields.uncons hf29
  subst e30
  obtain ⟨x30, p30, c30⟩ := Onto.int t30 f30
  obtain ⟨t31, ts31, e31, f31, hf31⟩ := SuitsFields.uncons hf30
  subst e31
  obtain ⟨x31, p31, c31⟩ := Onto.int t31 f31
  have eN := SuitsFields.unnil hf31
  subst eN
  refine ⟨⟨x0, x1, x2, x3, x4, x5, x6, x7, x8, x9, x10, x11, x12, x13, x14, x15, x16, x17, x18, x19, x20, x21, x22, x23, x24, x25, x26, x27, x28, x29, x30, x31⟩, trivial, .obj ?_⟩
  exact .cons c0 <| .cons c1 <| .cons c2 <| .cons c3 <| .cons c4 <| .cons c5 <| .cons c6 <| .cons c7 <| .cons c8 <| .cons c9 <| .cons c10 <| .cons c11 <| .cons c12 <| .cons c13 <| .cons c14 <| .cons c15 <| .cons c16 <| .cons c17 <| .cons c18 <| .cons c19 <| .cons c20 <| .cons c21 <| .cons c22 <| .cons c23 <| .cons c24 <| .cons c25 <| .cons c26 <| .cons c27 <| .cons c28 <| .cons c29 <| .cons c30 <| .cons c31 <| .nil

theorem ResourceStorage.onto : Onto (Declares false) (.cls (lit "ResourceStorage")) (ResourceStorage.object) (fun _ => True) := by
  intro t ht
  cases ht with
  | cls hd hf =>
  cases Declares.oneDef _ _ _ hd .ResourceStorage
  obtain ⟨t0, ts0, e0, f0, hf0⟩ := SuitsFields.uncons hf
  subst e0
  obtain ⟨x0, p0, c0⟩ := Onto.int t0 f0
  obtain ⟨t1, ts1, e1, f1, hf1⟩ := SuitsFields.uncons hf0
  subst e1
  obtain ⟨x1, p1, c1⟩ := Onto.float t1 f1
  obtain ⟨t2, ts2, e2, f2, hf2⟩ := SuitsFields.uncons hf1
  subst e2
  obtain ⟨x2, p2, c2⟩ := Onto.int t2 f2
  have eN := SuitsFields.unnil hf2
  subst eN
  refine ⟨⟨x0, x1, x2⟩, trivial, .obj ?_⟩
  exact .cons c0 <| .cons c1 <| .cons c2 <| .nil

theorem DamageGraphic.onto : Onto (Declares false) (.cls (lit "DamageGraphic")) (DamageGraphic.object) (fun _ => True) := by
  intro t ht
  cases ht with
  | cls hd hf =>
  cases Declares.oneDef _ _ _ hd .DamageGraphic
  obtain ⟨t0, ts0, e0, f0, hf0⟩ := SuitsFields.uncons hf
  subst e0
  obtain ⟨x0, p0, c0⟩ := Onto.int t0 f0
  obtain ⟨t1, ts1, e1, f1, hf1⟩ := SuitsFields.uncons hf0
  subst e1
  obtain ⟨x1, p1, c1⟩ := Onto.int t1 f1
  obtain ⟨t2, ts2, e2, f2, hf2⟩ := SuitsFields.uncons hf1
  subst e2
  obtain ⟨x2, p2, c2⟩ := Onto.int t2 f2
  have eN := SuitsFields.unnil hf2
  subst eN
  refine ⟨⟨x0, x1, x2⟩, trivial, .obj ?_⟩
  exact .cons c0 <| .cons c1 <| .cons c2 <| .nil

theorem DeadFish.onto : Onto (Declares false) (.cls (lit "DeadFish")) (DeadFish.object) (fun _ => True) := by
  intro t ht
  cases ht with
  | cls hd hf =>
  cases Declares.oneDef _ _ _ hd .DeadFish
  obtain ⟨t0, ts0, e0, f0, hf0⟩ := SuitsFields.uncons hf
  subst e0
  obtain ⟨x0, p0, c0⟩ := Onto.int t0 f0
  obtain ⟨t1, ts1, e1, f1, hf1⟩ := SuitsFields.uncons hf0
  subst e1
  obtain ⟨x1, p1, c1⟩ := Onto.int t1 f1
  obtain ⟨t2, ts2, e2, f2, hf2⟩ := SuitsFields.uncons hf1
  subst e2
  obtain ⟨x2, p2, c2⟩ := Onto.float t2 f2
  obtain ⟨t3, ts3, e3, f3, hf3⟩ := SuitsFields.uncons hf2
  subst e3
  obtain ⟨x3, p3, c3⟩ := Onto.int t3 f3
  obtain ⟨t4, ts4, e4, f4, hf4⟩ := SuitsFields.uncons hf3
  subst e4
  obtain ⟨x4, p4, c4⟩ := Onto.int t4 f4
  obtain ⟨t5, ts5, e5, f5, hf5⟩ := SuitsFields.uncons hf4
  subst e5
  obtain ⟨x5, p5, c5⟩ := Onto.int t5 f5
  obtain ⟨t6, ts6, e6, f6, hf6⟩ := SuitsFields.uncons hf5
  subst e6
  obtain ⟨x6, p6, c6⟩ := Onto.float t6 f6
  obtain ⟨t7, ts7, e7, f7, hf7⟩ := SuitsFields.uncons hf6
  subst e7
  obtain ⟨x7, p7, c7⟩ := Onto.int t7 f7
  obtain ⟨t8, ts8, e8, f8, hf8⟩ := SuitsFields.uncons hf7
  subst e8
  obtain ⟨x8, p8, c8⟩ := Onto.float t8 f8
  obtain ⟨t9, ts9, e9, f9, hf9⟩ := SuitsFields.uncons hf8
  subst e9
  obtain ⟨x9, p9, c9⟩ := Onto.float t9 f9
  obtain ⟨t10, ts10, e10, f10, hf10⟩ := SuitsFields.uncons hf9
  subst e10
  obtain ⟨x10, p10, c10⟩ := Onto.float t10 f10
  obtain ⟨t11, ts11, e11, f11, hf11⟩ := SuitsFields.uncons hf10
  subst e11
  obtain ⟨x11, p11, c11⟩ := Onto.float t11 f11
  obtain ⟨t12, ts12, e12, f12, hf12⟩ := SuitsFields.uncons hf11
  subst e12
  obtain ⟨x12, p12, c12⟩ := Onto.float t12 f12
  obtain ⟨t13, ts13, e13, f13, hf13⟩ := SuitsFields.uncons hf12
  subst e13
  obtain ⟨x13, p13, c13⟩ := Onto.float t13 f13
  have eN := SuitsFields.unnil hf13
  subst eN
  refine ⟨⟨x0, x1, x2, x3, x4, x5, x6, x7, x8, x9, x10, x11, x12, x13⟩, trivial, .obj ?_⟩
  exact .cons c0 <| .cons c1 <| .cons c2 <| .cons c3 <| .cons c4 <| .cons c5 <| .cons c6 <| .cons c7 <| .cons c8 <| .cons c9 <| .cons c10 <| .cons c11 <| .cons c12 <| .cons c13 <| .nil

theorem Bird.onto : Onto (Declares false) (.cls (lit "Bird")) (Bird.object) (fun _ => True) := by
  intro t ht
  cases ht with
  | cls hd hf =>
  cases Declares.oneDef _ _ _ hd .Bird
  obtain ⟨t0, ts0, e0, f0, hf0⟩ := SuitsFields.uncons hf
  subst e0
  obtain ⟨x0, p0, c0⟩ := Onto.int t0 f0
  obtain ⟨t1, ts1, e1, f1, hf1⟩ := SuitsFields.uncons hf0
  subst e1
  obtain ⟨x1, p1, c1⟩ := Onto.float t1 f1
  obtain ⟨t2, ts2, e2, f2, hf2⟩ := SuitsFields.uncons hf1
  subst e2
  obtain ⟨x2, p2, c2⟩ := Onto.float t2 f2
  obtain ⟨t3, ts3, e3, f3, hf3⟩ := SuitsFields.uncons hf2
  subst e3
  obtain ⟨x3, p3, c3⟩ := (Onto.list Onto.int) t3 f3
  obtain ⟨t4, ts4, e4, f4, hf4⟩ := SuitsFields.uncons hf3
  subst e4
  obtain ⟨x4, p4, c4⟩ := Onto.int t4 f4
  obtain ⟨t5, ts5, e5, f5, hf5⟩ := SuitsFields.uncons hf4
  subst e5
  obtain ⟨x5, p5, c5⟩ := Onto.int t5 f5
  obtain ⟨t6, ts6, e6, f6, hf6⟩ := SuitsFields.uncons hf5
  subst e6
  obtain ⟨x6, p6, c6⟩ := Onto.int t6 f6
  obtain ⟨t7, ts7, e7, f7, hf7⟩ := SuitsFields.uncons hf6
  subst e7
  obtain ⟨x7, p7, c7⟩ := Onto.int t7 f7
  obtain ⟨t8, ts8, e8, f8, hf8⟩ := SuitsFields.uncons hf7
  subst e8
  obtain ⟨x8, p8, c8⟩ := Onto.int t8 f8
  obtain ⟨t9, ts9, e9, f9, hf9⟩ := SuitsFields.uncons hf8
  subst e9
  obtain ⟨x9, p9, c9⟩ := Onto.int t9 f9
  obtain ⟨t10, ts10, e10, f10, hf10⟩ := SuitsFields.uncons hf9
  subst e10
  obtain ⟨x10, p10, c10⟩ := (Onto.list Task.onto) t10 f10
  have eN := SuitsFields.unnil hf10
  subst eN
  refine ⟨⟨x0, x1, x2, x3, x4, x5, x6, x7, x8, x9, x10⟩, trivial, .obj ?_⟩
  exact .cons c0 <| .cons c1 <| .cons c2 <| .cons c3 <| .cons c4 <| .cons c5 <| .cons c6 <| .cons c7 <| .cons c8 <| .cons c9 <| .cons c10 <| .nil

theorem AttackOrArmor.onto : Onto (Declares false) (.cls (lit "AttackOrArmor")) (AttackOrArmor.object) (fun _ => True) := by
  intro t ht
  cases ht with
  | cls hd hf =>
  cases Declares.oneDef _ _ _ hd .AttackOrArmor
  obtain ⟨t0, ts0, e0, f0, hf0⟩ := SuitsFields.uncons hf
  subst e0
  obtain ⟨x0, p0, c0⟩ := Onto.int t0 f0
  obtain ⟨t1, ts1, e1, f1, hf1⟩ := SuitsFields.uncons hf0
  subst e1
  obtain ⟨x1, p1, c1⟩ := Onto.int t1 f1
  have eN := SuitsFields.unnil hf1
  subst eN
  refine ⟨⟨x0, x1⟩, trivial, .obj ?_⟩
  exact .cons c0 <| .cons c1 <| .nil

theorem Type50.onto : Onto (Declares false) (.cls (lit "Type50")) (Type50.object) (Type50.Lengths) := by
  intro t ht
  cases ht with
  | cls hd hf =>
  cases Declares.oneDef _ _ _ hd .Type50
  obtain ⟨t0, ts0, e0, f0, hf0⟩ := SuitsFields.uncons hf
  subst e0
  obtain ⟨x0, p0, c0⟩ := Onto.int t0 f0
  obtain ⟨t1, ts1, e1, f1, hf1⟩ := SuitsFields.uncons hf0
  subst e1
  obtain ⟨x1, p1, c1⟩ := (Onto.list AttackOrArmor.onto) t1 f1
  obtain ⟨t2, ts2, e2, f2, hf2⟩ := SuitsFields.uncons hf1
  subst e2
  obtain ⟨x2, p2, c2⟩ := (Onto.list AttackOrArmor.onto) t2 f2
  obtain ⟨t3, ts3, e3, f3, hf3⟩ := SuitsFields.uncons hf2
  subst e3
  obtain ⟨x3, p3, c3⟩ := Onto.int t3 f3
  obtain ⟨t4, ts4, e4, f4, hf4⟩ := SuitsFields.uncons hf3
  subst e4
  obtain ⟨x4, p4, c4⟩ := Onto.float t4 f4
  obtain ⟨t5, ts5, e5, f5, hf5⟩ := SuitsFields.uncons hf4
  subst e5
  obtain ⟨x5, p5, c5⟩ := Onto.float t5 f5
  obtain ⟨t6, ts6, e6, f6, hf6⟩ := SuitsFields.uncons hf5
  subst e6
  obtain ⟨x6, p6, c6⟩ := Onto.float t6 f6
  obtain ⟨t7, ts7, e7, f7, hf7⟩ := SuitsFields.uncons hf6
  subst e7
  obtain ⟨x7, p7, c7⟩ := Onto.float t7 f7
  obtain ⟨t8, ts8, e8, f8, hf8⟩ := SuitsFields.uncons hf7
  subst e8
  obtain ⟨x8, p8, c8⟩ := Onto.int t8 f8
  obtain ⟨t9, ts9, e9, f9, hf9⟩ := SuitsFields.uncons hf8
  subst e9
  obtain ⟨x9, p9, c9⟩ := Onto.int t9 f9
  obtain ⟨t10, ts10, e10, f10, hf10⟩ := SuitsFields.uncons hf9
  subst e10
  obtain ⟨x10, p10, c10⟩ := Onto.int t10 f10
  obtain ⟨t11, ts11, e11, f11, hf11⟩ := SuitsFields.uncons hf10
  subst e11
  obtain ⟨x11, p11, c11⟩ := Onto.int t11 f11
  obtain ⟨t12, ts12, e12, f12, hf12⟩ := SuitsFields.uncons hf11
  subst e12
  obtain ⟨x12, p12, c12⟩ := (Onto.tuple (n := 3) rfl Onto.float) t12 f12
  obtain ⟨t13, ts13, e13, f13, hf13⟩ := SuitsFields.uncons hf12
  subst e13
  obtain ⟨x13, p13, c13⟩ := Onto.int t13 f13
  obtain ⟨t14, ts14, e14, f14, hf14⟩ := SuitsFields.uncons hf13
  subst e14
  obtain ⟨x14, p14, c14⟩ := Onto.float t14 f14
  obtain ⟨t15, ts15, e15, f15, hf15⟩ := SuitsFields.uncons hf14
  subst e15
  obtain ⟨x15, p15, c15⟩ := Onto.float t15 f15
  obtain ⟨t16, ts16, e16, f16, hf16⟩ := SuitsFields.uncons hf15
  subst e16
  obtain ⟨x16, p16, c16⟩ := Onto.int t16 f16
  obtain ⟨t17, ts17, e17, f17, hf17⟩ := SuitsFields.uncons hf16
  subst e17
  obtain ⟨x17, p17, c17⟩ := Onto.int t17 f17
  obtain ⟨t18, ts18, e18, f18, hf18⟩ := SuitsFields.uncons hf17
  subst e18
  obtain ⟨x18, p18, c18⟩ := Onto.int t18 f18
  obtain ⟨t19, ts19, e19, f19, hf19⟩ := SuitsFields.uncons hf18
  subst e19
  obtain ⟨x19, p19, c19⟩ := Onto.float t19 f19
  obtain ⟨t20, ts20, e20, f20, hf20⟩ := SuitsFields.uncons hf19
  subst e20
  obtain ⟨x20, p20, c20⟩ := Onto.float t20 f20
  obtain ⟨t21, ts21, e21, f21, hf21⟩ := SuitsFields.uncons hf20
  subst e21
  obtain ⟨x21, p21, c21⟩ := Onto.float t21 f21
  obtain ⟨t22, ts22, e22, f22, hf22⟩ := SuitsFields.uncons hf21
  subst e22
  obtain ⟨x22, p22, c22⟩ := Onto.float t22 f22
  obtain ⟨t23, ts23, e23, f23, hf23⟩ := SuitsFields.uncons hf22
  subst e23
  obtain ⟨x23, p23, c23⟩ := Onto.float t23 f23
  obtain ⟨t24, ts24, e24, f24, hf24⟩ := SuitsFields.uncons hf23
  subst e24
  obtain ⟨x24, p24, c24⟩ := Onto.int t24 f24
  obtain ⟨t25, ts25, e25, f25, hf25⟩ := SuitsFields.uncons hf24
  subst e25
  obtain ⟨x25, p25, c25⟩ := Onto.float t25 f25
  obtain ⟨t26, ts26, e26, f26, hf26⟩ := SuitsFields.uncons hf25
  subst e26
  obtain ⟨x26, p26, c26⟩ := Onto.int t26 f26
  have eN := SuitsFields.unnil hf26
  subst eN
  refine ⟨⟨x0, x1, x2, x3, x4, x5, x6, x7, x8, x9, x10, x11, x12, x13, x14, x15, x16, x17, x18, x19, x20, x21, x22, x23, x24, x25, x26⟩, ⟨p12.1⟩, .obj ?_⟩
  exact .cons c0 <| .cons c1 <| .cons c2 <| .cons c3 <| .cons c4 <| .cons c5 <| .cons c6 <| .cons c7 <| .cons c8 <| .cons c9 <| .cons c10 <| .cons c11 <| .cons c12 <| .cons c13 <| .cons c14 <| .cons c15 <| .cons c16 <| .cons c17 <| .cons c18 <| .cons c19 <| .cons c20 <| .cons c21 <| .cons c22 <| .cons c23 <| .cons c24 <| .cons c25 <| .cons c26 <| .nil

theorem Projectile.onto : Onto (Declares false) (.cls (lit "Projectile")) (Projectile.object) (fun _ => True) := by
  intro t ht
  cases ht with
  | cls hd hf =>
  cases Declares.oneDef _ _ _ hd .Projectile
  obtain ⟨t0, ts0, e0, f0, hf0⟩ := SuitsFields.uncons hf
  subst e0
  obtain ⟨x0, p0, c0⟩ := Onto.int t0 f0
  obtain ⟨t1, ts1, e1, f1, hf1⟩ := SuitsFields.uncons hf0
  subst e1
  obtain ⟨x1, p1, c1⟩ := Onto.int t1 f1
  obtain ⟨t2, ts2, e2, f2, hf2⟩ := SuitsFields.uncons hf1
  subst e2
  obtain ⟨x2, p2, c2⟩ := Onto.int t2 f2
  obtain ⟨t3, ts3, e3, f3, hf3⟩ := SuitsFields.uncons hf2
  subst e3
  obtain ⟨x3, p3, c3⟩ := Onto.int t3 f3
  obtain ⟨t4, ts4, e4, f4, hf4⟩ := SuitsFields.uncons hf3
  subst e4
  obtain ⟨x4, p4, c4⟩ := Onto.int t4 f4
  obtain ⟨t5, ts5, e5, f5, hf5⟩ := SuitsFields.uncons hf4
  subst e5
  obtain ⟨x5, p5, c5⟩ := Onto.float t5 f5
  have eN := SuitsFields.unnil hf5
  subst eN
  refine ⟨⟨x0, x1, x2, x3, x4, x5⟩, trivial, .obj ?_⟩
  exact .cons c0 <| .cons c1 <| .cons c2 <| .cons c3 <| .cons c4 <| .cons c5 <| .nil

theorem ResourceCost.onto : Onto (Declares false) (.cls (lit "ResourceCost")) (ResourceCost.object) (fun _ => True) := by
  intro t ht
  cases ht with
  | cls hd hf =>
  cases Declares.oneDef _ _ _ hd .ResourceCost
  obtain ⟨t0, ts0, e0, f0, hf0⟩ := SuitsFields.uncons hf
  subst e0
  obtain ⟨x0, p0, c0⟩ := Onto.int t0 f0
  obtain ⟨t1, ts1, e1, f1, hf1⟩ := SuitsFields.uncons hf0
  subst e1
  obtain ⟨x1, p1, c1⟩ := Onto.int t1 f1
  obtain ⟨t2, ts2, e2, f2, hf2⟩ := SuitsFields.uncons hf1
  subst e2
  obtain ⟨x2, p2, c2⟩ := Onto.int t2 f2
  have eN := SuitsFields.unnil hf2
  subst eN
  refine ⟨⟨x0, x1, x2⟩, trivial, .obj ?_⟩
  exact .cons c0 <| .cons c1 <| .cons c2 <| .nil

theorem TrainLocation.onto : Onto (Declares false) (.cls (lit "TrainLocation")) (TrainLocation.object) (fun _ => True) := by
  intro t ht
  cases ht with
  | cls hd hf =>
  cases Declares.oneDef _ _ _ hd .TrainLocation
  obtain ⟨t0, ts0, e0, f0, hf0⟩ := SuitsFields.uncons hf
  subst e0
  obtain ⟨x0, p0, c0⟩ := Onto.int t0 f0
  obtain ⟨t1, ts1, e1, f1, hf1⟩ := SuitsFields.uncons hf0
  subst e1
  obtain ⟨x1, p1, c1⟩ := Onto.int t1 f1
  obtain ⟨t2, ts2, e2, f2, hf2⟩ := SuitsFields.uncons hf1
  subst e2
  obtain ⟨x2, p2, c2⟩ := Onto.int t2 f2
  obtain ⟨t3, ts3, e3, f3, hf3⟩ := SuitsFields.uncons hf2
  subst e3
  obtain ⟨x3, p3, c3⟩ := Onto.int t3 f3
  have eN := SuitsFields.unnil hf3
  subst eN
  refine ⟨⟨x0, x1, x2, x3⟩, trivial, .obj ?_⟩
  exact .cons c0 <| .cons c1 <| .cons c2 <| .cons c3 <| .nil

theorem Creatable.onto : Onto (Declares false) (.cls (lit "Creatable")) (Creatable.object false) (Creatable.Lengths) := by
  intro t ht
  cases ht with
  | cls hd hf =>
  cases Declares.oneDef _ _ _ hd .Creatable
  obtain ⟨t0, ts0, e0, f0, hf0⟩ := SuitsFields.uncons hf
  subst e0
  obtain ⟨x0, p0, c0⟩ := (Onto.tuple (n := 3) rfl ResourceCost.onto) t0 f0
  obtain ⟨t1, ts1, e1, f1, hf1⟩ := SuitsFields.uncons hf0
  subst e1
  obtain ⟨x1, p1, c1⟩ := (Onto.list TrainLocation.onto) t1 f1
  obtain ⟨t2, ts2, e2, f2, hf2⟩ := SuitsFields.uncons hf1
  subst e2
  obtain ⟨x2, p2, c2⟩ := Onto.float t2 f2
  obtain ⟨t3, ts3, e3, f3, hf3⟩ := SuitsFields.uncons hf2
  subst e3
  obtain ⟨x3, p3, c3⟩ := Onto.float t3 f3
  obtain ⟨t4, ts4, e4, f4, hf4⟩ := SuitsFields.uncons hf3
  subst e4
  obtain ⟨x4, p4, c4⟩ := Onto.int t4 f4
  obtain ⟨t5, ts5, e5, f5, hf5⟩ := SuitsFields.uncons hf4
  subst e5
  obtain ⟨x5, p5, c5⟩ := Onto.int t5 f5
  obtain ⟨t6, ts6, e6, f6, hf6⟩ := SuitsFields.uncons hf5
  subst e6
  obtain ⟨x6, p6, c6⟩ := Onto.int t6 f6
  obtain ⟨t7, ts7, e7, f7, hf7⟩ := SuitsFields.uncons hf6
  subst e7
  obtain ⟨x7, p7, c7⟩ := Onto.int t7 f7
  obtain ⟨t8, ts8, e8, f8, hf8⟩ := SuitsFields.uncons hf7
  subst e8
  obtain ⟨x8, p8, c8⟩ := Onto.int t8 f8
  obtain ⟨t9, ts9, e9, f9, hf9⟩ := SuitsFields.uncons hf8
  subst e9
  obtain ⟨x9, p9, c9⟩ := Onto.int t9 f9
  obtain ⟨t10, ts10, e10, f10, hf10⟩ := SuitsFields.uncons hf9
  subst e10
  obtain ⟨x10, p10, c10⟩ := Onto.int t10 f10
  obtain ⟨t11, ts11, e11, f11, hf11⟩ := SuitsFields.uncons hf10
  subst e11
  obtain ⟨x11, p11, c11⟩ := Onto.float t11 f11
  obtain ⟨t12, ts12, e12, f12, hf12⟩ := SuitsFields.uncons hf11
  subst e12
  obtain ⟨x12, p12, c12⟩ := Onto.float t12 f12
  obtain ⟨t13, ts13, e13, f13, hf13⟩ := SuitsFields.uncons hf12
  subst e13
  obtain ⟨x13, p13, c13⟩ := Onto.int t13 f13
  obtain ⟨t14, ts14, e14, f14, hf14⟩ := SuitsFields.uncons hf13
  subst e14
  obtain ⟨x14, p14, c14⟩ := Onto.int t14 f14
  obtain ⟨t15, ts15, e15, f15, hf15⟩ := SuitsFields.uncons hf14
  subst e15
  obtain ⟨x15, p15, c15⟩ := Onto.int t15 f15
  obtain ⟨t16, ts16, e16, f16, hf16⟩ := SuitsFields.uncons hf15
  subst e16
  obtain ⟨x16, p16, c16⟩ := Onto.int t16 f16
  obtain ⟨t17, ts17, e17, f17, hf17⟩ := SuitsFields.uncons hf16
  subst e17
  obtain ⟨x17, p17, c17⟩ := Onto.int t17 f17
  obtain ⟨t18, ts18, e18, f18, hf18⟩ := SuitsFields.uncons hf17
  subst e18
  obtain ⟨x18, p18, c18⟩ := Onto.float t18 f18
  obtain ⟨t19, ts19, e19, f19, hf19⟩ := SuitsFields.uncons hf18
  subst e19
  obtain ⟨x19, p19, c19⟩ := Onto.int t19 f19
  obtain ⟨t20, ts20, e20, f20, hf20⟩ := SuitsFields.uncons hf19
  subst e20
  obtain ⟨x20, p20, c20⟩ := Onto.int t20 f20
  obtain ⟨t21, ts21, e21, f21, hf21⟩ := SuitsFields.uncons hf20
  subst e21
  obtain ⟨x21, p21, c21⟩ := Onto.int t21 f21
  obtain ⟨t22, ts22, e22, f22, hf22⟩ := SuitsFields.uncons hf21
  subst e22
  obtain ⟨x22, p22, c22⟩ := Onto.int t22 f22
  obtain ⟨t23, ts23, e23, f23, hf23⟩ := SuitsFields.uncons hf22
  subst e23
  obtain ⟨x23, p23, c23⟩ := Onto.float t23 f23
  obtain ⟨t24, ts24, e24, f24, hf24⟩ := SuitsFields.uncons hf23
  subst e24
  obtain ⟨x24, p24, c24⟩ := Onto.float t24 f24
  obtain ⟨t25, ts25, e25, f25, hf25⟩ := SuitsFields.uncons hf24
  subst e25
  obtain ⟨x25, p25, c25⟩ := Onto.float t25 f25
  obtain ⟨t26, ts26, e26, f26, hf26⟩ := SuitsFields.uncons hf25
  subst e26
  obtain ⟨x26, p26, c26⟩ := Onto.float t26 f26
  obtain ⟨t27, ts27, e27, f27, hf27⟩ := SuitsFields.uncons hf26
  subst e27
  obtain ⟨x27, p27, c27⟩ := Onto.int t27 f27
  obtain ⟨t28, ts28, e28, f28, hf28⟩ := SuitsFields.uncons hf27
  subst e28
  obtain ⟨x28, p28, c28⟩ := (Onto.tuple (n := 3) rfl Onto.float) t28 f28
  obtain ⟨t29, ts29, e29, f29, hf29⟩ := SuitsFields.uncons hf28
  subst e29
  obtain ⟨x29, p29, c29⟩ := Onto.int t29 f29
  obtain ⟨t30, ts30, e30, f30, hf30⟩ := SuitsFields.uncons hf29
  subst e30
  obtain ⟨x30, p30, c30⟩ := Onto.int t30 f30
  obtain ⟨t31, ts31, e31, f31, hf31⟩ := SuitsFields.uncons hf30
  subst e31
  obtain ⟨x31, p31, c31⟩ := Onto.int t31 f31
  obtain ⟨t32, ts32, e32, f32, hf32⟩ := SuitsFields.uncons hf31
  subst e32
  obtain ⟨x32, p32, c32⟩ := Onto.int t32 f32
  have eN := SuitsFields.unnil hf32
  subst eN
  refine ⟨⟨x0, x1, x2, x3, x4, x5, x6, x7, x8, x9, x10, x11, x12, x13, x14, x15, x16, x17, x18, x19, x20, x21, x22, x23, x24, x25, x26, x27, x28, x29, x30, x31, x32⟩, ⟨p0.1, p28.1⟩, .obj ?_⟩
  exact .cons c0 <| .cons c1 <| .cons c2 <| .cons c3 <| .cons c4 <| .cons c5 <| .cons c6 <| .cons c7 <| .cons c8 <| .cons c9 <| .cons c10 <| .cons c11 <| .cons c12 <| .cons c13 <| .cons c14 <| .cons c15 <| .cons c16 <| .cons c17 <| .cons c18 <| .cons c19 <| .cons c20 <| .cons c21 <| .cons c22 <| .cons c23 <| .cons c24 <| .cons c25 <| .cons c26 <| .cons c27 <| .cons c28 <| .cons c29 <| .cons c30 <| .cons c31 <| .cons c32 <| .nil

theorem BuildingAnnex.onto : Onto (Declares false) (.cls (lit "BuildingAnnex")) (BuildingAnnex.object) (fun _ => True) := by
  intro t ht
  cases ht with
  | cls hd hf =>
  cases Declares.oneDef _ _ _ hd .BuildingAnnex
  obtain ⟨t0, ts0, e0, f0, hf0⟩ := SuitsFields.uncons hf
  subst e0
  obtain ⟨x0, p0, c0⟩ := Onto.int t0 f0
  obtain ⟨t1, ts1, e1, f1, hf1⟩ := SuitsFields.uncons hf0
  subst e1
  obtain ⟨x1, p1, c1⟩ := Onto.float t1 f1
  obtain ⟨t2, ts2, e2, f2, hf2⟩ := SuitsFields.uncons hf1
  subst e2
  obtain ⟨x2, p2, c2⟩ := Onto.float t2 f2
  have eN := SuitsFields.unnil hf2
  subst eN
  refine ⟨⟨x0, x1, x2⟩, trivial, .obj ?_⟩
  exact .cons c0 <| .cons c1 <| .cons c2 <| .nil

theorem Building.onto : Onto (Declares false) (.cls (lit "Building")) (Building.object) (Building.Lengths) := by
  intro t ht
  cases ht with
  | cls hd hf =>
  cases Declares.oneDef _ _ _ hd .Building
  obtain ⟨t0, ts0, e0, f0, hf0⟩ := SuitsFields.uncons hf
  subst e0
  obtain ⟨x0, p0, c0⟩ := Onto.int t0 f0
  obtain ⟨t1, ts1, e1, f1, hf1⟩ := SuitsFields.uncons hf0
  subst e1
  obtain ⟨x1, p1, c1⟩ := Onto.int t1 f1
  obtain ⟨t2, ts2, e2, f2, hf2⟩ := SuitsFields.uncons hf1
  subst e2
  obtain ⟨x2, p2, c2⟩ := Onto.int t2 f2
  obtain ⟨t3, ts3, e3, f3, hf3⟩ := SuitsFields.uncons hf2
  subst e3
  obtain ⟨x3, p3, c3⟩ := Onto.int t3 f3
  obtain ⟨t4, ts4, e4, f4, hf4⟩ := SuitsFields.uncons hf3
  subst e4
  obtain ⟨x4, p4, c4⟩ := Onto.int t4 f4
  obtain ⟨t5, ts5, e5, f5, hf5⟩ := SuitsFields.uncons hf4
  subst e5
  obtain ⟨x5, p5, c5⟩ := Onto.int t5 f5
  obtain ⟨t6, ts6, e6, f6, hf6⟩ := SuitsFields.uncons hf5
  subst e6
  obtain ⟨x6, p6, c6⟩ := Onto.int t6 f6
  obtain ⟨t7, ts7, e7, f7, hf7⟩ := SuitsFields.uncons hf6
  subst e7
  obtain ⟨x7, p7, c7⟩ := Onto.int t7 f7
  obtain ⟨t8, ts8, e8, f8, hf8⟩ := SuitsFields.uncons hf7
  subst e8
  obtain ⟨x8, p8, c8⟩ := Onto.int t8 f8
  obtain ⟨t9, ts9, e9, f9, hf9⟩ := SuitsFields.uncons hf8
  subst e9
  obtain ⟨x9, p9, c9⟩ := Onto.int t9 f9
  obtain ⟨t10, ts10, e10, f10, hf10⟩ := SuitsFields.uncons hf9
  subst e10
  obtain ⟨x10, p10, c10⟩ := Onto.int t10 f10
  obtain ⟨t11, ts11, e11, f11, hf11⟩ := SuitsFields.uncons hf10
  subst e11
  obtain ⟨x11, p11, c11⟩ := Onto.int t11 f11
  obtain ⟨t12, ts12, e12, f12, hf12⟩ := SuitsFields.uncons hf11
  subst e12
  obtain ⟨x12, p12, c12⟩ := Onto.int t12 f12
  obtain ⟨t13, ts13, e13, f13, hf13⟩ := SuitsFields.uncons hf12
  subst e13
  obtain ⟨x13, p13, c13⟩ := Onto.int t13 f13
  obtain ⟨t14, ts14, e14, f14, hf14⟩ := SuitsFields.uncons hf13
  subst e14
  obtain ⟨x14, p14, c14⟩ := (Onto.tuple (n := 4) rfl BuildingAnnex.onto) t14 f14
  obtain ⟨t15, ts15, e15, f15, hf15⟩ := SuitsFields.uncons hf14
  subst e15
  obtain ⟨x15, p15, c15⟩ := Onto.int t15 f15
  obtain ⟨t16, ts16, e16, f16, hf16⟩ := SuitsFields.uncons hf15
  subst e16
  obtain ⟨x16, p16, c16⟩ := Onto.int t16 f16
  obtain ⟨t17, ts17, e17, f17, hf17⟩ := SuitsFields.uncons hf16
  subst e17
  obtain ⟨x17, p17, c17⟩ := Onto.int t17 f17
  obtain ⟨t18, ts18, e18, f18, hf18⟩ := SuitsFields.uncons hf17
  subst e18
  obtain ⟨x18, p18, c18⟩ := Onto.int t18 f18
  obtain ⟨t19, ts19, e19, f19, hf19⟩ := SuitsFields.uncons hf18
  subst e19
  obtain ⟨x19, p19, c19⟩ := Onto.int t19 f19
  obtain ⟨t20, ts20, e20, f20, hf20⟩ := SuitsFields.uncons hf19
  subst e20
  obtain ⟨x20, p20, c20⟩ := Onto.int t20 f20
  obtain ⟨t21, ts21, e21, f21, hf21⟩ := SuitsFields.uncons hf20
  subst e21
  obtain ⟨x21, p21, c21⟩ := Onto.int t21 f21
  obtain ⟨t22, ts22, e22, f22, hf22⟩ := SuitsFields.uncons hf21
  subst e22
  obtain ⟨x22, p22, c22⟩ := Onto.float t22 f22
  obtain ⟨t23, ts23, e23, f23, hf23⟩ := SuitsFields.uncons hf22
  subst e23
  obtain ⟨x23, p23, c23⟩ := Onto.float t23 f23
  obtain ⟨t24, ts24, e24, f24, hf24⟩ := SuitsFields.uncons hf23
  subst e24
  obtain ⟨x24, p24, c24⟩ := Onto.int t24 f24
  obtain ⟨t25, ts25, e25, f25, hf25⟩ := SuitsFields.uncons hf24
  subst e25
  obtain ⟨x25, p25, c25⟩ := (Onto.tuple (n := 6) rfl Onto.int) t25 f25
  have eN := SuitsFields.unnil hf25
  subst eN
  refine ⟨⟨x0, x1, x2, x3, x4, x5, x6, x7, x8, x9, x10, x11, x12, x13, x14, x15, x16, x17, x18, x19, x20, x21, x22, x23, x24, x25⟩, ⟨p14.1, p25.1⟩, .obj ?_⟩
  exact .cons c0 <| .cons c1 <| .cons c2 <| .cons c3 <| .cons c4 <| .cons c5 <| .cons c6 <| .cons c7 <| .cons c8 <| .cons c9 <| .cons c10 <| .cons c11 <| .cons c12 <| .cons c13 <| .cons c14 <| .cons c15 <| .cons c16 <| .cons c17 <| .cons c18 <| .cons c19 <| .cons c20 <| .cons c21 <| .cons c22 <| .cons c23 <| .cons c24 <| .cons c25 <| .nil

theorem Unit.onto : Onto (Declares false) (.cls (lit "Unit")) (Unit.object false) (Unit.Lengths) := by
  intro t ht
  cases ht with
  | cls hd hf =>
  cases Declares.oneDef _ _ _ hd .Unit
  obtain ⟨t0, ts0, e0, f0, hf0⟩ := SuitsFields.uncons hf
  subst e0
  obtain ⟨x0, p0, c0⟩ := Onto.int t0 f0
  obtain ⟨t1, ts1, e1, f1, hf1⟩ := SuitsFields.uncons hf0
  subst e1
  obtain ⟨x1, p1, c1⟩ := Onto.int t1 f1
  obtain ⟨t2, ts2, e2, f2, hf2⟩ := SuitsFields.uncons hf1
  subst e2
  obtain ⟨x2, p2, c2⟩ := Onto.int t2 f2
  obtain ⟨t3, ts3, e3, f3, hf3⟩ := SuitsFields.uncons hf2
  subst e3
  obtain ⟨x3, p3, c3⟩ := Onto.int t3 f3
  obtain ⟨t4, ts4, e4, f4, hf4⟩ := SuitsFields.uncons hf3
  subst e4
  obtain ⟨x4, p4, c4⟩ := Onto.int t4 f4
  obtain ⟨t5, ts5, e5, f5, hf5⟩ := SuitsFields.uncons hf4
  subst e5
  obtain ⟨x5, p5, c5⟩ := (Onto.tuple (n := 2) rfl Onto.int) t5 f5
  obtain ⟨t6, ts6, e6, f6, hf6⟩ := SuitsFields.uncons hf5
  subst e6
  obtain ⟨x6, p6, c6⟩ := Onto.int t6 f6
  obtain ⟨t7, ts7, e7, f7, hf7⟩ := SuitsFields.uncons hf6
  subst e7
  obtain ⟨x7, p7, c7⟩ := Onto.int t7 f7
  obtain ⟨t8, ts8, e8, f8, hf8⟩ := SuitsFields.uncons hf7
  subst e8
  obtain ⟨x8, p8, c8⟩ := Onto.int t8 f8
  obtain ⟨t9, ts9, e9, f9, hf9⟩ := SuitsFields.uncons hf8
  subst e9
  obtain ⟨x9, p9, c9⟩ := Onto.int t9 f9
  obtain ⟨t10, ts10, e10, f10, hf10⟩ := SuitsFields.uncons hf9
  subst e10
  obtain ⟨x10, p10, c10⟩ := Onto.float t10 f10
  obtain ⟨t11, ts11, e11, f11, hf11⟩ := SuitsFields.uncons hf10
  subst e11
  obtain ⟨x11, p11, c11⟩ := Onto.int t11 f11
  obtain ⟨t12, ts12, e12, f12, hf12⟩ := SuitsFields.uncons hf11
  subst e12
  obtain ⟨x12, p12, c12⟩ := Onto.float t12 f12
  obtain ⟨t13, ts13, e13, f13, hf13⟩ := SuitsFields.uncons hf12
  subst e13
  obtain ⟨x13, p13, c13⟩ := Onto.float t13 f13
  obtain ⟨t14, ts14, e14, f14, hf14⟩ := SuitsFields.uncons hf13
  subst e14
  obtain ⟨x14, p14, c14⟩ := Onto.float t14 f14
  obtain ⟨t15, ts15, e15, f15, hf15⟩ := SuitsFields.uncons hf14
  subst e15
  obtain ⟨x15, p15, c15⟩ := Onto.int t15 f15
  obtain ⟨t16, ts16, e16, f16, hf16⟩ := SuitsFields.uncons hf15
  subst e16
  obtain ⟨x16, p16, c16⟩ := Onto.int t16 f16
  obtain ⟨t17, ts17, e17, f17, hf17⟩ := SuitsFields.uncons hf16
  subst e17
  obtain ⟨x17, p17, c17⟩ := Onto.int t17 f17
  obtain ⟨t18, ts18, e18, f18, hf18⟩ := SuitsFields.uncons hf17
  subst e18
  obtain ⟨x18, p18, c18⟩ := Onto.int t18 f18
  obtain ⟨t19, ts19, e19, f19, hf19⟩ := SuitsFields.uncons hf18
  subst e19
  obtain ⟨x19, p19, c19⟩ := Onto.int t19 f19
  obtain ⟨t20, ts20, e20, f20, hf20⟩ := SuitsFields.uncons hf19
  subst e20
  obtain ⟨x20, p20, c20⟩ := Onto.int t20 f20
  obtain ⟨t21, ts21, e21, f21, hf21⟩ := SuitsFields.uncons hf20
  subst e21
  obtain ⟨x21, p21, c21⟩ := Onto.int t21 f21
  obtain ⟨t22, ts22, e22, f22, hf22⟩ := SuitsFields.uncons hf21
  subst e22
  obtain ⟨x22, p22, c22⟩ := Onto.int t22 f22
  obtain ⟨t23, ts23, e23, f23, hf23⟩ := SuitsFields.uncons hf22
  subst e23
  obtain ⟨x23, p23, c23⟩ := Onto.int t23 f23
  obtain ⟨t24, ts24, e24, f24, hf24⟩ := SuitsFields.uncons hf23
  subst e24
  obtain ⟨x24, p24, c24⟩ := Onto.int t24 f24
  obtain ⟨t25, ts25, e25, f25, hf25⟩ := SuitsFields.uncons hf24
  subst e25
  obtain ⟨x25, p25, c25⟩ := Onto.int t25 f25
  obtain ⟨t26, ts26, e26, f26, hf26⟩ := SuitsFields.uncons hf25
  subst e26
  obtain ⟨x26, p26, c26⟩ := (Onto.tuple (n := 2) rfl Onto.int) t26 f26
  obtain ⟨t27, ts27, e27, f27, hf27⟩ := SuitsFields.uncons hf26
  subst e27
  obtain ⟨x27, p27, c27⟩ := (Onto.tuple (n := 2) rfl Onto.int) t27 f27
  obtain ⟨t28, ts28, e28, f28, hf28⟩ := SuitsFields.uncons hf27
  subst e28
  obtain ⟨x28, p28, c28⟩ := (Onto.tuple (n := 2) rfl Onto.float) t28 f28
  obtain ⟨t29, ts29, e29, f29, hf29⟩ := SuitsFields.uncons hf28
  subst e29
  obtain ⟨x29, p29, c29⟩ := Onto.int t29 f29
  obtain ⟨t30, ts30, e30, f30, hf30⟩ := SuitsFields.uncons hf29
  subst e30
  obtain ⟨x30, p30, c30⟩ := Onto.int t30 f30
  obtain ⟨t31, ts31, e31, f31, hf31⟩ := SuitsFields.uncons hf30
  subst e31
  obtain ⟨x31, p31, c31⟩ := Onto.int t31 f31
  obtain ⟨t32, ts32, e32, f32, hf32⟩ := SuitsFields.uncons hf31
  subst e32
  obtain ⟨x32, p32, c32⟩ := Onto.int t32 f32
  obtain ⟨t33, ts33, e33, f33, hf33⟩ := SuitsFields.uncons hf32
  subst e33
  obtain ⟨x33, p33, c33⟩ := Onto.int t33 f33
  obtain ⟨t34, ts34, e34, f34, hf34⟩ := SuitsFields.uncons hf33
  subst e34
  obtain ⟨x34, p34, c34⟩ := Onto.float t34 f34
  obtain ⟨t35, ts35, e35, f35, hf35⟩ := SuitsFields.uncons hf34
  subst e35
  obtain ⟨x35, p35, c35⟩ := Onto.int t35 f35
  obtain ⟨t36, ts36, e36, f36, hf36⟩ := SuitsFields.uncons hf35
  subst e36
  obtain ⟨x36, p36, c36⟩ := Onto.int t36 f36
  obtain ⟨t37, ts37, e37, f37, hf37⟩ := SuitsFields.uncons hf36
  subst e37
  obtain ⟨x37, p37, c37⟩ := Onto.int t37 f37
  obtain ⟨t38, ts38, e38, f38, hf38⟩ := SuitsFields.uncons hf37
  subst e38
  obtain ⟨x38, p38, c38⟩ := Onto.int t38 f38
  obtain ⟨t39, ts39, e39, f39, hf39⟩ := SuitsFields.uncons hf38
  subst e39
  obtain ⟨x39, p39, c39⟩ := Onto.int t39 f39
  obtain ⟨t40, ts40, e40, f40, hf40⟩ := SuitsFields.uncons hf39
  subst e40
  obtain ⟨x40, p40, c40⟩ := Onto.float t40 f40
  obtain ⟨t41, ts41, e41, f41, hf41⟩ := SuitsFields.uncons hf40
  subst e41
  obtain ⟨x41, p41, c41⟩ := Onto.int t41 f41
  obtain ⟨t42, ts42, e42, f42, hf42⟩ := SuitsFields.uncons hf41
  subst e42
  obtain ⟨x42, p42, c42⟩ := Onto.int t42 f42
  obtain ⟨t43, ts43, e43, f43, hf43⟩ := SuitsFields.uncons hf42
  subst e43
  obtain ⟨x43, p43, c43⟩ := Onto.int t43 f43
  obtain ⟨t44, ts44, e44, f44, hf44⟩ := SuitsFields.uncons hf43
  subst e44
  obtain ⟨x44, p44, c44⟩ := Onto.int t44 f44
  obtain ⟨t45, ts45, e45, f45, hf45⟩ := SuitsFields.uncons hf44
  subst e45
  obtain ⟨x45, p45, c45⟩ := Onto.int t45 f45
  obtain ⟨t46, ts46, e46, f46, hf46⟩ := SuitsFields.uncons hf45
  subst e46
  obtain ⟨x46, p46, c46⟩ := Onto.int t46 f46
  obtain ⟨t47, ts47, e47, f47, hf47⟩ := SuitsFields.uncons hf46
  subst e47
  obtain ⟨x47, p47, c47⟩ := Onto.int t47 f47
  obtain ⟨t48, ts48, e48, f48, hf48⟩ := SuitsFields.uncons hf47
  subst e48
  obtain ⟨x48, p48, c48⟩ := Onto.int t48 f48
  obtain ⟨t49, ts49, e49, f49, hf49⟩ := SuitsFields.uncons hf48
  subst e49
  obtain ⟨x49, p49, c49⟩ := Onto.int t49 f49
  obtain ⟨t50, ts50, e50, f50, hf50⟩ := SuitsFields.uncons hf49
  subst e50
  obtain ⟨x50, p50, c50⟩ := Onto.int t50 f50
  obtain ⟨t51, ts51, e51, f51, hf51⟩ := SuitsFields.uncons hf50
  subst e51
  obtain ⟨x51, p51, c51⟩ := Onto.int t51 f51
  obtain ⟨t52, ts52, e52, f52, hf52⟩ := SuitsFields.uncons hf51
  subst e52
  obtain ⟨x52, p52, c52⟩ := Onto.int t52 f52
  obtain ⟨t53, ts53, e53, f53, hf53⟩ := SuitsFields.uncons hf52
  subst e53
  obtain ⟨x53, p53, c53⟩ := Onto.int t53 f53
  obtain ⟨t54, ts54, e54, f54, hf54⟩ := SuitsFields.uncons hf53
  subst e54
  obtain ⟨x54, p54, c54⟩ := Onto.int t54 f54
  obtain ⟨t55, ts55, e55, f55, hf55⟩ := SuitsFields.uncons hf54
  subst e55
  obtain ⟨x55, p55, c55⟩ := Onto.int t55 f55
  obtain ⟨t56, ts56, e56, f56, hf56⟩ := SuitsFields.uncons hf55
  subst e56
  obtain ⟨x56, p56, c56⟩ := Onto.int t56 f56
  obtain ⟨t57, ts57, e57, f57, hf57⟩ := SuitsFields.uncons hf56
  subst e57
  obtain ⟨x57, p57, c57⟩ := Onto.float t57 f57
  obtain ⟨t58, ts58, e58, f58, hf58⟩ := SuitsFields.uncons hf57
  subst e58
  obtain ⟨x58, p58, c58⟩ := Onto.float t58 f58
  obtain ⟨t59, ts59, e59, f59, hf59⟩ := SuitsFields.uncons hf58
  subst e59
  obtain ⟨x59, p59, c59⟩ := Onto.float t59 f59
  obtain ⟨t60, ts60, e60, f60, hf60⟩ := SuitsFields.uncons hf59
  subst e60
  obtain ⟨x60, p60, c60⟩ := Onto.int t60 f60
  obtain ⟨t61, ts61, e61, f61, hf61⟩ := SuitsFields.uncons hf60
  subst e61
  obtain ⟨x61, p61, c61⟩ := Onto.int t61 f61
  obtain ⟨t62, ts62, e62, f62, hf62⟩ := SuitsFields.uncons hf61
  subst e62
  obtain ⟨x62, p62, c62⟩ := (Onto.tuple (n := 3) rfl ResourceStorage.onto) t62 f62
  obtain ⟨t63, ts63, e63, f63, hf63⟩ := SuitsFields.uncons hf62
  subst e63
  obtain ⟨x63, p63, c63⟩ := (Onto.list DamageGraphic.onto) t63 f63
  obtain ⟨t64, ts64, e64, f64, hf64⟩ := SuitsFields.uncons hf63
  subst e64
  obtain ⟨x64, p64, c64⟩ := Onto.int t64 f64
  obtain ⟨t65, ts65, e65, f65, hf65⟩ := SuitsFields.uncons hf64
  subst e65
  obtain ⟨x65, p65, c65⟩ := Onto.int t65 f65
  obtain ⟨t66, ts66, e66, f66, hf66⟩ := SuitsFields.uncons hf65
  subst e66
  obtain ⟨x66, p66, c66⟩ := Onto.int t66 f66
  obtain ⟨t67, ts67, e67, f67, hf67⟩ := SuitsFields.uncons hf66
  subst e67
  obtain ⟨x67, p67, c67⟩ := Onto.int t67 f67
  obtain ⟨t68, ts68, e68, f68, hf68⟩ := SuitsFields.uncons hf67
  subst e68
  obtain ⟨x68, p68, c68⟩ := Onto.int t68 f68
  obtain ⟨t69, ts69, e69, f69, hf69⟩ := SuitsFields.uncons hf68
  subst e69
  obtain ⟨x69, p69, c69⟩ := Onto.int t69 f69
  obtain ⟨t70, ts70, e70, f70, hf70⟩ := SuitsFields.uncons hf69
  subst e70
  obtain ⟨x70, p70, c70⟩ := Onto.int t70 f70
  obtain ⟨t71, ts71, e71, f71, hf71⟩ := SuitsFields.uncons hf70
  subst e71
  obtain ⟨x71, p71, c71⟩ := Onto.int t71 f71
  obtain ⟨t72, ts72, e72, f72, hf72⟩ := SuitsFields.uncons hf71
  subst e72
  obtain ⟨x72, p72, c72⟩ := Onto.str t72 f72
  obtain ⟨t73, ts73, e73, f73, hf73⟩ := SuitsFields.uncons hf72
  subst e73
  obtain ⟨x73, p73, c73⟩ := Onto.int t73 f73
  obtain ⟨t74, ts74, e74, f74, hf74⟩ := SuitsFields.uncons hf73
  subst e74
  obtain ⟨x74, p74, c74⟩ := Onto.int t74 f74
  obtain ⟨t75, ts75, e75, f75, hf75⟩ := SuitsFields.uncons hf74
  subst e75
  obtain ⟨x75, p75, c75⟩ := (Onto.opt Onto.float) t75 f75
  obtain ⟨t76, ts76, e76, f76, hf76⟩ := SuitsFields.uncons hf75
  subst e76
  obtain ⟨x76, p76, c76⟩ := (Onto.opt DeadFish.onto) t76 f76
  obtain ⟨t77, ts77, e77, f77, hf77⟩ := SuitsFields.uncons hf76
  subst e77
  obtain ⟨x77, p77, c77⟩ := (Onto.opt Bird.onto) t77 f77
  obtain ⟨t78, ts78, e78, f78, hf78⟩ := SuitsFields.uncons hf77
  subst e78
  obtain ⟨x78, p78, c78⟩ := (Onto.opt Type50.onto) t78 f78
  obtain ⟨t79, ts79, e79, f79, hf79⟩ := SuitsFields.uncons hf78
  subst e79
  obtain ⟨x79, p79, c79⟩ := (Onto.opt Projectile.onto) t79 f79
  obtain ⟨t80, ts80, e80, f80, hf80⟩ := SuitsFields.uncons hf79
  subst e80
  obtain ⟨x80, p80, c80⟩ := (Onto.opt Creatable.onto) t80 f80
  obtain ⟨t81, ts81, e81, f81, hf81⟩ := SuitsFields.uncons hf80
  subst e81
  obtain ⟨x81, p81, c81⟩ := (Onto.opt Building.onto) t81 f81
  have eN := SuitsFields.unnil hf81
  subst eN
  refine ⟨⟨x0, x1, x2, x3, x4, x5, x6, x7, x8, x9, x10, x11, x12, x13, x14, x15, x16, x17, x18, x19, x20, x21, x22, x23, x24, x25, x26, x27, x28, x29, x30, x31, x32, x33, x34, x35, x36, x37, x38, x39, x40, x41, x42, x43, x44, x45, x46, x47, x48, x49, x50, x51, x52, x53, x54, x55, x56, x57, x58, x59, x60, x61, x62, x63, x64, x65, x66, x67, x68, x69, x70, x71, x72, x73, x74, x75, x76, x77, x78, x79, x80, x81⟩, ⟨p5.1, p26.1, p27.1, p28.1, p62.1, p78, p80, p81⟩, .obj ?_⟩
  exact .cons c0 <| .cons c1 <| .cons c2 <| .cons c3 <| .cons c4 <| .cons c5 <| .cons c6 <| .cons c7 <| .cons c8 <| .cons c9 <| .cons c10 <| .cons c11 <| .cons c12 <| .cons c13 <| .cons c14 <| .cons c15 <| .cons c16 <| .cons c17 <| .cons c18 <| .cons c19 <| .cons c20 <| .cons c21 <| .cons c22 <| .cons c23 <| .cons c24 <| .cons c25 <| .cons c26 <| .cons c27 <| .cons c28 <| .cons c29 <| .cons c30 <| .cons c31 <| .cons c32 <| .cons c33 <| .cons c34 <| .cons c35 <| .cons c36 <| .cons c37 <| .cons c38 <| .cons c39 <| .cons c40 <| .cons c41 <| .cons c42 <| .cons c43 <| .cons c44 <| .cons c45 <| .cons c46 <| .cons c47 <| .cons c48 <| .cons c49 <| .cons c50 <| .cons c51 <| .cons c52 <| .cons c53 <| .cons c54 <| .cons c55 <| .cons c56 <| .cons c57 <| .cons c58 <| .cons c59 <| .cons c60 <| .cons c61 <| .cons c62 <| .cons c63 <| .cons c64 <| .cons c65 <| .cons c66 <| .cons c67 <| .cons c68 <| .cons c69 <| .cons c70 <| .cons c71 <| .cons c72 <| .cons c73 <| .cons c74 <| .cons c75 <| .cons c76 <| .cons c77 <| .cons c78 <| .cons c79 <| .cons c80 <| .cons c81 <| .nil

theorem UnitHeaders.onto : Onto (Declares false) (.cls (lit "UnitHeaders")) (UnitHeaders.object) (fun _ => True) := by
  intro t ht
  cases ht with
  | cls hd hf =>
  cases Declares.oneDef _ _ _ hd .UnitHeaders
  obtain ⟨t0, ts0, e0, f0, hf0⟩ := SuitsFields.uncons hf
  subst e0
  obtain ⟨x0, p0, c0⟩ := Onto.int t0 f0
  obtain ⟨t1, ts1, e1, f1, hf1⟩ := SuitsFields.uncons hf0
  subst e1
  obtain ⟨x1, p1, c1⟩ := (Onto.opt (Onto.list Task.onto)) t1 f1
  have eN := SuitsFields.unnil hf1
  subst eN
  refine ⟨⟨x0, x1⟩, trivial, .obj ?_⟩
  exact .cons c0 <| .cons c1 <| .nil

theorem Civ.onto : Onto (Declares false) (.cls (lit "Civ")) (Civ.object false) (Civ.Lengths) := by
  intro t ht
  cases ht with
  | cls hd hf =>
  cases Declares.oneDef _ _ _ hd .Civ
  obtain ⟨t0, ts0, e0, f0, hf0⟩ := SuitsFields.uncons hf
  subst e0
  obtain ⟨x0, p0, c0⟩ := Onto.int t0 f0
  obtain ⟨t1, ts1, e1, f1, hf1⟩ := SuitsFields.uncons hf0
  subst e1
  obtain ⟨x1, p1, c1⟩ := Onto.str t1 f1
  obtain ⟨t2, ts2, e2, f2, hf2⟩ := SuitsFields.uncons hf1
  subst e2
  obtain ⟨x2, p2, c2⟩ := Onto.int t2 f2
  obtain ⟨t3, ts3, e3, f3, hf3⟩ := SuitsFields.uncons hf2
  subst e3
  obtain ⟨x3, p3, c3⟩ := Onto.int t3 f3
  obtain ⟨t4, ts4, e4, f4, hf4⟩ := SuitsFields.uncons hf3
  subst e4
  obtain ⟨x4, p4, c4⟩ := (Onto.list Onto.float) t4 f4
  obtain ⟨t5, ts5, e5, f5, hf5⟩ := SuitsFields.uncons hf4
  subst e5
  obtain ⟨x5, p5, c5⟩ := Onto.int t5 f5
  obtain ⟨t6, ts6, e6, f6, hf6⟩ := SuitsFields.uncons hf5
  subst e6
  obtain ⟨x6, p6, c6⟩ := (Onto.list (Onto.opt Unit.onto)) t6 f6
  have eN := SuitsFields.unnil hf6
  subst eN
  refine ⟨⟨x0, x1, x2, x3, x4, x5, x6⟩, ⟨fun y hy => p6 _ hy y rfl⟩, .obj ?_⟩
  exact .cons c0 <| .cons c1 <| .cons c2 <| .cons c3 <| .cons c4 <| .cons c5 <| .cons c6 <| .nil

theorem DatFile.onto : Onto (Declares false) (.cls (lit "DatFile")) (DatFile.object false) (DatFile.Lengths) := by
  intro t ht
  cases ht with
  | cls hd hf =>
  cases Declares.oneDef _ _ _ hd .DatFile
  obtain ⟨t0, ts0, e0, f0, hf0⟩ := SuitsFields.uncons hf
  subst e0
  obtain ⟨x0, p0, c0⟩ := Onto.str t0 f0
  obtain ⟨t1, ts1, e1, f1, hf1⟩ := SuitsFields.uncons hf0
  subst e1
  obtain ⟨x1, p1, c1⟩ := (Onto.list Onto.int) t1 f1
  obtain ⟨t2, ts2, e2, f2, hf2⟩ := SuitsFields.uncons hf1
  subst e2
  obtain ⟨x2, p2, c2⟩ := (Onto.list Onto.int) t2 f2
  obtain ⟨t3, ts3, e3, f3, hf3⟩ := SuitsFields.uncons hf2
  subst e3
  obtain ⟨x3, p3, c3⟩ := (Onto.list TerrainRestriction.onto) t3 f3
  obtain ⟨t4, ts4, e4, f4, hf4⟩ := SuitsFields.uncons hf3
  subst e4
  obtain ⟨x4, p4, c4⟩ := (Onto.list PlayerColour.onto) t4 f4
  obtain ⟨t5, ts5, e5, f5, hf5⟩ := SuitsFields.uncons hf4
  subst e5
  obtain ⟨x5, p5, c5⟩ := (Onto.list Sound.onto) t5 f5
  obtain ⟨t6, ts6, e6, f6, hf6⟩ := SuitsFields.uncons hf5
  subst e6
  obtain ⟨x6, p6, c6⟩ := (Onto.list (Onto.opt Graphic.onto)) t6 f6
  obtain ⟨t7, ts7, e7, f7, hf7⟩ := SuitsFields.uncons hf6
  subst e7
  obtain ⟨x7, p7, c7⟩ := TerrainBlock.onto t7 f7
  obtain ⟨t8, ts8, e8, f8, hf8⟩ := SuitsFields.uncons hf7
  subst e8
  obtain ⟨x8, p8, c8⟩ := RandomMaps.onto t8 f8
  obtain ⟨t9, ts9, e9, f9, hf9⟩ := SuitsFields.uncons hf8
  subst e9
  obtain ⟨x9, p9, c9⟩ := (Onto.list Effect.onto) t9 f9
  obtain ⟨t10, ts10, e10, f10, hf10⟩ := SuitsFields.uncons hf9
  subst e10
  obtain ⟨x10, p10, c10⟩ := (Onto.list UnitHeaders.onto) t10 f10
  obtain ⟨t11, ts11, e11, f11, hf11⟩ := SuitsFields.uncons hf10
  subst e11
  obtain ⟨x11, p11, c11⟩ := (Onto.list Civ.onto) t11 f11
  obtain ⟨t12, ts12, e12, f12, hf12⟩ := SuitsFields.uncons hf11
  subst e12
  obtain ⟨x12, p12, c12⟩ := (Onto.list Tech.onto) t12 f12
  obtain ⟨t13, ts13, e13, f13, hf13⟩ := SuitsFields.uncons hf12
  subst e13
  obtain ⟨x13, p13, c13⟩ := Onto.int t13 f13
  obtain ⟨t14, ts14, e14, f14, hf14⟩ := SuitsFields.uncons hf13
  subst e14
  obtain ⟨x14, p14, c14⟩ := Onto.int t14 f14
  obtain ⟨t15, ts15, e15, f15, hf15⟩ := SuitsFields.uncons hf14
  subst e15
  obtain ⟨x15, p15, c15⟩ := Onto.int t15 f15
  obtain ⟨t16, ts16, e16, f16, hf16⟩ := SuitsFields.uncons hf15
  subst e16
  obtain ⟨x16, p16, c16⟩ := Onto.int t16 f16
  obtain ⟨t17, ts17, e17, f17, hf17⟩ := SuitsFields.uncons hf16
  subst e17
  obtain ⟨x17, p17, c17⟩ := Onto.int t17 f17
  obtain ⟨t18, ts18, e18, f18, hf18⟩ := SuitsFields.uncons hf17
  subst e18
  obtain ⟨x18, p18, c18⟩ := Onto.int t18 f18
  obtain ⟨t19, ts19, e19, f19, hf19⟩ := SuitsFields.uncons hf18
  subst e19
  obtain ⟨x19, p19, c19⟩ := Onto.int t19 f19
  obtain ⟨t20, ts20, e20, f20, hf20⟩ := SuitsFields.uncons hf19
  subst e20
  obtain ⟨x20, p20, c20⟩ := TechTree.onto t20 f20
  have eN := SuitsFields.unnil hf20
  subst eN
  refine ⟨⟨x0, x1, x2, x3, x4, x5, x6, x7, x8, x9, x10, x11, x12, x13, x14, x15, x16, x17, x18, x19, x20⟩, ⟨fun y hy => p6 _ hy y rfl, p7, p11, p12, p20⟩, .obj ?_⟩
  exact .cons c0 <| .cons c1 <| .cons c2 <| .cons c3 <| .cons c4 <| .cons c5 <| .cons c6 <| .cons c7 <| .cons c8 <| .cons c9 <| .cons c10 <| .cons c11 <| .cons c12 <| .cons c13 <| .cons c14 <| .cons c15 <| .cons c16 <| .cons c17 <| .cons c18 <| .cons c19 <| .cons c20 <| .nil

theorem EffectCommand.typedNow (x : EffectCommand) : HasType (Declares false) (.cls (lit "EffectCommand")) (EffectCommand.object x) := by
  refine .cls .EffectCommand ?_
  exact .cons (.int _) <|
    .cons (.int _) <|
    .cons (.int _) <|
    .cons (.int _) <|
    .cons (.float _) <| .nil

theorem Effect.typedNow (x : Effect) : HasType (Declares false) (.cls (lit "Effect")) (Effect.object x) := by
  refine .cls .Effect ?_
  exact .cons (.str _) <|
    .cons (.list_map (fun y _ => EffectCommand.typedNow y)) <| .nil

theorem SoundItem.typedNow (x : SoundItem) : HasType (Declares false) (.cls (lit "SoundItem")) (SoundItem.object x) := by
  refine .cls .SoundItem ?_
  exact .cons (.str _) <|
    .cons (.int _) <|
    .cons (.int _) <|
    .cons (.int _) <|
    .cons (.int _) <| .nil

theorem Sound.typedNow (x : Sound) : HasType (Declares false) (.cls (lit "Sound")) (Sound.object x) := by
  refine .cls .Sound ?_
  exact .cons (.int _) <|
    .cons (.int _) <|
    .cons (.int _) <|
    .cons (.int _) <|
    .cons (.list_map (fun y _ => SoundItem.typedNow y)) <| .nil

theorem PlayerColour.typedNow (x : PlayerColour) : HasType (Declares false) (.cls (lit "PlayerColour")) (PlayerColour.object x) := by
  refine .cls .PlayerColour ?_
  exact .cons (.int _) <|
    .cons (.int _) <|
    .cons (.int _) <|
    .cons (.int _) <|
    .cons (.int _) <|
    .cons (.int _) <|
    .cons (.int _) <|
    .cons (.int _) <|
    .cons (.int _) <| .nil

theorem GraphicDelta.typedNow (x : GraphicDelta) : HasType (Declares false) (.cls (lit "GraphicDelta")) (GraphicDelta.object x) := by
  refine .cls .GraphicDelta ?_
  exact .cons (.int _) <|
    .cons (.int _) <|
    .cons (.int _) <|
    .cons (.int _) <|
    .cons (.int _) <|
    .cons (.int _) <|
    .cons (.int _) <| .nil

theorem GraphicAngleSound.typedNow (x : GraphicAngleSound) : HasType (Declares false) (.cls (lit "GraphicAngleSound")) (GraphicAngleSound.object x) := by
  refine .cls .GraphicAngleSound ?_
  exact .cons (.int _) <|
    .cons (.int _) <|
    .cons (.int _) <|
    .cons (.int _) <|
    .cons (.int _) <|
    .cons (.int _) <|
    .cons (.int _) <|
    .cons (.int _) <|
    .cons (.int _) <| .nil

theorem Graphic.typedNow {x : Graphic} (h : x.Lengths) : HasType (Declares false) (.cls (lit "Graphic")) (Graphic.object x) := by
  refine .cls .Graphic ?_
  exact .cons (.str _) <|
    .cons (.str _) <|
    .cons (.str _) <|
    .cons (.int _) <|
    .cons (.int _) <|
    .cons (.int _) <|
    .cons (.int _) <|
    .cons (.int _) <|
    .cons (.int _) <|
    .cons (.tuple_map (n := 4) rfl h.coordinates (fun _ _ => .int _)) <|
    .cons (.int _) <|
    .cons (.int _) <|
    .cons (.int _) <|
    .cons (.int _) <|
    .cons (.int _) <|
    .cons (.float _) <|
    .cons (.float _) <|
    .cons (.float _) <|
    .cons (.int _) <|
    .cons (.int _) <|
    .cons (.int _) <|
    .cons (.int _) <|
    .cons (.list_map (fun y _ => GraphicDelta.typedNow y)) <|
    .cons (.list_map (fun y _ => GraphicAngleSound.typedNow y)) <| .nil

theorem TerrainPassGraphic.typedNow (x : TerrainPassGraphic) : HasType (Declares false) (.cls (lit "TerrainPassGraphic")) (TerrainPassGraphic.object x) := by
  refine .cls .TerrainPassGraphic ?_
  exact .cons (.int _) <|
    .cons (.int _) <|
    .cons (.int _) <|
    .cons (.int _) <| .nil

theorem TerrainRestriction.typedNow (x : TerrainRestriction) : HasType (Declares false) (.cls (lit "TerrainRestriction")) (TerrainRestriction.object x) := by
  refine .cls .TerrainRestriction ?_
  exact .cons (.list_map (fun _ _ => .float _)) <|
    .cons (.list_map (fun y _ => TerrainPassGraphic.typedNow y)) <| .nil

theorem FrameData.typedNow (x : FrameData) : HasType (Declares false) (.cls (lit "FrameData")) (FrameData.object x) := by
  refine .cls .FrameData ?_
  exact .cons (.int _) <|
    .cons (.int _) <|
    .cons (.int _) <| .nil

theorem Terrain.typedNow {x : Terrain} (h : x.Lengths) : HasType (Declares false) (.cls (lit "Terrain")) (Terrain.object x) := by
  refine .cls .Terrain ?_
  exact .cons (.int _) <|
    .cons (.int _) <|
    .cons (.int _) <|
    .cons (.int _) <|
    .cons (.int _) <|
    .cons (.str _) <|
    .cons (.str _) <|
    .cons (.int _) <|
    .cons (.int _) <|
    .cons (.int _) <|
    .cons (.int _) <|
    .cons (.int _) <|
    .cons (.int _) <|
    .cons (.int _) <|
    .cons (.str _) <|
    .cons (.tuple_map (n := 3) rfl h.colors (fun _ _ => .int _)) <|
    .cons (.tuple_map (n := 2) rfl h.cliff_colors (fun _ _ => .int _)) <|
    .cons (.int _) <|
    .cons (.int _) <|
    .cons (.int _) <|
    .cons (.int _) <|
    .cons (.int _) <|
    .cons (.float _) <|
    .cons (.float _) <|
    .cons (.int _) <|
    .cons (.int _) <|
    .cons (.float _) <|
    .cons (.int _) <|
    .cons (.int _) <|
    .cons (.list_map (fun y _ => FrameData.typedNow y)) <|
    .cons (.int _) <|
    .cons (.tuple_map (n := 2) rfl h.terrain_dimensions (fun _ _ => .int _)) <|
    .cons (.list_map (fun _ _ => .int _)) <|
    .cons (.list_map (fun _ _ => .int _)) <|
    .cons (.list_map (fun _ _ => .int _)) <|
    .cons (.list_map (fun _ _ => .int _)) <|
    .cons (.int _) <|
    .cons (.int _) <| .nil

theorem TileSize.typedNow (x : TileSize) : HasType (Declares false) (.cls (lit "TileSize")) (TileSize.object x) := by
  refine .cls .TileSize ?_
  exact .cons (.int _) <|
    .cons (.int _) <|
    .cons (.int _) <| .nil

theorem TerrainBlock.typedNow {x : TerrainBlock} (h : x.Lengths) : HasType (Declares false) (.cls (lit "TerrainBlock")) (TerrainBlock.object x) := by
  refine .cls .TerrainBlock ?_
  exact .cons (.int _) <|
    .cons (.int _) <|
    .cons (.int _) <|
    .cons (.int _) <|
    .cons (.int _) <|
    .cons (.int _) <|
    .cons (.list_map (fun y _ => TileSize.typedNow y)) <|
    .cons (.int _) <|
    .cons (.list_map (fun y hy => Terrain.typedNow (h.terrains y hy))) <|
    .cons (.float _) <|
    .cons (.float _) <|
    .cons (.float _) <|
    .cons (.float _) <|
    .cons (.float _) <|
    .cons (.float _) <|
    .cons (.int _) <|
    .cons (.int _) <|
    .cons (.int _) <|
    .cons (.int _) <|
    .cons (.int _) <|
    .cons (.int _) <|
    .cons (.int _) <|
    .cons (.int _) <|
    .cons (.int _) <|
    .cons (.int _) <|
    .cons (.int _) <|
    .cons (.int _) <|
    .cons (.int _) <|
    .cons (.int _) <|
    .cons (.int _) <|
    .cons (.int _) <|
    .cons (.int _) <|
    .cons (.int _) <|
    .cons (.int _) <| .nil

theorem MapUnit.typedNow (x : MapUnit) : HasType (Declares false) (.cls (lit "MapUnit")) (MapUnit.object x) := by
  refine .cls .MapUnit ?_
  exact .cons (.int _) <|
    .cons (.int _) <|
    .cons (.int _) <|
    .cons (.int _) <|
    .cons (.int _) <|
    .cons (.int _) <|
    .cons (.int _) <|
    .cons (.int _) <|
    .cons (.int _) <|
    .cons (.int _) <|
    .cons (.int _) <|
    .cons (.int _) <|
    .cons (.int _) <| .nil

theorem MapTerrain.typedNow (x : MapTerrain) : HasType (Declares false) (.cls (lit "MapTerrain")) (MapTerrain.object x) := by
  refine .cls .MapTerrain ?_
  exact .cons (.int _) <|
    .cons (.int _) <|
    .cons (.int _) <|
    .cons (.int _) <|
    .cons (.int _) <|
    .cons (.int _) <| .nil

theorem MapLand.typedNow (x : MapLand) : HasType (Declares false) (.cls (lit "MapLand")) (MapLand.object x) := by
  refine .cls .MapLand ?_
  exact .cons (.int _) <|
    .cons (.int _) <|
    .cons (.int _) <|
    .cons (.int _) <|
    .cons (.int _) <|
    .cons (.int _) <|
    .cons (.int _) <|
    .cons (.int _) <|
    .cons (.int _) <|
    .cons (.int _) <|
    .cons (.int _) <|
    .cons (.int _) <|
    .cons (.int _) <|
    .cons (.int _) <|
    .cons (.int _) <| .nil

theorem MapElevation.typedNow (x : MapElevation) : HasType (Declares false) (.cls (lit "MapElevation")) (MapElevation.object x) := by
  refine .cls .MapElevation ?_
  exact .cons (.int _) <|
    .cons (.int _) <|
    .cons (.int _) <|
    .cons (.int _) <|
    .cons (.int _) <|
    .cons (.int _) <| .nil

theorem MapInfo.typedNow (x : MapInfo) : HasType (Declares false) (.cls (lit "MapInfo")) (MapInfo.object x) := by
  refine .cls .MapInfo ?_
  exact .cons (.int _) <|
    .cons (.int _) <|
    .cons (.int _) <|
    .cons (.int _) <|
    .cons (.int _) <|
    .cons (.int _) <|
    .cons (.int _) <|
    .cons (.int _) <|
    .cons (.int _) <|
    .cons (.int _) <|
    .cons (.int _) <|
    .cons (.int _) <|
    .cons (.list_map (fun y _ => MapLand.typedNow y)) <|
    .cons (.int _) <|
    .cons (.int _) <|
    .cons (.list_map (fun y _ => MapTerrain.typedNow y)) <|
    .cons (.int _) <|
    .cons (.int _) <|
    .cons (.list_map (fun y _ => MapUnit.typedNow y)) <|
    .cons (.int _) <|
    .cons (.int _) <|
    .cons (.list_map (fun y _ => MapElevation.typedNow y)) <| .nil

theorem RandomMaps.typedNow (x : RandomMaps) : HasType (Declares false) (.cls (lit "RandomMaps")) (RandomMaps.object x) := by
  refine .cls .RandomMaps ?_
  exact .cons (.int _) <|
    .cons (.list_map (fun y _ => MapInfo.typedNow y)) <|
    .cons (.list_map (fun y _ => MapInfo.typedNow y)) <| .nil

theorem ResearchResourceCost.typedNow (x : ResearchResourceCost) : HasType (Declares false) (.cls (lit "ResearchResourceCost")) (ResearchResourceCost.object x) := by
  refine .cls .ResearchResourceCost ?_
  exact .cons (.int _) <|
    .cons (.int _) <|
    .cons (.int _) <| .nil

theorem ResearchLocation.typedNow (x : ResearchLocation) : HasType (Declares false) (.cls (lit "ResearchLocation")) (ResearchLocation.object x) := by
  refine .cls .ResearchLocation ?_
  exact .cons (.int _) <|
    .cons (.int _) <|
    .cons (.int _) <|
    .cons (.int _) <| .nil

theorem Tech.typedNow {x : Tech} (h : x.Lengths) : HasType (Declares false) (.cls (lit "Tech")) (Tech.object x) := by
  refine .cls .Tech ?_
  exact .cons (.tuple_map (n := 6) rfl h.required_techs (fun _ _ => .int _)) <|
    .cons (.tuple_map (n := 3) rfl h.resource_costs (fun y _ => ResearchResourceCost.typedNow y)) <|
    .cons (.int _) <|
    .cons (.int _) <|
    .cons (.int _) <|
    .cons (.int _) <|
    .cons (.int _) <|
    .cons (.int _) <|
    .cons (.int _) <|
    .cons (.int _) <|
    .cons (.int _) <|
    .cons (.int _) <|
    .cons (.str _) <|
    .cons (.int _) <|
    .cons (.list_map (fun y _ => ResearchLocation.typedNow y)) <| .nil

theorem Common.typedNow {x : Common} (h : x.Lengths) : HasType (Declares false) (.cls (lit "Common")) (Common.object x) := by
  refine .cls .Common ?_
  exact .cons (.int _) <|
    .cons (.tuple_map (n := 10) rfl h.unit_research (fun _ _ => .int _)) <|
    .cons (.tuple_map (n := 10) rfl h.mode (fun _ _ => .int _)) <| .nil

theorem TechTreeAge.typedNow {x : TechTreeAge} (h : x.Lengths) : HasType (Declares false) (.cls (lit "TechTreeAge")) (TechTreeAge.object x) := by
  refine .cls .TechTreeAge ?_
  exact .cons (.int _) <|
    .cons (.int _) <|
    .cons (.list_map (fun _ _ => .int _)) <|
    .cons (.list_map (fun _ _ => .int _)) <|
    .cons (.list_map (fun _ _ => .int _)) <|
    .cons (Common.typedNow h.common) <|
    .cons (.int _) <|
    .cons (.tuple_map (n := 10) rfl h.buildings_per_zone (fun _ _ => .int _)) <|
    .cons (.tuple_map (n := 10) rfl h.group_length_per_zone (fun _ _ => .int _)) <|
    .cons (.int _) <|
    .cons (.int _) <| .nil

theorem BuildingConnection.typedNow {x : BuildingConnection} (h : x.Lengths) : HasType (Declares false) (.cls (lit "BuildingConnection")) (BuildingConnection.object x) := by
  refine .cls .BuildingConnection ?_
  exact .cons (.int _) <|
    .cons (.int _) <|
    .cons (.list_map (fun _ _ => .int _)) <|
    .cons (.list_map (fun _ _ => .int _)) <|
    .cons (.list_map (fun _ _ => .int _)) <|
    .cons (Common.typedNow h.common) <|
    .cons (.int _) <|
    .cons (.tuple_map (n := 5) rfl h.units_techs_total (fun _ _ => .int _)) <|
    .cons (.tuple_map (n := 5) rfl h.units_techs_first (fun _ _ => .int _)) <|
    .cons (.int _) <|
    .cons (.int _) <| .nil

theorem UnitConnection.typedNow {x : UnitConnection} (h : x.Lengths) : HasType (Declares false) (.cls (lit "UnitConnection")) (UnitConnection.object x) := by
  refine .cls .UnitConnection ?_
  exact .cons (.int _) <|
    .cons (.int _) <|
    .cons (.int _) <|
    .cons (Common.typedNow h.common) <|
    .cons (.int _) <|
    .cons (.list_map (fun _ _ => .int _)) <|
    .cons (.int _) <|
    .cons (.int _) <|
    .cons (.int _) <|
    .cons (.int _) <| .nil

theorem ResearchConnection.typedNow {x : ResearchConnection} (h : x.Lengths) : HasType (Declares false) (.cls (lit "ResearchConnection")) (ResearchConnection.object x) := by
  refine .cls .ResearchConnection ?_
  exact .cons (.int _) <|
    .cons (.int _) <|
    .cons (.int _) <|
    .cons (.list_map (fun _ _ => .int _)) <|
    .cons (.list_map (fun _ _ => .int _)) <|
    .cons (.list_map (fun _ _ => .int _)) <|
    .cons (Common.typedNow h.common) <|
    .cons (.int _) <|
    .cons (.int _) <|
    .cons (.int _) <| .nil

theorem TechTree.typedNow {x : TechTree} (h : x.Lengths) : HasType (Declares false) (.cls (lit "TechTree")) (TechTree.object x) := by
  refine .cls .TechTree ?_
  exact .cons (.int _) <|
    .cons (.list_map (fun y hy => TechTreeAge.typedNow (h.tech_tree_ages y hy))) <|
    .cons (.list_map (fun y hy => BuildingConnection.typedNow (h.building_connections y hy))) <|
    .cons (.list_map (fun y hy => UnitConnection.typedNow (h.unit_connections y hy))) <|
    .cons (.list_map (fun y hy => ResearchConnection.typedNow (h.research_connections y hy))) <| .nil

theorem Task.typedNow (x : Task) : HasType (Declares false) (.cls (lit "Task")) (Task.object x) := by
  refine .cls .Task ?_
  exact .cons (.int _) <|
    .cons (.int _) <|
    .cons (.int _) <|
    .cons (.int _) <|
    .cons (.int _) <|
    .cons (.int _) <|
    .cons (.int _) <|
    .cons (.int _) <|
    .cons (.int _) <|
    .cons (.int _) <|
    .cons (.int _) <|
    .cons (.float _) <|
    .cons (.float _) <|
    .cons (.float _) <|
    .cons (.int _) <|
    .cons (.float _) <|
    .cons (.int _) <|
    .cons (.int _) <|
    .cons (.int _) <|
    .cons (.int _) <|
    .cons (.int _) <|
    .cons (.int _) <|
    .cons (.int _) <|
    .cons (.int _) <|
    .cons (.int _) <|
    .cons (.int _) <|
    .cons (.int _) <|
    .cons (.int _) <|
    .cons (.int _) <|
    .cons (.int _) <|
    .cons (.int _) <|
    .cons (.int _) <| .nil

theorem ResourceStorage.typedNow (x : ResourceStorage) : HasType (Declares false) (.cls (lit "ResourceStorage")) (ResourceStorage.object x) := by
  refine .cls .ResourceStorage ?_
  exact .cons (.int _) <|
    .cons (.float _) <|
    .cons (.int _) <| .nil

theorem DamageGraphic.typedNow (x : DamageGraphic) : HasType (Declares false) (.cls (lit "DamageGraphic")) (DamageGraphic.object x) := by
  refine .cls .DamageGraphic ?_
  exact .cons (.int _) <|
    .cons (.int _) <|
    .cons (.int _) <| .nil

theorem DeadFish.typedNow (x : DeadFish) : HasType (Declares false) (.cls (lit "DeadFish")) (DeadFish.object x) := by
  refine .cls .DeadFish ?_
  exact .cons (.int _) <|
    .cons (.int _) <|
    .cons (.float _) <|
    .cons (.int _) <|
    .cons (.int _) <|
    .cons (.int _) <|
    .cons (.float _) <|
    .cons (.int _) <|
    .cons (.float _) <|
    .cons (.float _) <|
    .cons (.float _) <|
    .cons (.float _) <|
    .cons (.float _) <|
    .cons (.float _) <| .nil

theorem Bird.typedNow (x : Bird) : HasType (Declares false) (.cls (lit "Bird")) (Bird.object x) := by
  refine .cls .Bird ?_
  exact .cons (.int _) <|
    .cons (.float _) <|
    .cons (.float _) <|
    .cons (.list_map (fun _ _ => .int _)) <|
    .cons (.int _) <|
    .cons (.int _) <|
    .cons (.int _) <|
    .cons (.int _) <|
    .cons (.int _) <|
    .cons (.int _) <|
    .cons (.list_map (fun y _ => Task.typedNow y)) <| .nil

theorem AttackOrArmor.typedNow (x : AttackOrArmor) : HasType (Declares false) (.cls (lit "AttackOrArmor")) (AttackOrArmor.object x) := by
  refine .cls .AttackOrArmor ?_
  exact .cons (.int _) <|
    .cons (.int _) <| .nil

theorem Type50.typedNow {x : Type50} (h : x.Lengths) : HasType (Declares false) (.cls (lit "Type50")) (Type50.object x) := by
  refine .cls .Type50 ?_
  exact .cons (.int _) <|
    .cons (.list_map (fun y _ => AttackOrArmor.typedNow y)) <|
    .cons (.list_map (fun y _ => AttackOrArmor.typedNow y)) <|
    .cons (.int _) <|
    .cons (.float _) <|
    .cons (.float _) <|
    .cons (.float _) <|
    .cons (.float _) <|
    .cons (.int _) <|
    .cons (.int _) <|
    .cons (.int _) <|
    .cons (.int _) <|
    .cons (.tuple_map (n := 3) rfl h.graphic_displacement (fun _ _ => .float _)) <|
    .cons (.int _) <|
    .cons (.float _) <|
    .cons (.float _) <|
    .cons (.int _) <|
    .cons (.int _) <|
    .cons (.int _) <|
    .cons (.float _) <|
    .cons (.float _) <|
    .cons (.float _) <|
    .cons (.float _) <|
    .cons (.float _) <|
    .cons (.int _) <|
    .cons (.float _) <|
    .cons (.int _) <| .nil

theorem Projectile.typedNow (x : Projectile) : HasType (Declares false) (.cls (lit "Projectile")) (Projectile.object x) := by
  refine .cls .Projectile ?_
  exact .cons (.int _) <|
    .cons (.int _) <|
    .cons (.int _) <|
    .cons (.int _) <|
    .cons (.int _) <|
    .cons (.float _) <| .nil

theorem ResourceCost.typedNow (x : ResourceCost) : HasType (Declares false) (.cls (lit "ResourceCost")) (ResourceCost.object x) := by
  refine .cls .ResourceCost ?_
  exact .cons (.int _) <|
    .cons (.int _) <|
    .cons (.int _) <| .nil

theorem TrainLocation.typedNow (x : TrainLocation) : HasType (Declares false) (.cls (lit "TrainLocation")) (TrainLocation.object x) := by
  refine .cls .TrainLocation ?_
  exact .cons (.int _) <|
    .cons (.int _) <|
    .cons (.int _) <|
    .cons (.int _) <| .nil

theorem Creatable.typedNow {x : Creatable} (h : x.Lengths) : HasType (Declares false) (.cls (lit "Creatable")) (Creatable.object false x) := by
  refine .cls .Creatable ?_
  exact .cons (.tuple_map (n := 3) rfl h.resource_costs (fun y _ => ResourceCost.typedNow y)) <|
    .cons (.list_map (fun y _ => TrainLocation.typedNow y)) <|
    .cons (.float _) <|
    .cons (.float _) <|
    .cons (.int _) <|
    .cons (.int _) <|
    .cons (.int _) <|
    .cons (.int _) <|
    .cons (.int _) <|
    .cons (.int _) <|
    .cons (.int _) <|
    .cons (.float _) <|
    .cons (.float _) <|
    .cons (.int _) <|
    .cons (.int _) <|
    .cons (.int _) <|
    .cons (.int _) <|
    .cons (.int _) <|
    .cons (.float _) <|
    .cons (.int _) <|
    .cons (.int _) <|
    .cons (.int _) <|
    .cons (.int _) <|
    .cons (.float _) <|
    .cons (.float _) <|
    .cons (.float _) <|
    .cons (.float _) <|
    .cons (.int _) <|
    .cons (.tuple_map (n := 3) rfl h.projectile_spawning_area (fun _ _ => .float _)) <|
    .cons (.int _) <|
    .cons (.int _) <|
    .cons (.int _) <|
    .cons (.int _) <| .nil

theorem BuildingAnnex.typedNow (x : BuildingAnnex) : HasType (Declares false) (.cls (lit "BuildingAnnex")) (BuildingAnnex.object x) := by
  refine .cls .BuildingAnnex ?_
  exact .cons (.int _) <|
    .cons (.float _) <|
    .cons (.float _) <| .nil

theorem Building.typedNow {x : Building} (h : x.Lengths) : HasType (Declares false) (.cls (lit "Building")) (Building.object x) := by
  refine .cls .Building ?_
  exact .cons (.int _) <|
    .cons (.int _) <|
    .cons (.int _) <|
    .cons (.int _) <|
    .cons (.int _) <|
    .cons (.int _) <|
    .cons (.int _) <|
    .cons (.int _) <|
    .cons (.int _) <|
    .cons (.int _) <|
    .cons (.int _) <|
    .cons (.int _) <|
    .cons (.int _) <|
    .cons (.int _) <|
    .cons (.tuple_map (n := 4) rfl h.annexes (fun y _ => BuildingAnnex.typedNow y)) <|
    .cons (.int _) <|
    .cons (.int _) <|
    .cons (.int _) <|
    .cons (.int _) <|
    .cons (.int _) <|
    .cons (.int _) <|
    .cons (.int _) <|
    .cons (.float _) <|
    .cons (.float _) <|
    .cons (.int _) <|
    .cons (.tuple_map (n := 6) rfl h.looting_table (fun _ _ => .int _)) <| .nil

theorem Unit.typedNow {x : Unit} (h : x.Lengths) : HasType (Declares false) (.cls (lit "Unit")) (Unit.object false x) := by
  refine .cls .Unit ?_
  exact .cons (.int _) <|
    .cons (.int _) <|
    .cons (.int _) <|
    .cons (.int _) <|
    .cons (.int _) <|
    .cons (.tuple_map (n := 2) rfl h.standing_graphic (fun _ _ => .int _)) <|
    .cons (.int _) <|
    .cons (.int _) <|
    .cons (.int _) <|
    .cons (.int _) <|
    .cons (.float _) <|
    .cons (.int _) <|
    .cons (.float _) <|
    .cons (.float _) <|
    .cons (.float _) <|
    .cons (.int _) <|
    .cons (.int _) <|
    .cons (.int _) <|
    .cons (.int _) <|
    .cons (.int _) <|
    .cons (.int _) <|
    .cons (.int _) <|
    .cons (.int _) <|
    .cons (.int _) <|
    .cons (.int _) <|
    .cons (.int _) <|
    .cons (.tuple_map (n := 2) rfl h.placement_side_terrain (fun _ _ => .int _)) <|
    .cons (.tuple_map (n := 2) rfl h.placement_terrain (fun _ _ => .int _)) <|
    .cons (.tuple_map (n := 2) rfl h.clearance_size (fun _ _ => .float _)) <|
    .cons (.int _) <|
    .cons (.int _) <|
    .cons (.int _) <|
    .cons (.int _) <|
    .cons (.int _) <|
    .cons (.float _) <|
    .cons (.int _) <|
    .cons (.int _) <|
    .cons (.int _) <|
    .cons (.int _) <|
    .cons (.int _) <|
    .cons (.float _) <|
    .cons (.int _) <|
    .cons (.int _) <|
    .cons (.int _) <|
    .cons (.int _) <|
    .cons (.int _) <|
    .cons (.int _) <|
    .cons (.int _) <|
    .cons (.int _) <|
    .cons (.int _) <|
    .cons (.int _) <|
    .cons (.int _) <|
    .cons (.int _) <|
    .cons (.int _) <|
    .cons (.int _) <|
    .cons (.int _) <|
    .cons (.int _) <|
    .cons (.float _) <|
    .cons (.float _) <|
    .cons (.float _) <|
    .cons (.int _) <|
    .cons (.int _) <|
    .cons (.tuple_map (n := 3) rfl h.resource_storages (fun y _ => ResourceStorage.typedNow y)) <|
    .cons (.list_map (fun y _ => DamageGraphic.typedNow y)) <|
    .cons (.int _) <|
    .cons (.int _) <|
    .cons (.int _) <|
    .cons (.int _) <|
    .cons (.int _) <|
    .cons (.int _) <|
    .cons (.int _) <|
    .cons (.int _) <|
    .cons (.str _) <|
    .cons (.int _) <|
    .cons (.int _) <|
    .cons (.optObj fun z _ => .float _) <|
    .cons (.optObj fun z _ => DeadFish.typedNow z) <|
    .cons (.optObj fun z _ => Bird.typedNow z) <|
    .cons (.optObj fun z hz => Type50.typedNow (h.type_50 z hz)) <|
    .cons (.optObj fun z _ => Projectile.typedNow z) <|
    .cons (.optObj fun z hz => Creatable.typedNow (h.creatable z hz)) <|
    .cons (.optObj fun z hz => Building.typedNow (h.building z hz)) <| .nil

theorem UnitHeaders.typedNow (x : UnitHeaders) : HasType (Declares false) (.cls (lit "UnitHeaders")) (UnitHeaders.object x) := by
  refine .cls .UnitHeaders ?_
  exact .cons (.int _) <|
    .cons (.optObj (fun y _ => .list_map (fun y _ => Task.typedNow y))) <| .nil

theorem Civ.typedNow {x : Civ} (h : x.Lengths) : HasType (Declares false) (.cls (lit "Civ")) (Civ.object false x) := by
  refine .cls .Civ ?_
  exact .cons (.int _) <|
    .cons (.str _) <|
    .cons (.int _) <|
    .cons (.int _) <|
    .cons (.list_map (fun _ _ => .float _)) <|
    .cons (.int _) <|
    .cons (.list_map (fun y hy => .optObj fun z hz => Unit.typedNow (h.units z (hz ▸ hy)))) <| .nil

theorem DatFile.typedNow {x : DatFile} (h : x.Lengths) : HasType (Declares false) (.cls (lit "DatFile")) (DatFile.object false x) := by
  refine .cls .DatFile ?_
  exact .cons (.str _) <|
    .cons (.list_map (fun _ _ => .int _)) <|
    .cons (.list_map (fun _ _ => .int _)) <|
    .cons (.list_map (fun y _ => TerrainRestriction.typedNow y)) <|
    .cons (.list_map (fun y _ => PlayerColour.typedNow y)) <|
    .cons (.list_map (fun y _ => Sound.typedNow y)) <|
    .cons (.list_map (fun y hy => .optObj fun z hz => Graphic.typedNow (h.graphics z (hz ▸ hy)))) <|
    .cons (TerrainBlock.typedNow h.terrain_block) <|
    .cons (RandomMaps.typedNow _) <|
    .cons (.list_map (fun y _ => Effect.typedNow y)) <|
    .cons (.list_map (fun y _ => UnitHeaders.typedNow y)) <|
    .cons (.list_map (fun y hy => Civ.typedNow (h.civs y hy))) <|
    .cons (.list_map (fun y hy => Tech.typedNow (h.techs y hy))) <|
    .cons (.int _) <|
    .cons (.int _) <|
    .cons (.int _) <|
    .cons (.int _) <|
    .cons (.int _) <|
    .cons (.int _) <|
    .cons (.int _) <|
    .cons (TechTree.typedNow h.tech_tree) <| .nil

theorem Graphic.lengths {v : Version} {x : Graphic} (h : Graphic.WF v x) : x.Lengths where
  coordinates := h.coordinates.1

theorem Terrain.lengths {v : Version} {x : Terrain} (h : Terrain.WF v x) : x.Lengths where
  colors := h.colors.1
  cliff_colors := h.cliff_colors.1
  terrain_dimensions := h.terrain_dimensions.1

theorem TerrainBlock.lengths {v : Version} {x : TerrainBlock} (h : TerrainBlock.WF v x) : x.Lengths where
  terrains := fun y hy => Terrain.lengths (h.terrains.2 y hy)

theorem Tech.lengths {v : Version} {x : Tech} (h : Tech.WF v x) : x.Lengths where
  required_techs := h.required_techs.1
  resource_costs := h.resource_costs.1

theorem Common.lengths {v : Version} {x : Common} (h : Common.WF v x) : x.Lengths where
  unit_research := h.unit_research.1
  mode := h.mode.1

theorem TechTreeAge.lengths {v : Version} {x : TechTreeAge} (h : TechTreeAge.WF v x) : x.Lengths where
  common := Common.lengths h.common
  buildings_per_zone := h.buildings_per_zone.1
  group_length_per_zone := h.group_length_per_zone.1

theorem BuildingConnection.lengths {v : Version} {x : BuildingConnection} (h : BuildingConnection.WF v x) : x.Lengths where
  common := Common.lengths h.common
  units_techs_total := h.units_techs_total.1
  units_techs_first := h.units_techs_first.1

theorem UnitConnection.lengths {v : Version} {x : UnitConnection} (h : UnitConnection.WF v x) : x.Lengths where
  common := Common.lengths h.common

theorem ResearchConnection.lengths {v : Version} {x : ResearchConnection} (h : ResearchConnection.WF v x) : x.Lengths where
  common := Common.lengths h.common

theorem TechTree.lengths {v : Version} {x : TechTree} (h : TechTree.WF v x) : x.Lengths where
  tech_tree_ages := fun y hy => TechTreeAge.lengths (h.tech_tree_ages.2 y hy)
  building_connections := fun y hy => BuildingConnection.lengths (h.building_connections.2 y hy)
  unit_connections := fun y hy => UnitConnection.lengths (h.unit_connections.2 y hy)
  research_connections := fun y hy => ResearchConnection.lengths (h.research_connections.2 y hy)

theorem Type50.lengths {v : Version} {x : Type50} (h : Type50.WF v x) : x.Lengths where
  graphic_displacement := h.graphic_displacement.1

theorem Creatable.lengths {v : Version} {k : Int} {x : Creatable} (h : Creatable.WFWith v k x) : x.Lengths where
  resource_costs := h.resource_costs.1
  projectile_spawning_area := h.projectile_spawning_area.1

theorem Building.lengths {v : Version} {x : Building} (h : Building.WF v x) : x.Lengths where
  annexes := h.annexes.1
  looting_table := h.looting_table.1

theorem Unit.lengths {v : Version} {x : Unit} (h : Unit.WF v x) : x.Lengths where
  standing_graphic := h.standing_graphic.1
  placement_side_terrain := h.placement_side_terrain.1
  placement_terrain := h.placement_terrain.1
  clearance_size := h.clearance_size.1
  resource_storages := h.resource_storages.1
  type_50 := fun y hy => Type50.lengths (h.type_50.2 y hy)
  creatable := fun y hy => Creatable.lengths (h.creatable.2 y hy)
  building := fun y hy => Building.lengths (h.building.2 y hy)

theorem Civ.lengths {v : Version} {x : Civ} (h : Civ.WF v x) : x.Lengths where
  units := fun y hy => Unit.lengths (h.units.2 _ hy y rfl)

theorem DatFile.lengths {v : Version} {x : DatFile} (h : DatFile.WFAt v x) : x.Lengths where
  graphics := fun y hy => Graphic.lengths (h.graphics.2 _ hy y rfl)
  terrain_block := TerrainBlock.lengths h.terrain_block
  civs := fun y hy => Civ.lengths (h.civs.2 y hy)
  techs := fun y hy => Tech.lengths (h.techs.2 y hy)
  tech_tree := TechTree.lengths h.tech_tree

theorem Creatable.Lengths.sized {x : Creatable} (h : x.Lengths) : x.Sized := h.projectile_spawning_area

theorem Building.Lengths.sized {x : Building} (h : x.Lengths) : x.Sized := h.looting_table

theorem Unit.Lengths.sized {x : Unit} (h : x.Lengths) : x.Sized :=
  ⟨h.standing_graphic, h.placement_side_terrain, h.placement_terrain, h.clearance_size, fun c hc => (h.creatable c hc).sized,
    fun b hb => (h.building b hb).sized⟩

theorem Civ.Lengths.sized {x : Civ} (h : x.Lengths) : x.Sized := fun u hu => (h.units u hu).sized

theorem DatFile.Lengths.sized {x : DatFile} (h : x.Lengths) : x.Sized := fun c hc => (h.civs c hc).sized

end Genie
