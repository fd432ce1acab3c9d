import Verif.Proof.Source.Reads
import Verif.Model.TextRecords
import Verif.Model.Source
import Verif.Model.SourceIo
/-!
# What the parser makes of the files: the trees

By computation in the kernel: the text of a file is one closed term, its tree another.
-/

namespace Genie.Src.Text

/-- The trees of `/repo/src/genieutils/effect.py`. -/
def tree_effect : Parsed where
  globals := module_effect.globals
  classes := [EffectCommand.src, Effect.src]
  funs := []
  body := .done

theorem reads_effect : parseModule n!"effect" text_effect = some tree_effect := Parsed.same_eq (by decide +kernel)

/-- The trees of `/repo/src/genieutils/sound.py`. -/
def tree_sound : Parsed where
  globals := module_sound.globals
  classes := [SoundItem.src, Sound.src]
  funs := []
  body := .done

theorem reads_sound : parseModule n!"sound" text_sound = some tree_sound := Parsed.same_eq (by decide +kernel)

/-- The trees of `/repo/src/genieutils/playercolour.py`. -/
def tree_playercolour : Parsed where
  globals := module_playercolour.globals
  classes := [PlayerColour.src]
  funs := []
  body := .done

theorem reads_playercolour : parseModule n!"playercolour" text_playercolour = some tree_playercolour := Parsed.same_eq (by decide +kernel)

/-- The trees of `/repo/src/genieutils/graphic.py`. -/
def tree_graphic : Parsed where
  globals := module_graphic.globals
  classes := [GraphicDelta.src, GraphicAngleSound.src, Graphic.src]
  funs := []
  body := .done

theorem reads_graphic : parseModule n!"graphic" text_graphic = some tree_graphic := Parsed.same_eq (by decide +kernel)

/-- The trees of `/repo/src/genieutils/terrainrestriction.py`. -/
def tree_terrainrestriction : Parsed where
  globals := module_terrainrestriction.globals
  classes := [TerrainPassGraphic.src, TerrainRestriction.src]
  funs := []
  body := .done

theorem reads_terrainrestriction : parseModule n!"terrainrestriction" text_terrainrestriction = some tree_terrainrestriction := Parsed.same_eq (by decide +kernel)

/-- The trees of `/repo/src/genieutils/terrainblock.py`. -/
def tree_terrainblock : Parsed where
  globals := module_terrainblock.globals
  classes := [FrameData.src, Terrain.src, TileSize.src, TerrainBlock.src]
  funs := []
  body := .done

theorem reads_terrainblock : parseModule n!"terrainblock" text_terrainblock = some tree_terrainblock := Parsed.same_eq (by decide +kernel)

/-- The trees of `/repo/src/genieutils/randommaps.py`. -/
def tree_randommaps : Parsed where
  globals := module_randommaps.globals
  classes := [MapUnit.src, MapTerrain.src, MapLand.src, MapElevation.src, MapInfo.src, RandomMaps.src]
  funs := []
  body := .done

theorem reads_randommaps : parseModule n!"randommaps" text_randommaps = some tree_randommaps := Parsed.same_eq (by decide +kernel)

/-- The trees of `/repo/src/genieutils/tech.py`. -/
def tree_tech : Parsed where
  globals := module_tech.globals
  classes := [ResearchResourceCost.src, ResearchLocation.src, Tech.src]
  funs := []
  body := .done

theorem reads_tech : parseModule n!"tech" text_tech = some tree_tech := Parsed.same_eq (by decide +kernel)

/-- The trees of `/repo/src/genieutils/techtree.py`. -/
def tree_techtree : Parsed where
  globals := module_techtree.globals
  classes := [Common.src, TechTreeAge.src, BuildingConnection.src, UnitConnection.src, ResearchConnection.src, TechTree.src]
  funs := []
  body := .done

theorem reads_techtree : parseModule n!"techtree" text_techtree = some tree_techtree := Parsed.same_eq (by decide +kernel)

/-- The trees of `/repo/src/genieutils/unitheaders.py`. -/
def tree_unitheaders : Parsed where
  globals := module_unitheaders.globals
  classes := [UnitHeaders.src]
  funs := []
  body := .done

theorem reads_unitheaders : parseModule n!"unitheaders" text_unitheaders = some tree_unitheaders := Parsed.same_eq (by decide +kernel)

/-- The trees of `/repo/src/genieutils/civ.py`. -/
def tree_civ : Parsed where
  globals := module_civ.globals
  classes := [Civ.src]
  funs := []
  body := .done

theorem reads_civ : parseModule n!"civ" text_civ = some tree_civ := Parsed.same_eq (by decide +kernel)

/-- The trees of `/repo/src/genieutils/datfile.py`. -/
def tree_datfile : Parsed where
  globals := module_datfile.globals
  classes := [{ DatFile.src with funs := DatFile.src_parse :: DatFile.src_save :: DatFile.src.funs }]
  funs := []
  body := .done

theorem reads_datfile : parseModule n!"datfile" text_datfile = some tree_datfile := Parsed.same_eq (by decide +kernel)

end Genie.Src.Text
