import Verif.Model.SourceCommon
import Verif.Model.SourceRecords
import Verif.Model.SourceUnit
/-!
# The source code of `/repo/src/genieutils`: all classes and modules

Written by `tools/gen_source.py`.
-/

namespace Genie.Src

/-- All classes of the package. -/
def classes : List Cls := [
  Version.src,
  String.src,
  Int.src,
  Float.src,
  UnitType.src,
  GenieClass.src,
  ByteHandler.src,
  EffectCommand.src,
  Effect.src,
  SoundItem.src,
  Sound.src,
  PlayerColour.src,
  GraphicDelta.src,
  GraphicAngleSound.src,
  Graphic.src,
  TerrainPassGraphic.src,
  TerrainRestriction.src,
  FrameData.src,
  Terrain.src,
  TileSize.src,
  TerrainBlock.src,
  MapUnit.src,
  MapTerrain.src,
  MapLand.src,
  MapElevation.src,
  MapInfo.src,
  RandomMaps.src,
  ResearchResourceCost.src,
  ResearchLocation.src,
  Tech.src,
  Common.src,
  TechTreeAge.src,
  BuildingConnection.src,
  UnitConnection.src,
  ResearchConnection.src,
  TechTree.src,
  Task.src,
  ResourceStorage.src,
  DamageGraphic.src,
  DeadFish.src,
  Bird.src,
  AttackOrArmor.src,
  Type50.src,
  Projectile.src,
  ResourceCost.src,
  TrainLocation.src,
  Creatable.src,
  BuildingAnnex.src,
  Building.src,
  Unit.src,
  UnitHeaders.src,
  Civ.src,
  DatFile.src]

/-- All modules of the package. -/
def modules : List Module := [
  module_versions,
  module_datatypes,
  module_common,
  module_effect,
  module_sound,
  module_playercolour,
  module_graphic,
  module_terrainrestriction,
  module_terrainblock,
  module_randommaps,
  module_tech,
  module_techtree,
  module_task,
  module_unit,
  module_unitheaders,
  module_civ,
  module_datfile]

end Genie.Src
