import Verif.Model.Common
/-!
# `/repo/src/genieutils/playercolour.py`

Generated by `tools/gen_model.py` from the source text (reader and writer transcribed
independently, statement by statement).
-/

set_option linter.unusedVariables false

namespace Genie

/-- `class PlayerColour` — `/repo/src/genieutils/playercolour.py:7-17`. -/
structure PlayerColour where
  id : Int
  player_color_base : Int
  unit_outline_color : Int
  unit_selection_color_1 : Int
  unit_selection_color_2 : Int
  minimap_color : Int
  minimap_color_2 : Int
  minimap_color_3 : Int
  statistics_text : Int
deriving DecidableEq, Inhabited

/-- `PlayerColour.from_bytes` — `/repo/src/genieutils/playercolour.py:20-31`. -/
def PlayerColour.fromBytes : Reader PlayerColour := do
  let id ← readInt32
  let player_color_base ← readInt32
  let unit_outline_color ← readInt32
  let unit_selection_color_1 ← readInt32
  let unit_selection_color_2 ← readInt32
  let minimap_color ← readInt32
  let minimap_color_2 ← readInt32
  let minimap_color_3 ← readInt32
  let statistics_text ← readInt32
  return {
    id := id,
    player_color_base := player_color_base,
    unit_outline_color := unit_outline_color,
    unit_selection_color_1 := unit_selection_color_1,
    unit_selection_color_2 := unit_selection_color_2,
    minimap_color := minimap_color,
    minimap_color_2 := minimap_color_2,
    minimap_color_3 := minimap_color_3,
    statistics_text := statistics_text }

/-- `PlayerColour.to_bytes` — `/repo/src/genieutils/playercolour.py:33-44`. -/
def PlayerColour.toBytes (version : Version) (self : PlayerColour) : Py Bytes :=
  joinB [
    writeInt32 self.id,
    writeInt32 self.player_color_base,
    writeInt32 self.unit_outline_color,
    writeInt32 self.unit_selection_color_1,
    writeInt32 self.unit_selection_color_2,
    writeInt32 self.minimap_color,
    writeInt32 self.minimap_color_2,
    writeInt32 self.minimap_color_3,
    writeInt32 self.statistics_text]

end Genie
