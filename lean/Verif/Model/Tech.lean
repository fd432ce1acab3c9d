import Verif.Model.Common
/-!
# `/repo/src/genieutils/tech.py`

Generated by `tools/gen_model.py` from the source text (reader and writer transcribed
independently, statement by statement).
-/

set_option linter.unusedVariables false

namespace Genie

/-- `class ResearchResourceCost` — `/repo/src/genieutils/tech.py:7-11`. -/
structure ResearchResourceCost where
  type : Int
  amount : Int
  flag : Int
deriving DecidableEq, Inhabited

/-- `ResearchResourceCost.from_bytes` — `/repo/src/genieutils/tech.py:14-19`. -/
def ResearchResourceCost.fromBytes : Reader ResearchResourceCost := do
  let type ← readInt16
  let amount ← readInt16
  let flag ← readInt8
  return {
    type := type,
    amount := amount,
    flag := flag }

/-- `ResearchResourceCost.to_bytes` — `/repo/src/genieutils/tech.py:21-26`. -/
def ResearchResourceCost.toBytes (version : Version) (self : ResearchResourceCost) : Py Bytes :=
  joinB [
    writeInt16 self.type,
    writeInt16 self.amount,
    writeInt8 self.flag]

/-- `class ResearchLocation` — `/repo/src/genieutils/tech.py:29-34`. -/
structure ResearchLocation where
  location_id : Int
  research_time : Int
  button_id : Int
  hot_key_id : Int
deriving DecidableEq, Inhabited

/-- `ResearchLocation.from_bytes` — `/repo/src/genieutils/tech.py:37-43`. -/
def ResearchLocation.fromBytes : Reader ResearchLocation := do
  let location_id ← readInt16
  let research_time ← readInt16
  let button_id ← readInt8
  let hot_key_id ← readInt32
  return {
    location_id := location_id,
    research_time := research_time,
    button_id := button_id,
    hot_key_id := hot_key_id }

/-- `ResearchLocation.to_bytes` — `/repo/src/genieutils/tech.py:45-51`. -/
def ResearchLocation.toBytes (version : Version) (self : ResearchLocation) : Py Bytes :=
  joinB [
    writeInt16 self.location_id,
    writeInt16 self.research_time,
    writeInt8 self.button_id,
    writeInt32 self.hot_key_id]

/-- `class Tech` — `/repo/src/genieutils/tech.py:54-70`. -/
structure Tech where
  required_techs : List Int
  resource_costs : List ResearchResourceCost
  required_tech_count : Int
  civ : Int
  full_tech_mode : Int
  language_dll_name : Int
  language_dll_description : Int
  effect_id : Int
  type : Int
  icon_id : Int
  language_dll_help : Int
  language_dll_tech_tree : Int
  name : PyStr
  repeatable : Int
  research_locations : List ResearchLocation
deriving DecidableEq, Inhabited

/-- `Tech.from_bytes_84` — `/repo/src/genieutils/tech.py:79-120`. -/
def Tech.fromBytes84 : Reader Tech := do
  let required_techs ← readInt16Array6
  let resource_costs ← readClassArray3 ResearchResourceCost.fromBytes
  let required_tech_count ← readInt16
  let civ ← readInt16
  let full_tech_mode ← readInt16
  let research_location ← readInt16
  let language_dll_name ← readInt32
  let language_dll_description ← readInt32
  let research_time ← readInt16
  let effect_id ← readInt16
  let type ← readInt16
  let icon_id ← readInt16
  let button_id ← readInt8
  let language_dll_help ← readInt32
  let language_dll_tech_tree ← readInt32
  let hot_key ← readInt32
  let name ← readDebugString
  let repeatable ← readInt8
  let research_locations : List ResearchLocation := [{ button_id := button_id, research_time := research_time, hot_key_id := hot_key, location_id := research_location }]
  return {
    required_techs := required_techs,
    resource_costs := resource_costs,
    required_tech_count := required_tech_count,
    civ := civ,
    full_tech_mode := full_tech_mode,
    language_dll_name := language_dll_name,
    language_dll_description := language_dll_description,
    effect_id := effect_id,
    type := type,
    icon_id := icon_id,
    language_dll_help := language_dll_help,
    language_dll_tech_tree := language_dll_tech_tree,
    name := name,
    repeatable := repeatable,
    research_locations := research_locations }

/-- `Tech.from_bytes_88` — `/repo/src/genieutils/tech.py:123-156`. -/
def Tech.fromBytes88 : Reader Tech := do
  let required_techs ← readInt16Array6
  let resource_costs ← readClassArray3 ResearchResourceCost.fromBytes
  let required_tech_count ← readInt16
  let civ ← readInt16
  let full_tech_mode ← readInt16
  let language_dll_name ← readInt32
  let language_dll_description ← readInt32
  let effect_id ← readInt16
  let type ← readInt16
  let icon_id ← readInt16
  let language_dll_help ← readInt32
  let language_dll_tech_tree ← readInt32
  let name ← readDebugString
  let repeatable ← readInt8
  let research_location_count ← readInt16
  let research_locations ← readClassArray ResearchLocation.fromBytes research_location_count
  return {
    required_techs := required_techs,
    resource_costs := resource_costs,
    required_tech_count := required_tech_count,
    civ := civ,
    full_tech_mode := full_tech_mode,
    language_dll_name := language_dll_name,
    language_dll_description := language_dll_description,
    effect_id := effect_id,
    type := type,
    icon_id := icon_id,
    language_dll_help := language_dll_help,
    language_dll_tech_tree := language_dll_tech_tree,
    name := name,
    repeatable := repeatable,
    research_locations := research_locations }

/-- `Tech.to_bytes_84` — `/repo/src/genieutils/tech.py:162-191`.  The local variables default to
`-1, 0, 0, -1` and are overwritten from `research_locations[0]` if there is one. -/
def Tech.toBytes84 (version : Version) (self : Tech) : Py Bytes :=
  let research_location := match self.research_locations with | [] => -1 | r :: _ => r.location_id
  let research_time := match self.research_locations with | [] => 0 | r :: _ => r.research_time
  let button_id := match self.research_locations with | [] => 0 | r :: _ => r.button_id
  let hot_key := match self.research_locations with | [] => -1 | r :: _ => r.hot_key_id
  joinB [
    writeInt16Array self.required_techs,
    writeClassArray ResearchResourceCost.toBytes self.resource_costs version,
    writeInt16 self.required_tech_count,
    writeInt16 self.civ,
    writeInt16 self.full_tech_mode,
    writeInt16 research_location,
    writeInt32 self.language_dll_name,
    writeInt32 self.language_dll_description,
    writeInt16 research_time,
    writeInt16 self.effect_id,
    writeInt16 self.type,
    writeInt16 self.icon_id,
    writeInt8 button_id,
    writeInt32 self.language_dll_help,
    writeInt32 self.language_dll_tech_tree,
    writeInt32 hot_key,
    writeDebugString self.name,
    writeInt8 self.repeatable]

/-- `Tech.to_bytes_88` — `/repo/src/genieutils/tech.py:193-211`. -/
def Tech.toBytes88 (version : Version) (self : Tech) : Py Bytes :=
  joinB [
    writeInt16Array self.required_techs,
    writeClassArray ResearchResourceCost.toBytes self.resource_costs version,
    writeInt16 self.required_tech_count,
    writeInt16 self.civ,
    writeInt16 self.full_tech_mode,
    writeInt32 self.language_dll_name,
    writeInt32 self.language_dll_description,
    writeInt16 self.effect_id,
    writeInt16 self.type,
    writeInt16 self.icon_id,
    writeInt32 self.language_dll_help,
    writeInt32 self.language_dll_tech_tree,
    writeDebugString self.name,
    writeInt8 self.repeatable,
    writeInt16 self.research_locations.length,
    writeClassArray ResearchLocation.toBytes self.research_locations version]

/-- `Tech.from_bytes` — `/repo/src/genieutils/tech.py:73-76`. -/
def Tech.fromBytes : Reader Tech := do
  let version ← getVersion
  if version.ge .VER_88 then Tech.fromBytes88
  else Tech.fromBytes84

/-- `Tech.to_bytes` — `/repo/src/genieutils/tech.py:158-161`. -/
def Tech.toBytes (version : Version) (self : Tech) : Py Bytes :=
  if version.ge .VER_88 then Tech.toBytes88 version self
  else Tech.toBytes84 version self

end Genie
