import Verif.Py.Basic
import Verif.Spec.Classes
/-!
# Well-formed UTF-8, and which records hold texts or floats
-/

namespace Genie

/-- The well-formed byte sequences of one character: Table 3-7 of the Unicode standard, row by row. -/
inductive Utf8Char : Bytes → Prop where
  | r1 {a : UInt8} : a ≤ 0x7F → Utf8Char [a]
  | r2 {a b : UInt8} : 0xC2 ≤ a → a ≤ 0xDF → 0x80 ≤ b → b ≤ 0xBF → Utf8Char [a, b]
  | r3 {b c : UInt8} : 0xA0 ≤ b → b ≤ 0xBF → 0x80 ≤ c → c ≤ 0xBF → Utf8Char [0xE0, b, c]
  | r4 {a b c : UInt8} : 0xE1 ≤ a → a ≤ 0xEC → 0x80 ≤ b → b ≤ 0xBF → 0x80 ≤ c → c ≤ 0xBF → Utf8Char [a, b, c]
  | r5 {b c : UInt8} : 0x80 ≤ b → b ≤ 0x9F → 0x80 ≤ c → c ≤ 0xBF → Utf8Char [0xED, b, c]
  | r6 {a b c : UInt8} : 0xEE ≤ a → a ≤ 0xEF → 0x80 ≤ b → b ≤ 0xBF → 0x80 ≤ c → c ≤ 0xBF → Utf8Char [a, b, c]
  | r7 {b c d : UInt8} : 0x90 ≤ b → b ≤ 0xBF → 0x80 ≤ c → c ≤ 0xBF → 0x80 ≤ d → d ≤ 0xBF → Utf8Char [0xF0, b, c, d]
  | r8 {a b c d : UInt8} : 0xF1 ≤ a → a ≤ 0xF3 → 0x80 ≤ b → b ≤ 0xBF → 0x80 ≤ c → c ≤ 0xBF → 0x80 ≤ d → d ≤ 0xBF → Utf8Char [a, b, c, d]
  | r9 {b c d : UInt8} : 0x80 ≤ b → b ≤ 0x8F → 0x80 ≤ c → c ≤ 0xBF → 0x80 ≤ d → d ≤ 0xBF → Utf8Char [0xF4, b, c, d]

/-- A byte string that is the concatenation of well-formed characters. -/
def WellFormedUtf8 (bs : Bytes) : Prop := ∃ cs : List Bytes, bs = cs.flatten ∧ ∀ c ∈ cs, Utf8Char c

/-- `s` is `c` without the NUL bytes at its end. -/
def StrippedOf (s c : Bytes) : Prop := s.getLast? ≠ some 0 ∧ ∃ k, c = s ++ List.replicate k 0

/-- Record classes with a text in them, or in a record in them. -/
def RecordClass.hasTexts : RecordClass → Bool
  | .Effect | .SoundItem | .Sound | .Graphic | .Terrain | .TerrainBlock | .Tech | .Unit | .Civ => true
  | _ => false

/-- Record classes of integers and texts only. -/
def RecordClass.noFloats : RecordClass → Bool
  | .SoundItem | .Sound | .PlayerColour | .GraphicDelta | .GraphicAngleSound | .TerrainPassGraphic | .FrameData | .TileSize | .MapUnit
  | .MapTerrain | .MapLand | .MapElevation | .MapInfo | .RandomMaps | .ResearchResourceCost | .ResearchLocation | .Tech | .Common
  | .TechTreeAge | .BuildingConnection | .UnitConnection | .ResearchConnection | .TechTree | .TerrainRestriction 0 => true
  | _ => false

end Genie
