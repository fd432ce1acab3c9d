import Verif.Py.Utf8
/-!
# `/repo/src/genieutils/versions.py`
-/

namespace Genie

/-- `class Version(Enum)` — `/repo/src/genieutils/versions.py:4-15`. -/
inductive Version where
  | UNDEFINED | VER_71 | VER_72 | VER_73 | VER_74 | VER_75 | VER_76 | VER_77 | VER_78 | VER_84
  | VER_88
deriving DecidableEq, Repr

namespace Version

/-- The enum values — `/repo/src/genieutils/versions.py:5-15`. -/
def value : Version → PyStr
  | UNDEFINED => lit "UNDEFINED"
  | VER_71 => lit "VER 7.1"
  | VER_72 => lit "VER 7.2"
  | VER_73 => lit "VER 7.3"
  | VER_74 => lit "VER 7.4"
  | VER_75 => lit "VER 7.5"
  | VER_76 => lit "VER 7.6"
  | VER_77 => lit "VER 7.7"
  | VER_78 => lit "VER 7.8"
  | VER_84 => lit "VER 8.4"
  | VER_88 => lit "VER 8.8"

/-- The members, in definition order (iteration order of the enum). -/
def all : List Version :=
  [UNDEFINED, VER_71, VER_72, VER_73, VER_74, VER_75, VER_76, VER_77, VER_78, VER_84, VER_88]

/-- `Version(s)`: enum lookup by value, `ValueError` if there is no such member
(`/repo/src/genieutils/datfile.py:60,121` call it). -/
def ofStr (s : PyStr) : Py Version :=
  match all.find? (fun v => v.value == s) with
  | some v => .ok v
  | none => .error .valueError

/-- Python `s < t` on `str`: lexicographic by code point. -/
def strLt : PyStr → PyStr → Bool
  | _, [] => false
  | [], _ :: _ => true
  | a :: as, b :: bs => if a < b then true else if b < a then false else strLt as bs

/-- `__lt__` — `/repo/src/genieutils/versions.py:17-18`. -/
def lt (self other : Version) : Bool := strLt self.value other.value

/-- `__le__` — `/repo/src/genieutils/versions.py:20-21`.
(`a <= b` on Python strings is `not (b < a)`.) -/
def le (self other : Version) : Bool := !strLt other.value self.value

/-- `__gt__` — `/repo/src/genieutils/versions.py:23-24`. -/
def gt (self other : Version) : Bool := strLt other.value self.value

/-- `__ge__` — `/repo/src/genieutils/versions.py:26-27`. -/
def ge (self other : Version) : Bool := !strLt self.value other.value

end Version
end Genie
