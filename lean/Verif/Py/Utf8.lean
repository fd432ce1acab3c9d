import Verif.Py.Basic
/-!
# Python `str` and strict UTF-8

A Python `str` is a sequence of code points (`0 … 0x10FFFF`, lone surrogates allowed).
`str.encode()` (strict UTF-8) raises `UnicodeEncodeError` on surrogates; `bytes.decode()` (strict
UTF-8) accepts exactly the well-formed sequences of RFC 3629.
-/

namespace Genie

/-- A Python `str`, as its list of code points. -/
abbrev PyStr := List Nat

/-- The code points of a Lean string literal (used for the literals in the source). -/
def lit (s : String) : PyStr := s.toList.map Char.toNat

/-- Code points that UTF-8 can encode: not a surrogate, at most 0x10FFFF. -/
def isScalar (c : Nat) : Bool := c < 0xD800 || (decide (0xE000 ≤ c) && c < 0x110000)

/-- UTF-8 bytes of one scalar value. -/
def encodeCP (c : Nat) : Bytes :=
  if c < 0x80 then [UInt8.ofNat c]
  else if c < 0x800 then [UInt8.ofNat (0xC0 + c / 64), UInt8.ofNat (0x80 + c % 64)]
  else if c < 0x10000 then
    [UInt8.ofNat (0xE0 + c / 4096), UInt8.ofNat (0x80 + c / 64 % 64), UInt8.ofNat (0x80 + c % 64)]
  else
    [UInt8.ofNat (0xF0 + c / 262144), UInt8.ofNat (0x80 + c / 4096 % 64),
     UInt8.ofNat (0x80 + c / 64 % 64), UInt8.ofNat (0x80 + c % 64)]

/-- Python `s.encode('utf-8')` (strict). -/
def strEncode : PyStr → Py Bytes
  | [] => .ok []
  | c :: cs =>
    if isScalar c then
      match strEncode cs with
      | .ok bs => .ok (encodeCP c ++ bs)
      | .error e => .error e
    else .error .unicodeEncodeError

/-- Continuation byte test. -/
def isCont (b : UInt8) : Bool := decide (0x80 ≤ b.toNat) && decide (b.toNat < 0xC0)

/-- Python `bs.decode()` (strict UTF-8). -/
def strDecode : Bytes → Py PyStr
  | [] => .ok []
  | b0 :: rest =>
    if b0.toNat < 0x80 then
      match strDecode rest with
      | .ok s => .ok (b0.toNat :: s)
      | .error e => .error e
    else
      match rest with
      | [] => .error .unicodeDecodeError
      | b1 :: rest1 =>
        if isCont b1 = false then .error .unicodeDecodeError
        else if 0xC2 ≤ b0.toNat ∧ b0.toNat < 0xE0 then
          match strDecode rest1 with
          | .ok s => .ok (((b0.toNat - 0xC0) * 64 + (b1.toNat - 0x80)) :: s)
          | .error e => .error e
        else
          match rest1 with
          | [] => .error .unicodeDecodeError
          | b2 :: rest2 =>
            if isCont b2 = false then .error .unicodeDecodeError
            else if 0xE0 ≤ b0.toNat ∧ b0.toNat < 0xF0 then
              let c := (b0.toNat - 0xE0) * 4096 + (b1.toNat - 0x80) * 64 + (b2.toNat - 0x80)
              if 0x800 ≤ c ∧ isScalar c = true then
                match strDecode rest2 with
                | .ok s => .ok (c :: s)
                | .error e => .error e
              else .error .unicodeDecodeError
            else
              match rest2 with
              | [] => .error .unicodeDecodeError
              | b3 :: rest3 =>
                if isCont b3 = false then .error .unicodeDecodeError
                else if 0xF0 ≤ b0.toNat ∧ b0.toNat < 0xF5 then
                  let c := (b0.toNat - 0xF0) * 262144 + (b1.toNat - 0x80) * 4096
                    + (b2.toNat - 0x80) * 64 + (b3.toNat - 0x80)
                  if 0x10000 ≤ c ∧ c < 0x110000 then
                    match strDecode rest3 with
                    | .ok s => .ok (c :: s)
                    | .error e => .error e
                  else .error .unicodeDecodeError
                else .error .unicodeDecodeError

/-- Python `bs.rstrip(b'\0')`. -/
def rstripNul (bs : Bytes) : Bytes := (bs.reverse.dropWhile (· == 0)).reverse

end Genie
