import Verif.Py.Basic
/-!
# Python floats and `struct` format `f`

A Python `float` is an IEEE-754 binary64; we identify it with its 64-bit pattern.
`struct.unpack('f', b)` / `'<f'` reads a binary32 and widens it; `struct.pack` narrows with
round-to-nearest-even.  Modelled on CPython ≥ 3.11 on a little-endian IEEE machine:
`nu_float`/`np_float` (format `'f'`, native) and `PyFloat_Unpack4`/`PyFloat_Pack4` (format `'<f'`).
The only difference between the two that matters here: native `'f'` does **not** check overflow
(a too large finite float becomes an infinity), `'<f'` raises `OverflowError`.
The hardware conversion quiets signalling NaNs and keeps the payload.
-/

namespace Genie

/-- A Python `float`: the binary64 bit pattern. -/
structure PyFloat where
  bits : BitVec 64
deriving DecidableEq, Repr, Inhabited

/-- The literal `0.0` (also used for the `int` literal `0` stored in a float field). -/
def PyFloat.zero : PyFloat := ⟨0#64⟩
/-- The literal `1.0`. -/
def PyFloat.one : PyFloat := ⟨0x3FF0000000000000#64⟩

namespace F

/-! binary32 fields of a pattern `w < 2^32` -/
def sign32 (w : Nat) : Nat := w / 2 ^ 31
def exp32 (w : Nat) : Nat := w / 2 ^ 23 % 256
def man32 (w : Nat) : Nat := w % 2 ^ 23

/-! binary64 fields of a pattern `d < 2^64` -/
def sign64 (d : Nat) : Nat := d / 2 ^ 63
def exp64 (d : Nat) : Nat := d / 2 ^ 52 % 2048
def man64 (d : Nat) : Nat := d % 2 ^ 52

/-- Assemble a binary64 pattern from its fields. -/
def mk64 (s e m : Nat) : Nat := s * 2 ^ 63 + e * 2 ^ 52 + m

/-- binary32 → binary64 conversion (`(double)x` in C). -/
def widen (w : Nat) : Nat :=
  let s := sign32 w; let e := exp32 w; let m := man32 w
  if e = 255 then
    if m = 0 then mk64 s 2047 0                                   -- infinity
    else mk64 s 2047 ((if m < 2 ^ 22 then m + 2 ^ 22 else m) * 2 ^ 29)  -- NaN, quieted
  else if e = 0 then
    if m = 0 then mk64 s 0 0                                      -- zero
    else mk64 s (m.log2 + 874) ((m - 2 ^ m.log2) * 2 ^ (52 - m.log2))  -- subnormal single
  else mk64 s (e + 896) (m * 2 ^ 29)

/-- Divide by `2^sh` rounding to nearest, ties to even (`1 ≤ sh`). -/
def rne (x sh : Nat) : Nat :=
  let q := x / 2 ^ sh
  let r := x % 2 ^ sh
  if 2 ^ sh < 2 * r ∨ (2 * r = 2 ^ sh ∧ q % 2 = 1) then q + 1 else q

/-- Magnitude bits (exponent and mantissa fields) of the binary32 nearest to the finite binary64
with exponent field `e < 2047` and mantissa field `m`; may reach or exceed `255 * 2^23`, which
means overflow. -/
def narrowMag (e m : Nat) : Nat :=
  let sig := if e = 0 then m else 2 ^ 52 + m
  let e' := if e = 0 then 1 else e
  if 897 ≤ e' then (e' - 897) * 2 ^ 23 + rne sig 29
  else rne sig (926 - e')

/-- `true` iff narrowing the pattern `d` overflows (finite double, infinite single). -/
def narrowOverflows (d : Nat) : Bool :=
  exp64 d != 2047 && decide (255 * 2 ^ 23 ≤ narrowMag (exp64 d) (man64 d))

/-- binary64 → binary32 conversion (`(float)x` in C), overflow giving an infinity. -/
def narrow (d : Nat) : Nat :=
  let s := sign64 d; let e := exp64 d; let m := man64 d
  if e = 2047 then
    if m = 0 then s * 2 ^ 31 + 255 * 2 ^ 23
    else s * 2 ^ 31 + 255 * 2 ^ 23 + (if m < 2 ^ 51 then m / 2 ^ 29 + 2 ^ 22 else m / 2 ^ 29)
  else if narrowOverflows d then s * 2 ^ 31 + 255 * 2 ^ 23
  else s * 2 ^ 31 + narrowMag e m

/-- The pattern `w` is a signalling NaN. -/
def isSNaN32 (w : Nat) : Bool :=
  exp32 w == 255 && man32 w != 0 && decide (man32 w < 2 ^ 22)

/-- Magnitude bits of the binary64 nearest to the natural number `n` (ties to even); may reach or exceed
`2047 * 2^52`, which means overflow. -/
def ofNatMag (n : Nat) : Nat :=
  if n = 0 then 0
  else if n.log2 ≤ 52 then (1023 + n.log2) * 2 ^ 52 + (n - 2 ^ n.log2) * 2 ^ (52 - n.log2)
  else (1022 + n.log2) * 2 ^ 52 + rne n (n.log2 - 52)

/-- `PyFloat_AsDouble` of an `int`: the nearest binary64, or `none` ("int too large to convert to float"). -/
def ofInt (i : Int) : Option Nat :=
  if 2047 * 2 ^ 52 ≤ ofNatMag i.natAbs then none
  else some ((if i < 0 then 2 ^ 63 else 0) + ofNatMag i.natAbs)

end F

/-- The Python float read from 4 little-endian bytes. -/
def floatOfBytes (bs : Bytes) : PyFloat := ⟨BitVec.ofNat 64 (F.widen (leNat bs))⟩

/-- The 4 little-endian bytes of a Python float narrowed to single precision. -/
def bytesOfFloat (x : PyFloat) : Bytes := natLE 4 (F.narrow x.bits.toNat)

end Genie
