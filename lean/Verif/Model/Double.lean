import Verif.Model.Text
import Verif.Model.Grid
import Mathlib.Data.Int.Log
import Mathlib.Data.Rat.Floor
import Mathlib.Algebra.Order.Field.Rat

/-! Floats of Python as IEEE binary64 numbers, the texts of floats that the code writes, and the reading of texts by `float`. The code is that of
CPython (correct rounding, ties to even), used by `crysgsu` in zone.py:100, 115, face.py:76 (`'{0:.18e}'.format`), gsu_converter.py:418-443 (`'%f'`),
grid.py:535-546 (`float`) and vect.py:186 (`round`). -/

namespace Verif

/-- A float. The finite ones are given by the sign and the 63 bits of exponent and fraction, in this order, as a number; the payload of a NaN is left
out. -/
inductive Double where
  | num (neg : Bool) (bits : Fin (2047 * 2 ^ 52))
  | inf (neg : Bool)
  | nan
deriving DecidableEq, Inhabited

namespace Double

/-- The absolute value of the float with the given bits in units of `2 ^ -1074`. -/
def units (n : Nat) : Nat := (n % 2 ^ 52 + if n / 2 ^ 52 = 0 then 0 else 2 ^ 52) * 2 ^ (n / 2 ^ 52 - 1)

/-- The absolute value of the float with the given bits. -/
def mag (n : Nat) : ℚ := units n / 2 ^ 1074

/-- The value of a finite float; infinities and NaN have none. -/
def val? : Double → Option ℚ
  | num neg b => some (if neg then - mag b else mag b)
  | _ => none

/-- A number that is not negative rounded to an integer, ties to even. -/
def rne (r : ℚ) : Nat :=
  let q := ⌊r⌋₊
  if r - q < 1 / 2 then q else if 1 / 2 < r - q then q + 1 else if q % 2 = 0 then q else q + 1

/-- The bits of the float nearest to `r`, which is not negative: `k` is the number of bits that do not fit. -/
def bitsOf (r : ℚ) : Nat :=
  let u := r * 2 ^ 1074
  let k := Nat.log 2 ⌊u⌋₊ - 52
  k * 2 ^ 52 + rne (u / 2 ^ k)

/-- The float nearest to `r` or `-r`, infinite if `r` is too large. -/
def ofMag (neg : Bool) (r : ℚ) : Double := if h : bitsOf r < 2047 * 2 ^ 52 then num neg ⟨bitsOf r, h⟩ else inf neg

/-- The sign of a text. -/
def sign (neg : Bool) : Str := if neg then ['-'] else []

/-- The `k + 1` digits and the exponent of `'{0:.ke}'.format`. -/
def sciDigits (k : Nat) (r : ℚ) : Nat × Int :=
  if r = 0 then (0, 0)
  else
    let d := Int.log 10 r
    let m := rne (r / 10 ^ (d - k))
    if m = 10 ^ (k + 1) then (10 ^ k, d + 1) else (m, d)

/-- Digits and exponent as a text; the exponent has at least two digits. -/
def sciText (k : Nat) (p : Nat × Int) : Str :=
  let s := Py.natStrPad (k + 1) p.1
  s.take 1 ++ ['.'] ++ s.drop 1 ++ ['e'] ++ (if p.2 < 0 then ['-'] else ['+']) ++ Py.natStrPad 2 p.2.natAbs

/-- `'{0:.ke}'.format(x)` for `k` greater than 0, as in zone.py:100, 115 and face.py:76 with `k` equal to 18. -/
def sci (k : Nat) : Double → Str
  | num neg b => sign neg ++ sciText k (sciDigits k (mag b))
  | inf neg => sign neg ++ "inf".toList
  | nan => "nan".toList

/-- `'%.kf' % x` for `k` greater than 0; gsu_converter.py:418-443 with `k` equal to 6. -/
def fixed (k : Nat) : Double → Str
  | num neg b => let m := rne (mag b * 10 ^ k); sign neg ++ Py.natStr (m / 10 ^ k) ++ ['.'] ++ Py.natStrPad k (m % 10 ^ k)
  | inf neg => sign neg ++ "inf".toList
  | nan => "nan".toList

/-- `round(x, k)` for `k` greater than 0: the float nearest to the decimal fraction nearest to `x`; vect.py:186 with `k` equal to 10. -/
def round (k : Nat) : Double → Double
  | num neg b => ofMag neg (rne (mag b * 10 ^ k) / 10 ^ k)
  | x => x

/-- The rounded coordinate as a part of a key: node.py:30 with vect.py:178-186. Keys are compared with `==`, so -0.0 is replaced by 0.0 here. (A NaN is
not equal to itself there; here it is.) -/
def key (x : Double) : Double :=
  match round 10 x with
  | num neg b => if b.val = 0 then num false b else num neg b
  | y => y

/-- `RoundedCoords` of a node, node.py:30, grid.py:1597. -/
def roundedCoords (p : Vec Double) : Double × Double × Double := (key p.x, key p.y, key p.z)

end Double

namespace Py

/-- The text before the first character with `p`, and the text behind it if there is one. -/
def cutAt (p : Char → Bool) (s : Str) : Str × Option Str := (s.takeWhile (fun c => !p c), (s.dropWhile (fun c => !p c)).tail?)

/-- Digits, maybe none, with single underscores between them. -/
def digits? (s : Str) : Option Nat := if s = [] then some 0 else parseDigits 0 false s

/-- Digits with a point: their value without the point, and the number of digits behind the point. -/
def mantissa? (s : Str) : Option (Nat × Nat) :=
  let p := cutAt (· == '.') s
  let b := p.2.getD []
  if p.1 = [] ∧ b = [] then none
  else do
    let x ← digits? p.1
    let y ← digits? b
    let k := (b.filter isDecimal).length
    some (x * 10 ^ k + y, k)

/-- A decimal number without sign, with or without an exponent. -/
def decimal? (s : Str) : Option ℚ := do
  let p := cutAt (fun c => c == 'e' || c == 'E') s
  let m ← mantissa? p.1
  let e ← match p.2 with
    | none => some 0
    | some t => signed? t
  some (m.1 * 10 ^ (e - m.2))

/-- A text without its sign, and whether the sign is a minus. -/
def unsign : Str → Bool × Str
  | '-' :: t => (true, t)
  | '+' :: t => (false, t)
  | t => (false, t)

/-- `float(s)`. As in `int`, digits that are not ASCII are not accepted. -/
def float (s : Str) : Res Double :=
  let p := unsign (strip s)
  let l := p.2.map Char.toLower
  if l = "inf".toList ∨ l = "infinity".toList then .ok (.inf p.1)
  else if l = "nan".toList then .ok .nan
  else match decimal? p.2 with
    | some r => .ok (.ofMag p.1 r)
    | none => .error .value

end Py

/-- The texts of floats in grid files and files with results: zone.py:100, 115, face.py:76 and grid.py:535-546. -/
def floatCodec : Codec Double := ⟨Double.sci 18, Py.float⟩

end Verif
