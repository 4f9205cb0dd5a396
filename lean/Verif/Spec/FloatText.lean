import Verif.Spec.Double

/-! Texts of numbers and the floats that stand for them. -/

namespace Verif

/-- The character is the decimal digit. -/
def Digit (c : Char) (d : Nat) : Prop := d < 10 ∧ c = Char.ofNat (48 + d)

/-- Decimal digits with single underscores between them, their value and their number. -/
inductive Digits : Str → Nat → Nat → Prop
  | one {c : Char} {d : Nat} : Digit c d → Digits [c] d 1
  | more {s : Str} {v k : Nat} {c : Char} {d : Nat} : Digits s v k → Digit c d → Digits (s ++ [c]) (10 * v + d) (k + 1)
  | skip {s : Str} {v k : Nat} {c : Char} {d : Nat} : Digits s v k → Digit c d → Digits (s ++ ['_', c]) (10 * v + d) (k + 1)

/-- Digits with or without a point, and the number they are. -/
inductive Mantissa : Str → ℚ → Prop
  | whole {a : Str} {x n : Nat} : Digits a x n → Mantissa a x
  | dot {a : Str} {x n : Nat} : Digits a x n → Mantissa (a ++ ['.']) x
  | part {b : Str} {y k : Nat} : Digits b y k → Mantissa ('.' :: b) (y / 10 ^ k)
  | both {a b : Str} {x n y k : Nat} : Digits a x n → Digits b y k → Mantissa (a ++ '.' :: b) (x + y / 10 ^ k)

/-- An exponent, which may be left out. -/
inductive Exponent : Str → Int → Prop
  | none : Exponent [] 0
  | pos {c : Char} {t b : Str} {y k : Nat} : (c = 'e' ∨ c = 'E') → (t = [] ∨ t = ['+']) → Digits b y k → Exponent (c :: (t ++ b)) y
  | neg {c : Char} {b : Str} {y k : Nat} : (c = 'e' ∨ c = 'E') → Digits b y k → Exponent (c :: '-' :: b) (-y)

/-- The text is `t` with or without a sign and with or without white space around it. -/
def Around (s : Str) (neg : Bool) (t : Str) : Prop :=
  ∃ w w' u, (∀ c ∈ w, Py.isWs c = true) ∧ (∀ c ∈ w', Py.isWs c = true) ∧ s = w ++ u ++ t ++ w' ∧
    (if neg then u = ['-'] else u = [] ∨ u = ['+'])

/-- The text of a number: its sign and its absolute value. -/
def NumberText (s : Str) (neg : Bool) (r : ℚ) : Prop :=
  ∃ a b m e, Around s neg (a ++ b) ∧ Mantissa a m ∧ Exponent b e ∧ r = m * 10 ^ e

/-- The text is one of the names, in small or capital letters. -/
def NameText (names : List String) (s : Str) (neg : Bool) : Prop :=
  ∃ t, Around s neg t ∧ ∃ n ∈ names, t.map Char.toLower = n.toList

/-- The float for the number `r` with a sign: a nearest one, of two the one with even bits, and an infinity for numbers which are at least half a unit
above the largest float. -/
def RoundsTo (neg : Bool) (r : ℚ) : Double → Prop
  | .num n b => n = neg ∧ r < (2 ^ 54 - 1) * 2 ^ 970 ∧ ∀ v, (Double.num n b).val? = some v → ∀ y w, Double.val? y = some w →
      |v - (if neg then -r else r)| ≤ |w - (if neg then -r else r)| ∧
      (w ≠ v → |v - (if neg then -r else r)| = |w - (if neg then -r else r)| → b.val % 2 = 0)
  | .inf n => n = neg ∧ (2 ^ 54 - 1) * 2 ^ 970 ≤ r
  | .nan => False

/-- `k` digits behind the point of a mantissa with one digit before it, and an exponent with a sign and at least two digits, for the number `r`, which is
not negative: the first digit is 0 for 0 only, and the mantissa is nearest to the number. -/
def SciText (k : Nat) (r : ℚ) (s : Str) : Prop :=
  ∃ (c : Char) (t : Str) (m : Nat) (e : Int),
    s = c :: '.' :: (t ++ 'e' :: (if e < 0 then '-' else '+') :: ((if e.natAbs < 10 then ['0'] else []) ++ Py.natStr e.natAbs)) ∧
    Digits (c :: t) m (k + 1) ∧ '_' ∉ c :: t ∧ (if r = 0 then m = 0 ∧ e = 0 else 10 ^ k ≤ m ∧ NearestEven (r * 10 ^ (k - e)) m)

/-- A whole number, a point and `k` digits for the number `r`, which is not negative: the nearest such text. -/
def FixedText (k : Nat) (r : ℚ) (s : Str) : Prop :=
  ∃ (i f : Nat) (t : Str), s = Py.natStr i ++ '.' :: t ∧ Digits t f k ∧ '_' ∉ t ∧ NearestEven (r * 10 ^ k) (i * 10 ^ k + f : Nat)

end Verif
