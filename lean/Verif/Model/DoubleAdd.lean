import Verif.Model.Double

/-! Addition of floats (IEEE binary64, round to nearest, ties to even), as numpy does it in merge.py:84. -/

namespace Verif.Double

/-- `x + y`, merge.py:84. A sum that is zero is -0.0 only if both numbers are -0.0. -/
def add : Double → Double → Double
  | num a m, num b n =>
    let s := (if a then - mag m else mag m) + (if b then - mag n else mag n)
    ofMag (if s = 0 then a && b else decide (s < 0)) |s|
  | inf a, inf b => if a = b then inf a else nan
  | inf a, num _ _ => inf a
  | num _ _, inf b => inf b
  | nan, _ => nan
  | _, nan => nan

instance : Add Double := ⟨add⟩

end Verif.Double
