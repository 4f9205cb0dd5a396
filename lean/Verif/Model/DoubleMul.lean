import Verif.Model.Double
import Verif.Model.Zam

/-! Products and quotients of floats, as in `edges_statistics`, and the line of edges statistics. -/

namespace Verif.Double

/-- The integer as a float, rounded. (Python raises `OverflowError` for integers from `2 ^ 1024` on; here they become infinite.) -/
def ofNat (n : Nat) : Double := ofMag false n

/-- `x * y`, zones_adjacency_matrix.py:118. -/
def mul : Double → Double → Double
  | num a m, num b n => ofMag (a ^^ b) (mag m * mag n)
  | num a m, inf b => if mag m = 0 then nan else inf (a ^^ b)
  | inf a, num b n => if mag n = 0 then nan else inf (a ^^ b)
  | inf a, inf b => inf (a ^^ b)
  | nan, _ => nan
  | _, nan => nan

/-- `x / y`, zones_adjacency_matrix.py:118. (Python raises `ZeroDivisionError` if `y` is zero, which `Zam.edgesStatistics` has tested before; here the
result is that of IEEE.) -/
def div : Double → Double → Double
  | num a m, num b n => if mag n = 0 then if mag m = 0 then nan else inf (a ^^ b) else ofMag (a ^^ b) (mag m / mag n)
  | num a _, inf b => num (a ^^ b) ⟨0, by decide⟩
  | inf a, num b _ => inf (a ^^ b)
  | inf _, inf _ => nan
  | nan, _ => nan
  | _, nan => nan

instance : NatCast Double := ⟨ofNat⟩
instance : Mul Double := ⟨mul⟩
instance : Div Double := ⟨div⟩

end Verif.Double

namespace Verif.Zam

/-- `edges_statistics_string`, zones_adjacency_matrix.py:124-135; grid.py:157 prints it with two spaces before it. -/
def statisticsString (a : Zam) : Res Str := do
  let (_, bec, iec, cec, becp, iecp, cecp) ← a.edgesStatistics (K := Double)
  pure ("edges stats: ".toList ++
    Py.natStr bec ++ " border (".toList ++ becp.fixed 2 ++ "%), ".toList ++
    Py.natStr iec ++ " inner (".toList ++ iecp.fixed 2 ++ "%), ".toList ++
    Py.natStr cec ++ " cross (".toList ++ cecp.fixed 2 ++ "%)".toList)

end Verif.Zam
