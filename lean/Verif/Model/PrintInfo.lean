import Verif.Model.DoubleAdd
import Verif.Model.DoubleMul
import Verif.Model.Arrays

/-! `print_info` of a grid, grid.py:132-184: the lines it prints, and the exception that stops it. -/

namespace Verif

namespace Double

/-- `x - y`, grid.py:172. -/
def sub (x : Double) : Double → Double
  | num b n => x + num (!b) n
  | inf b => x + inf (!b)
  | nan => nan

instance : Sub Double := ⟨sub⟩

/-- `x < y`. -/
def lt : Double → Double → Bool
  | num a m, num b n => decide ((if a then - mag m else mag m) < (if b then - mag n else mag n))
  | num _ _, inf b => !b
  | inf a, num _ _ => a
  | inf a, inf b => a && !b
  | _, _ => false

/-- `np.sqrt` of an integer that is not negative, zone.py:88, correctly rounded. The square root is computed with 60 bits behind the point and one more,
which says whether something is left; that is enough for the right rounding of roots from 1 on, see `C124_root`. -/
def sqrtNat (n : Nat) : Double :=
  let m := Nat.sqrt (n * 4 ^ 60)
  ofMag false (((2 * m + if m * m = n * 4 ^ 60 then 0 else 1 : Nat) : ℚ) / 2 ^ 61)

/-- `n / d` of integers, correctly rounded; grid.py:170. -/
def trueDiv (n d : Nat) : Res Double := if d = 0 then .error .zeroDiv else .ok (ofMag false (n / d))

/-- `min` of a list, grid.py:177: the first of the least. -/
def minOf : List Double → Res Double
  | [] => .error .value
  | x :: l => .ok (l.foldl (fun a b => if lt b a then b else a) x)

/-- `max` of a list, grid.py:178: the first of the greatest. -/
def maxOf : List Double → Res Double
  | [] => .error .value
  | x :: l => .ok (l.foldl (fun a b => if lt a b then b else a) x)

end Double

variable {F R : Type}

namespace Grid

/-- The lines printed by the steps one after another until one of them raises. -/
def printAll : List (Res (List Str)) → List Str × Option Err
  | [] => ([], none)
  | .ok ls :: t => (ls ++ (printAll t).1, (printAll t).2)
  | .error e :: _ => ([], some e)

/-- `'{0:5}'.format(n)`, grid.py:183. -/
def pad5 (n : Nat) : Str := List.replicate (5 - (Py.natStr n).length) ' ' ++ Py.natStr n

/-- `zone_quality_factor`, zone.py:81-88, as numpy computes it: division by zero is no error. -/
def quality (g : Grid F R) (z : Nat) : Res Double := do
  let n ← g.outerCount z
  pure (Double.sqrtNat (g.zFaces z).length / (n : Double))

/-- The line of a zone, grid.py:163-167. -/
def zoneLine (g : Grid F R) (z : Nat) : Res (List Str) := do
  let n ← g.outerCount z
  let q ← g.quality z
  pure ["    ".toList ++ g.zName z ++ " : ".toList ++ Py.natStr (g.zFaces z).length ++ " faces, ".toList ++ Py.natStr n ++
    " outer edges, QF = ".toList ++ q.fixed 3]

/-- `faces_distr_dev`, grid.py:168-172: the largest zone and the percentage by which it exceeds the mean. -/
def deviation (g : Grid F R) : Res (Nat × Double) := do
  let mean ← Double.trueDiv g.faces.length g.zones.length
  let m := (g.zones.map (fun z => (g.zFaces z).length)).foldl max 0
  if mean.val? = some 0 then .error .zeroDiv else .ok (m, 100 * ((m : Double) - mean) / mean)

/-- The lines of the largest zone and of the quality factors, grid.py:168-178. -/
def summary (g : Grid F R) : List (Res (List Str)) :=
  [(do
    let _ ← g.zones.mapM g.quality
    let (m, d) ← g.deviation
    pure ["  ~ max zone faces ".toList ++ Py.natStr m ++ ", faces distribution deviation : ".toList ++ d.fixed 2 ++ "%".toList]),
   (do
    let qs ← g.zones.mapM g.quality
    let a ← Double.minOf qs
    let b ← Double.maxOf qs
    pure ["  ~ min/max quality factor : ".toList ++ a.fixed 3 ++ ", ".toList ++ b.fixed 3])]

/-- The lines of the matrix, grid.py:181-184. -/
def matrixLines (a : Zam) : List (Res (List Str)) :=
  [.ok (a.m.map (fun r => Py.join [' '] (r.map pad5))),
   (do
    let k ← a.maxBorderAll
    pure ["  ~ max cross-zones border length : ".toList ++ Py.natStr k])]

/-- `print_info`, grid.py:132-184. The matrix has as many rows as `range(zc + 1)`. -/
def printInfo (stat dist mat : Bool) (g : Grid F R) : List Str × Option Err :=
  printAll ([.ok ["GSU: ".toList ++ g.name],
    .ok ["  ".toList ++ Py.natStr g.nodes.length ++ " nodes, ".toList ++ Py.natStr g.edges.length ++ " edges, ".toList ++
      Py.natStr g.faces.length ++ " faces, ".toList ++ Py.natStr g.zones.length ++ " zones".toList]] ++
    match Zam.make g g.edges g.zones with
    | .error e => [.error e]
    | .ok a =>
      (if stat then [(do let s ← a.statisticsString; pure ["  ".toList ++ s])] else []) ++
      (if dist then [.ok ["  distribution faces between zones:".toList]] ++ g.zones.map g.zoneLine ++ g.summary else []) ++
      (if mat then matrixLines a else []))

end Grid
end Verif
