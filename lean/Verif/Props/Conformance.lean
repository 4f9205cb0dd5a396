import Verif.Model.Predicates
import Verif.Model.Utils
import Mathlib.Algebra.Order.Field.Rat
import Mathlib.Data.List.Sort

/-! The unit tests of the project, run on the model: `tests/test_triangle.py`, `tests/test_utils.py` and `tests/test_geom_vect.py`. These
are tests of the model (finitely many evaluations), not proofs of properties: they show that the model gives the results which the
authors of the code expect. Numbers are rational; the square root is exact to twelve digits after the point. -/

namespace Verif.Conformance
open Verif

/-- The square root, rounded down to a multiple of `10 ^ -12`. -/
def sqrt (x : ℚ) : ℚ := (Nat.sqrt (x * 10 ^ 24).floor.toNat : ℚ) / 10 ^ 12

/-- `round(x, 10)`. -/
def round10 (x : ℚ) : ℚ := ((x * 10 ^ 10 + 1 / 2).floor : ℚ) / 10 ^ 10

/-- `list.sort` with `Vect.__lt__`. -/
def sort (l : List (Vec ℚ)) : List (Vec ℚ) := l.insertionSort (fun a b => b.lt a = false)

/-- `Triangle(Vect(..), Vect(..), Vect(..))`. -/
def T (i : Nat) (a b c : ℚ × ℚ × ℚ) : Tri ℚ := ⟨i, ⟨a.1, a.2.1, a.2.2⟩, ⟨b.1, b.2.1, b.2.2⟩, ⟨c.1, c.2.1, c.2.2⟩, none⟩

/-- The first triangle of all tests. -/
def tri1 : Tri ℚ := T 1 (0, 0, 0) (10, 0, 0) (5, 10, 0)

/-- `len(tri1.intersection_with_triangle(tri2))`. -/
def common (t : Tri ℚ) : Nat := (tri1.intersectTriangle sqrt round10 sort t).length

/-! test_triangle.py, `test_point_in_triangle` (lines 10-25) -/

example : tri1.pointInTriangle sqrt round10 ⟨-5, 0, 0⟩ = 0 ∧ tri1.pointInTriangle sqrt round10 ⟨0, 0, 0⟩ = 1 ∧
    tri1.pointInTriangle sqrt round10 ⟨5, 0, 0⟩ = 2 ∧ tri1.pointInTriangle sqrt round10 ⟨5, 1, 0⟩ = 3 := by decide +kernel

/-! test_triangle.py, `test_intersection_with_triangle`, tests 1 - 20 (lines 31-150) -/

example : common (T 2 (0, 0, 0) (10, 0, 0) (5, 10, 0)) = 3 ∧ common tri1 = 0 ∧ common (T 2 (1, 1/10, 0) (9, 1/10, 0) (5, 9, 0)) = 3 ∧
    common (T 2 (0, 5, 0) (10, 5, 0) (5, 15, 0)) = 3 ∧ common (T 2 (1, 1/10, 0) (9, 1/10, 0) (5, -10, 0)) = 4 := by decide +kernel

example : common (T 2 (15, 0, 0) (20, 0, 0) (15, 10, 0)) = 0 ∧ common (T 2 (5, 5, 0) (10, 0, 1) (5, 10, 1)) = 1 ∧
    common (T 2 (1, 1/10, 0) (9, 1/10, 0) (5, 10, 1)) = 2 ∧ common (T 2 (5, 1/10, -1) (15, 1/10, -1) (5, 10, 1)) = 2 ∧
    common (T 2 (1, 1/10, -1) (9, 1/10, -1) (5, 10, 1)) = 2 := by decide +kernel

example : common (T 2 (1, 0, 0) (9, 0, 0) (5, 10, 1)) = 2 ∧ common (T 2 (1, 0, 0) (9, 0, 0) (5, -10, 0)) = 2 ∧
    common (T 2 (0, 0, 0) (10, 0, 0) (5, 10, 1)) = 2 ∧ common (T 2 (0, 0, 0) (10, 0, 0) (5, -10, 0)) = 2 ∧
    common (T 2 (0, 0, 1) (10, 0, 1) (5, 10, 0)) = 1 := by decide +kernel

example : common (T 2 (0, 20, 0) (10, 20, 0) (5, 10, 0)) = 1 ∧ common (T 2 (0, 0, 1) (10, 0, 1) (5, 0, -1)) = 2 ∧
    common (T 2 (0, 0, 1) (10, 0, 1) (5, 10, 1)) = 0 ∧ common (T 2 (5, 1, 0) (0, 11, 0) (10, 11, 0)) = 4 ∧
    common (T 2 (0, 7, 0) (10, 7, 0) (5, -3, 0)) = 6 := by decide +kernel

/-! test_utils.py -/

open Utils in
example : flatten ([] : List (Nest Nat)) = [] ∧ flatten [.leaf 1] = [.leaf 1] ∧ flatten [.leaf 1, .leaf 2] = [.leaf 1, .leaf 2] ∧
    flatten [.leaf 1, .list [.leaf 2, .leaf 3]] = [.leaf 1, .leaf 2, .leaf 3] ∧
    flatten [.leaf 1, .list [.leaf 2, .list [.leaf 3], .leaf 4], .leaf 5] = [.leaf 1, .leaf 2, .leaf 3, .leaf 4, .leaf 5] := by
  simp [flatten]

open Utils in
example : hasTimestamp "".toList = false ∧ hasTimestamp "short".toList = false ∧ hasTimestamp "name_000000aaa000".toList = false ∧
    hasTimestamp "nameX000111222333".toList = false ∧ hasTimestamp "name_000000000000".toList = true ∧
    hasTimestamp "name_111222333444".toList = true ∧ hasTimestamp "name_111222333444_r".toList = false := by decide +kernel

open Utils in
example : nameStampPair "name".toList = ("name".toList, "000000000000".toList) ∧
    nameStampPair "name_000111222333".toList = ("name".toList, "000111222333".toList) := by decide +kernel

open Utils in
example : (dummySplit "bunny_00001_111222333444.cry".toList).toOption = some ("bunny".toList, some 1, some 111222333444, "cry".toList) ∧
    (isCorrectCry "bunny_00004_444333222111.cry".toList "bunny".toList).toOption = some true ∧
    (isCorrectTxt "bunny_00004_444333222111.txt".toList "bunny".toList).toOption = some true := by decide +kernel

/-! test_geom_vect.py. The last assertion, `Vect(1, 1, 1) * Vect(2, 0, 0) == 2`, cannot hold: `__mul__` multiplies the coordinates by its
argument and there is no scalar product of this name (vect.py 228-235). -/

example : (⟨0, 0, 0⟩ : Vec ℚ).add ⟨1, 1, 1⟩ = ⟨1, 1, 1⟩ ∧ (⟨1, 1, 1⟩ : Vec ℚ).add ⟨2, 0, 0⟩ = ⟨3, 1, 1⟩ ∧
    (⟨0, 0, 0⟩ : Vec ℚ).sub ⟨2, 0, 0⟩ = ⟨-2, 0, 0⟩ ∧ (⟨1, 1, 1⟩ : Vec ℚ).sub ⟨0, 0, 0⟩ = ⟨1, 1, 1⟩ ∧
    (⟨0, 0, 0⟩ : Vec ℚ).smul 5 = ⟨0, 0, 0⟩ ∧ (⟨1, 1, 1⟩ : Vec ℚ).smul 5 = ⟨5, 5, 5⟩ := by decide +kernel

end Verif.Conformance
