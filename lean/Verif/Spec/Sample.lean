import Verif.Model.Load
import Mathlib.Data.Rat.Defs

/-! Small concrete grid files used in the `example`s that show hypotheses can be met. -/

namespace Verif.Sample
open Verif

/-- Rounding that keeps all three coordinates. -/
def rc (p : Vec Int) : Int × Int × Int := (p.x, p.y, p.z)

/-- A file with two zones: a square of two triangles and a third triangle on its right side. -/
def blocks : List (ZoneBlock Int) :=
  [ { name := "a".toList
      pts := [⟨0, 0, 0⟩, ⟨1, 0, 0⟩, ⟨0, 1, 0⟩, ⟨1, 1, 1⟩]
      faces := [([("T".toList, 5)], [1, 2, 3]), ([("T".toList, 6)], [2, 4, 3])] },
    { name := "b".toList
      pts := [⟨1, 0, 0⟩, ⟨1, 1, 1⟩, ⟨2, 0, 5⟩]
      faces := [([("T".toList, 7)], [1, 3, 2])] } ]

/-- Three triangles with a common side. -/
def fan : List (ZoneBlock Int) :=
  [ { name := "a".toList
      pts := [⟨0, 0, 0⟩, ⟨1, 0, 0⟩, ⟨0, 1, 0⟩, ⟨1, 1, 1⟩, ⟨2, 0, 5⟩]
      faces := [([], [1, 2, 3]), ([], [1, 2, 4]), ([], [2, 1, 5])] } ]

/-- One zone in which two points have the same place. -/
def twins : List (ZoneBlock Int) :=
  [ { name := "a".toList
      pts := [⟨0, 0, 0⟩, ⟨1, 0, 0⟩, ⟨0, 1, 0⟩, ⟨1, 0, 0⟩, ⟨0, 0, 1⟩]
      faces := [([], [1, 2, 3]), ([], [1, 4, 5])] } ]

/-- A new grid. -/
def new : Grid Int (Int × Int × Int) := Grid.empty

/-- The grid loaded from `blocks`. -/
@[irreducible] def grid : Grid Int (Int × Int × Int) :=
  match Grid.loadBlocks rc true new blocks with
  | .ok g => g
  | .error _ => new

/-- The grid loaded from `twins` without merging. -/
@[irreducible] def twinsGrid : Grid Int (Int × Int × Int) :=
  match Grid.loadBlocks rc false new twins with
  | .ok g => g
  | .error _ => new

/-- Rounding that keeps all three rational coordinates. -/
def rcq (p : Vec ℚ) : ℚ × ℚ × ℚ := (p.x, p.y, p.z)

/-- A square of two triangles in the plane `z = 0`. -/
def flat : List (ZoneBlock ℚ) :=
  [ { name := "a".toList
      pts := [⟨0, 0, 0⟩, ⟨1, 0, 0⟩, ⟨0, 1, 0⟩, ⟨1, 1, 0⟩]
      faces := [([], [1, 2, 3]), ([], [2, 4, 3])] } ]

/-- The grid loaded from `flat`. -/
@[irreducible] def flatGrid : Grid ℚ (ℚ × ℚ × ℚ) :=
  match Grid.loadBlocks rcq true Grid.empty flat with
  | .ok g => g
  | .error _ => Grid.empty

/-- A square of 3 x 3 points and eight triangles. -/
def square : List (ZoneBlock Int) :=
  [ { name := "a".toList
      pts := [⟨0, 0, 0⟩, ⟨10, 0, 0⟩, ⟨20, 0, 0⟩, ⟨0, 10, 0⟩, ⟨10, 10, 0⟩, ⟨20, 10, 0⟩, ⟨0, 20, 0⟩, ⟨10, 20, 0⟩, ⟨20, 20, 0⟩]
      faces := [([], [1, 2, 4]), ([], [2, 5, 4]), ([], [2, 3, 5]), ([], [3, 6, 5]), ([], [4, 5, 7]), ([], [5, 8, 7]),
        ([], [5, 6, 8]), ([], [6, 9, 8])] } ]

/-- The grid loaded from `square`. -/
@[irreducible] def squareGrid : Grid Int (Int × Int × Int) :=
  match Grid.loadBlocks rc true new square with
  | .ok g => g
  | .error _ => new

/-- A tetrahedron. -/
def tetra : List (ZoneBlock Int) :=
  [ { name := "a".toList
      pts := [⟨0, 0, 0⟩, ⟨1, 0, 0⟩, ⟨0, 1, 0⟩, ⟨0, 0, 1⟩]
      faces := [([], [1, 2, 3]), ([], [1, 2, 4]), ([], [1, 3, 4]), ([], [2, 3, 4])] } ]

/-- The grid loaded from `tetra`. -/
@[irreducible] def tetraGrid : Grid Int (Int × Int × Int) :=
  match Grid.loadBlocks rc true new tetra with
  | .ok g => g
  | .error _ => new

/-- Five triangles: two at the edge from the first to the second point and three at other sides of these. -/
def bow : List (ZoneBlock Int) :=
  [ { name := "a".toList
      pts := [⟨0, 0, 0⟩, ⟨10, 0, 0⟩, ⟨5, 10, 0⟩, ⟨5, -10, 0⟩, ⟨-10, 10, 0⟩, ⟨-10, -10, 0⟩, ⟨20, 10, 0⟩]
      faces := [([], [1, 2, 3]), ([], [1, 4, 2]), ([], [1, 3, 5]), ([], [1, 6, 4]), ([], [2, 7, 3])] } ]

/-- The grid loaded from `bow`. -/
@[irreducible] def bowGrid : Grid Int (Int × Int × Int) :=
  match Grid.loadBlocks rc true new bow with
  | .ok g => g
  | .error _ => new

/-- An octahedron. -/
def octa : List (ZoneBlock Int) :=
  [ { name := "a".toList
      pts := [⟨10, 0, 0⟩, ⟨0, 10, 0⟩, ⟨-10, 0, 0⟩, ⟨0, -10, 0⟩, ⟨0, 0, 10⟩, ⟨0, 0, -10⟩]
      faces := [([], [1, 2, 5]), ([], [2, 3, 5]), ([], [3, 4, 5]), ([], [4, 1, 5]), ([], [2, 1, 6]), ([], [3, 2, 6]), ([], [4, 3, 6]),
        ([], [1, 4, 6])] } ]

/-- The grid loaded from `octa`. -/
@[irreducible] def octaGrid : Grid Int (Int × Int × Int) :=
  match Grid.loadBlocks rc true new octa with
  | .ok g => g
  | .error _ => new

/-- The middle of two points with integer coordinates, rounded down. -/
def mid (a b : Vec Int) : Vec Int := ⟨(a.x + b.x) / 2, (a.y + b.y) / 2, (a.z + b.z) / 2⟩

/-- The square of the distance. -/
def dist (a b : Vec Int) : Int := (a.x - b.x) ^ 2 + (a.y - b.y) ^ 2 + (a.z - b.z) ^ 2

end Verif.Sample
