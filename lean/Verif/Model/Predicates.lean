import Verif.Model.Geom

/-! Predicates of `geom/vect.py` and `geom/triangle.py` that the programs of the package use little or not at all: comparison of
points, angles, position of a point in a triangle. As in `Model/Geom` numbers are an ordered field; `sqrt`, `arccos`, `rad2deg`
and `round(x, 10)` are parameters. -/

namespace Verif
variable {F : Type} [Field F] [LinearOrder F]

/-- `math.isclose(x, y)` with the default tolerances: relative 1e-9, absolute 0. -/
def Py.isClose (x y : F) : Bool := decide (|x - y| ≤ 1 / 10 ^ 9 * max |x| |y|)

namespace Vec

/-- `Vect.__lt__`, vect.py 262-277. -/
def lt (u v : Vec F) : Bool :=
  if |u.x - v.x| < 1 / 10 ^ 10 ∧ |u.y - v.y| < 1 / 10 ^ 10 ∧ u.z < v.z then true
  else if |u.x - v.x| < 1 / 10 ^ 10 ∧ u.y < v.y then true
  else if u.x < v.x then true
  else false

/-- `Vect.__eq__`, vect.py 281-289. -/
def eq (sqrt : F → F) (u v : Vec F) : Bool := u.isNear sqrt v (1 / 10 ^ 10)

/-- `Vect.point_on_vector`, vect.py 341-358. -/
def pointOnVector (sqrt : F → F) (v1 v2 p : Vec F) : Bool :=
  Py.isClose (v1.distTo sqrt v2) (v1.distTo sqrt p + p.distTo sqrt v2)

/-- `Vect.angle_cos`, vect.py 387-397. -/
def angleCos (sqrt : F → F) (a b : Vec F) : Res F :=
  if a.mod sqrt * b.mod sqrt = 0 then .error .zeroDiv else .ok (a.dot b / (a.mod sqrt * b.mod sqrt))

/-- `Vect.get_angle_in_rad`, vect.py 401-416. -/
def angleRad (sqrt arccos : F → F) (a b : Vec F) : Res F := do
  let k ← a.angleCos sqrt b
  .ok (arccos k)

/-- `Vect.get_angle_in_deg`, vect.py 420-435. -/
def angleDeg (sqrt arccos rad2deg : F → F) (a b : Vec F) : Res F := do
  let k ← a.angleRad sqrt arccos b
  .ok (rad2deg k)

end Vec

namespace Tri

/-- `bool(x)` of a number as a number. -/
def flag (x : F) : Nat := if x = 0 then 0 else 1

/-- `Triangle.point_in_triangle`, triangle.py 331-357. `round10` is `round(x, 10)`. -/
def pointInTriangle (sqrt round10 : F → F) (t : Tri F) (p : Vec F) : Nat :=
  let ar1 := round10 (Tri.area sqrt ⟨0, t.a, t.b, p, none⟩)
  let ar2 := round10 (Tri.area sqrt ⟨0, t.a, p, t.c, none⟩)
  let ar3 := round10 (Tri.area sqrt ⟨0, p, t.b, t.c, none⟩)
  if Py.isClose (t.area sqrt) (ar1 + ar2 + ar3) then flag ar1 + flag ar2 + flag ar3 else 0

/-- `Triangle.in_one_plane`, triangle.py 389-403. -/
def inOnePlane (s t : Tri F) : Bool := s.pointInOnePlane t.a && s.pointInOnePlane t.b && s.pointInOnePlane t.c

/-- `Triangle.all_corners_smaller`, triangle.py 437-460. -/
def allCornersSmaller (sqrt arccos rad2deg : F → F) (t : Tri F) (corner : F) : Res Bool := do
  let x ← (t.b.sub t.a).angleDeg sqrt arccos rad2deg (t.c.sub t.a)
  let y ← (t.a.sub t.b).angleDeg sqrt arccos rad2deg (t.c.sub t.b)
  let z ← (t.a.sub t.c).angleDeg sqrt arccos rad2deg (t.b.sub t.c)
  .ok (decide (x < corner) && decide (y < corner) && decide (z < corner))

/-- `Triangle.__eq__`, triangle.py 484-502. -/
def eq (sqrt : F → F) (s t : Tri F) : Bool :=
  if s.centroid.eq sqrt t.centroid then
    if s.a.eq sqrt t.a || s.a.eq sqrt t.b || s.a.eq sqrt t.c then
      if s.b.eq sqrt t.a || s.b.eq sqrt t.b || s.b.eq sqrt t.c then true else false
    else false
  else false

/-- `Triangle.is_good`, triangle.py 521-532: the name `sqrt` is not defined in the module (there is `math.sqrt`), and it is looked
up after the distances. -/
def isGood (_t : Tri F) : Res F := .error .name

end Tri
end Verif
