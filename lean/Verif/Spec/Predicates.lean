import Verif.Model.Vect
import Mathlib.Analysis.InnerProductSpace.PiL2

/-! Specifications for the predicates of points and triangles: Euclidean space of Mathlib, order of points. -/

namespace Verif.Spec

/-- The point as an element of the Euclidean space of Mathlib, where distance, angle and segment are defined. -/
noncomputable def toE (v : Vec ℝ) : EuclideanSpace ℝ (Fin 3) := !₂[v.x, v.y, v.z]

/-- `p` is the combination of `a`, `b`, `c` with the weights `k`, `l`, `m`. -/
def Weights {F : Type} [Field F] (k l m : F) (a b c p : Vec F) : Prop :=
  k + l + m = 1 ∧ p.x = k * a.x + l * b.x + m * c.x ∧ p.y = k * a.y + l * b.y + m * c.y ∧ p.z = k * a.z + l * b.z + m * c.z

/-- The corners are not on one line: one of the 2x2 determinants of the sides is not zero. -/
def Proper {F : Type} [Field F] (a b c : Vec F) : Prop :=
  (b.x - a.x) * (c.y - a.y) ≠ (b.y - a.y) * (c.x - a.x) ∨ (b.y - a.y) * (c.z - a.z) ≠ (b.z - a.z) * (c.y - a.y)
    ∨ (b.z - a.z) * (c.x - a.x) ≠ (b.x - a.x) * (c.z - a.z)

/-- Position of a point relative to a triangle in space: weights `k`, `l`, `m` of the corners and the multiple `h` of the cross product
`(b - a) × (c - a)`, which is perpendicular to the plane and as long as twice the area. -/
structure Place (a b c p : Vec ℝ) (k l m h : ℝ) : Prop where
  sum : k + l + m = 1
  x : p.x = k * a.x + l * b.x + m * c.x + h * ((b.y - a.y) * (c.z - a.z) - (b.z - a.z) * (c.y - a.y))
  y : p.y = k * a.y + l * b.y + m * c.y + h * ((b.z - a.z) * (c.x - a.x) - (b.x - a.x) * (c.z - a.z))
  z : p.z = k * a.z + l * b.z + m * c.z + h * ((b.x - a.x) * (c.y - a.y) - (b.y - a.y) * (c.x - a.x))

/-- The order of points: by x, then by y, then by z. -/
def Before {F : Type} [LT F] (u v : Vec F) : Prop :=
  u.x < v.x ∨ u.x = v.x ∧ (u.y < v.y ∨ u.y = v.y ∧ u.z < v.z)

/-- Two numbers that are equal or not nearer than 1e-10. -/
def Gap {F : Type} [Field F] [LinearOrder F] (x y : F) : Prop := x = y ∨ 1 / 10 ^ 10 ≤ |x - y|

/-- Two points with this property in every coordinate. -/
def PGap {F : Type} [Field F] [LinearOrder F] (u v : Vec F) : Prop := Gap u.x v.x ∧ Gap u.y v.y ∧ Gap u.z v.z

end Verif.Spec
