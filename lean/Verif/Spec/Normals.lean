import Verif.Spec.Remesh

/-! What the smoothing of normals has to do, in terms of means of directions. -/

namespace Verif
variable {F : Type} [Field F] [LinearOrder F]

/-- `v` is the mean of the vectors `d i` of the objects `i` of the list with the weights `w i`, by coordinates. -/
structure WeightedMean (l : List Nat) (w : Nat → F) (d : Nat → Vec F) (v : Vec F) : Prop where
  total : (l.map w).sum ≠ 0
  x : v.x * (l.map w).sum = (l.map fun i => w i * (d i).x).sum
  y : v.y * (l.map w).sum = (l.map fun i => w i * (d i).y).sum
  z : v.z * (l.map w).sum = (l.map fun i => w i * (d i).z).sum

/-- The square of the length. -/
def len2 (v : Vec F) : F := v.x ^ 2 + v.y ^ 2 + v.z ^ 2

/-- The product of lengths and the cosine of the angle. -/
def component (u v : Vec F) : F := u.x * v.x + u.y * v.y + u.z * v.z

end Verif
