import Verif.Spec.Transform
import Mathlib.Algebra.Order.Field.Basic

/-! Orientation of faces: on which side the normal points. -/

namespace Verif
variable {F R : Type}

section
variable [CommRing F]

/-- The normal of the triangle `a b c`: the vector product of two sides. -/
def normal (a b c : Vec F) : Vec F :=
  ⟨(b.y - a.y) * (c.z - a.z) - (b.z - a.z) * (c.y - a.y),
   (b.z - a.z) * (c.x - a.x) - (b.x - a.x) * (c.z - a.z),
   (b.x - a.x) * (c.y - a.y) - (b.y - a.y) * (c.x - a.x)⟩

/-- The normal of a face: the normal of its corners in the order in which the face lists them. -/
def faceNormal (g : Grid F R) (f : Nat) : Vec F :=
  match g.fNodes f with
  | [a, b, c] => normal (g.nP a) (g.nP b) (g.nP c)
  | _ => ⟨0, 0, 0⟩

/-- A vector multiplied by a number. -/
def Vec.mul (t : F) (v : Vec F) : Vec F := ⟨t * v.x, t * v.y, t * v.z⟩

/-- The point `s a + t b + u c`. -/
def mix (s : F) (a : Vec F) (t : F) (b : Vec F) (u : F) (c : Vec F) : Vec F :=
  ⟨s * a.x + t * b.x + u * c.x, s * a.y + t * b.y + u * c.y, s * a.z + t * b.z + u * c.z⟩

end

variable [Field F] [LinearOrder F]

/-- `u` and `v` have the same direction. -/
def SameSide (u v : Vec F) : Prop := ∃ t : F, 0 < t ∧ u = v.mul t

/-- `u` and `v` have opposite directions. -/
def OppositeSide (u v : Vec F) : Prop := ∃ t : F, t < 0 ∧ u = v.mul t

end Verif
