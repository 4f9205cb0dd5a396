import Verif.Model.Remesh

/-! The layer of ice over a triangle. -/

namespace Verif
variable {F : Type} [Field F]

/-- The point of the line from `p` in the direction `d` that is at the height `t` over the plane through `p` with the unit normal `n`. -/
def lifted (n p d : Vec F) (t : F) : Vec F :=
  let k := t / (n.x * d.x + n.y * d.y + n.z * d.z)
  ⟨p.x + k * d.x, p.y + k * d.y, p.z + k * d.z⟩

/-- The area of the triangle with the corners `a b c` projected along `n`. -/
def projArea (n a b c : Vec F) : F :=
  1 / 2 * (n.x * ((b.y - a.y) * (c.z - a.z) - (b.z - a.z) * (c.y - a.y))
    + n.y * ((b.z - a.z) * (c.x - a.x) - (b.x - a.x) * (c.z - a.z))
    + n.z * ((b.x - a.x) * (c.y - a.y) - (b.y - a.y) * (c.x - a.x)))

/-- `a + 2 b t + 3 c t²` is the area of the layer at the height `t`, so that `a h + b h² + c h³` is its volume up to the height `h`. -/
def LayerCoefs (n p1 p2 p3 d1 d2 d3 : Vec F) (a b c : F) : Prop :=
  ∀ t, projArea n (lifted n p1 d1 t) (lifted n p2 d2 t) (lifted n p3 d3 t) = a + 2 * b * t + 3 * c * t ^ 2

end Verif
