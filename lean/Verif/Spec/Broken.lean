import Verif.Model.Grid

/-! When a grid can be written. -/

namespace Verif
open Grid
variable {F R : Type}

/-- All identifiers that are used for writing a zone are less than the number of nodes of the grid. -/
def ZoneNumbered (g : Grid F R) (z : Nat) : Prop :=
  (∀ n ∈ g.zNodes z, g.nGlo n < g.nodes.length) ∧ ∀ f ∈ g.zFaces z, ∀ n ∈ g.fNodes f, g.nGlo n < g.nodes.length

end Verif
