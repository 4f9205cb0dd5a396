import Verif.Model.Grid

/-! What a cut of a set of faces costs. -/

namespace Verif
variable {F R : Type}

/-- The number of edges of the grid that have a face in `l` and a face in `r`. -/
def cutEdges (g : Grid F R) (l r : List Nat) : Nat :=
  (g.edges.filter (fun e => (g.eFaces e).any (fun f => l.contains f) && (g.eFaces e).any (fun f => r.contains f))).length

end Verif
