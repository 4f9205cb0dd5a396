import Verif.Model.Left
import Verif.Spec.Grid

/-! Specification for grids left behind by calls that raise. -/

namespace Verif
variable {F R : Type}

/-- What a caller sees who does not catch the exception: the value, or the exception. -/
def Left.plain {α : Type} (x : Left F R α) : Res α :=
  match x with
  | .ok a => .ok a
  | .error (e, _) => .error e

/-- Some face of the grid is in no zone. -/
def Stuck (g : Grid F R) : Prop := ∃ f ∈ g.faces, g.fZone f = none

/-- The face `f` is in a zone which is not marked as fixed. -/
def InFreeZone (g : Grid F R) (f : Nat) : Prop := ∃ z, g.fZone f = some z ∧ g.zFixed z = false

/-- The face `f` is in a zone whose name is not among `names`. -/
def OutsideKept (g : Grid F R) (names : List Str) (f : Nat) : Prop := ∃ z, g.fZone f = some z ∧ g.zName z ∉ names

end Verif
