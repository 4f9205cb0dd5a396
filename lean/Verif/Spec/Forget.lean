import Verif.Spec.Grid
import Verif.Spec.History

/-! Specification of what a decomposition depends on. -/

namespace Verif
variable {F R : Type}

/-- The zones of the grid in their order: name, identifier, nodes, edges and faces. -/
def zoneTable (g : Grid F R) : List (Str × Int × List Nat × List Nat × List Nat) :=
  g.zones.map (fun z => (g.zName z, g.zId z, g.zNodes z, g.zEdges z, g.zFaces z))

/-- Names and faces of the zones whose name is in `names`. -/
def keptTable (g : Grid F R) (names : List Str) : List (Str × List Nat) :=
  (keptZones g names).map (fun z => (g.zName z, g.zFaces z))

/-- The names of zones which the call is told to keep. -/
def DecompCall.fixed {S : Type} : DecompCall S → List Str
  | .farhat _ _ fixed => fixed
  | .hierarchical _ _ _ fixed => fixed
  | _ => []

/-- The new name of the grid, if the call gives one. -/
def DecompCall.newName {S : Type} : DecompCall S → Option Str
  | .mono nm => nm
  | .random _ _ nm => nm
  | .linear _ nm => nm
  | .farhat _ nm _ => nm
  | .hierarchical _ _ nm _ => nm

end Verif
