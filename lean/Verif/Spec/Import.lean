import Verif.Model.Import
import Verif.Spec.Text

/-! What the reader of `gsu_converter.py` finds in a grid file. -/

namespace Verif
variable {F R : Type}

/-- A name of a zone in which the reader does not find one of the words it looks for in other lines. -/
def NoKeyword (s : Str) : Prop := ¬ "EXPORT_MODE".toList <:+: s ∧ ¬ "TITLE".toList <:+: s ∧ ¬ "VARIABLES".toList <:+: s

/-- The face `f'` that was read is the face `f` of a zone with the nodes `ns`: the same corners in the same order and the same five
values. -/
structure ReadFace [OfNat F 0] (g : Grid F R) (ns : List Nat) (f : Nat) (f' : Ansys.CFace F) : Prop where
  corners : [ns[f'.n1]?, ns[f'.n2]?, ns[f'.n3]?] = (g.fNodes f).map some
  htc : f'.htc = g.getData 0 f "HTC".toList
  beta : f'.beta = g.getData 0 f "Beta".toList
  tau : f'.tau = ⟨g.getData 0 f "TauX".toList, g.getData 0 f "TauY".toList, g.getData 0 f "TauZ".toList⟩

/-- The zone `z'` that was read is the zone `z`. -/
structure ReadZone [OfNat F 0] (g : Grid F R) (z : Nat) (z' : Ansys.CZone F) : Prop where
  title : z'.title = g.zName z
  nodes : z'.nodes.map (·.p) = (g.zNodes z).map g.nP
  faces : List.Forall₂ (ReadFace g (g.zNodes z)) (g.zFaces z) z'.faces

open Ansys in
/-- Cleaning of a zone: nodes are replaced and unused nodes are deleted, in any order and any number of times. -/
inductive Cleaned : LinkZone → LinkZone → Prop
  | refl (z) : Cleaned z z
  | replace {z z'} (on nn : Nat) : Cleaned z z' → Cleaned z (z'.replaceNode on nn)
  | delete {z z'} : Cleaned z z' → Cleaned z z'.deleteExtra

/-- The corners of faces are nodes of the zone. -/
def Ansys.LinkZone.Closed (z : Ansys.LinkZone) : Prop := ∀ f ∈ z.faces, ∀ n ∈ f, n ∈ z.nodes

end Verif
