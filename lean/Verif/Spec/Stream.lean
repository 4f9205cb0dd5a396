import Verif.Spec.Load
import Verif.Model.Text

/-! Words used by property C112 (what a failed load leaves behind). -/

namespace Verif
variable {F R : Type}

/-- Nothing of the grid `old` is left: all nodes, edges, faces and zones of `g` are objects made later. -/
structure AllNew (old g : Grid F R) : Prop where
  nodes : ∀ n ∈ g.nodes, old.nNext ≤ n
  edges : ∀ e ∈ g.edges, old.eNext ≤ e
  faces : ∀ f ∈ g.faces, old.fNext ≤ f
  zones : ∀ z ∈ g.zones, old.zNext ≤ z

/-- A grid read up to a place inside a file: no edges at all; every face is in one zone and has its three corners, except
that faces of the last zone may have none. -/
structure HalfRead (g : Grid F R) : Prop where
  no_edges : g.edges = []
  node_edges : ∀ n ∈ g.nodes, g.nEdges n = []
  face_edges : ∀ f ∈ g.faces, g.fEdges f = []
  part : g.faces = g.zones.flatMap g.zFaces
  points : ∀ z ∈ g.zones, ∀ f ∈ g.zFaces z, g.fZone f = some z
  corners : ∀ f ∈ g.faces, (g.fNodes f).length = 3 ∨ g.fNodes f = [] ∧ g.fZone f = g.zones.getLast?
  corner_nodes : ∀ f ∈ g.faces, ∀ n ∈ g.fNodes f, n ∈ g.nodes

/-- The zones written in the text of a file. -/
def FileZones (c : Codec F) (text : Str) (blocks : List (ZoneBlock F)) : Prop :=
  ∃ s, Grid.parseFile c (Py.readlines text).length ⟨[], [], []⟩ (Py.readlines text) = .ok s ∧ s.blocks = blocks

end Verif
