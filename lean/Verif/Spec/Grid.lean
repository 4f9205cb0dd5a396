import Verif.Model.Grid

/-! Specifications of a consistent grid. -/

namespace Verif
variable {F R : Type}

/-- The incidence structure of a triangulated surface (possibly with border). -/
structure Mesh (g : Grid F R) : Prop where
  nodes_nodup : g.nodes.Nodup
  edges_nodup : g.edges.Nodup
  faces_nodup : g.faces.Nodup
  /-- a face has three different corners, all of them nodes of the grid -/
  face_nodes : ∀ f ∈ g.faces, (g.fNodes f).length = 3 ∧ (g.fNodes f).Nodup ∧ ∀ n ∈ g.fNodes f, n ∈ g.nodes
  /-- a face has three different edges, all of them edges of the grid -/
  face_edges : ∀ f ∈ g.faces, (g.fEdges f).length = 3 ∧ (g.fEdges f).Nodup ∧ ∀ e ∈ g.fEdges f, e ∈ g.edges
  /-- an edge joins two different nodes of the grid -/
  edge_nodes : ∀ e ∈ g.edges, (g.eNodes e).length = 2 ∧ (g.eNodes e).Nodup ∧ ∀ n ∈ g.eNodes e, n ∈ g.nodes
  /-- an edge has one or two faces -/
  edge_faces : ∀ e ∈ g.edges, ((g.eFaces e).length = 1 ∨ (g.eFaces e).length = 2) ∧ (g.eFaces e).Nodup
  node_faces_nodup : ∀ n ∈ g.nodes, (g.nFaces n).Nodup
  node_edges_nodup : ∀ n ∈ g.nodes, (g.nEdges n).Nodup
  /-- node lists face iff face lists node -/
  node_face : ∀ n ∈ g.nodes, ∀ f, f ∈ g.nFaces n ↔ f ∈ g.faces ∧ n ∈ g.fNodes f
  /-- node lists edge iff edge lists node -/
  node_edge : ∀ n ∈ g.nodes, ∀ e, e ∈ g.nEdges n ↔ e ∈ g.edges ∧ n ∈ g.eNodes e
  /-- edge lists face iff face lists edge -/
  edge_face : ∀ e ∈ g.edges, ∀ f, f ∈ g.eFaces e ↔ f ∈ g.faces ∧ e ∈ g.fEdges f
  /-- every side of a face is one of its edges -/
  sides : ∀ f ∈ g.faces, ∀ a ∈ g.fNodes f, ∀ b ∈ g.fNodes f, a ≠ b →
    ∃ e ∈ g.fEdges f, a ∈ g.eNodes e ∧ b ∈ g.eNodes e
  /-- the ends of an edge of a face are corners of the face -/
  edge_in_face : ∀ f ∈ g.faces, ∀ e ∈ g.fEdges f, ∀ n ∈ g.eNodes e, n ∈ g.fNodes f
  /-- no two edges join the same nodes -/
  edge_unique : ∀ e ∈ g.edges, ∀ e' ∈ g.edges, (∀ n, n ∈ g.eNodes e ↔ n ∈ g.eNodes e') → e = e'

/-- Every face of the grid is in the list of exactly one zone, the one it points to. -/
structure ZonesOk (g : Grid F R) : Prop where
  zones_nodup : g.zones.Nodup
  /-- the face lists of the zones together contain each face of the grid exactly as often as the grid -/
  partition : (g.zones.flatMap g.zFaces).Perm g.faces
  points : ∀ z ∈ g.zones, ∀ f ∈ g.zFaces z, g.fZone f = some z

/-- The node list of a zone is the grid node list restricted to the corners of the zone's faces; the same
for edges. -/
structure ZoneLists (g : Grid F R) : Prop where
  nodes : ∀ z ∈ g.zones, g.zNodes z = g.nodes.filter (fun n => (g.zFaces z).any (fun f => (g.fNodes f).contains n))
  edges : ∀ z ∈ g.zones, g.zEdges z = g.edges.filter (fun e => (g.zFaces z).any (fun f => (g.fEdges f).contains e))

/-- The identifier of an object is its position. -/
structure GloIds (g : Grid F R) : Prop where
  nodes : ∀ i n, g.nodes[i]? = some n → g.nGlo n = i
  edges : ∀ i e, g.edges[i]? = some e → g.eGlo e = i
  faces : ∀ i f, g.faces[i]? = some f → g.fGlo f = i

/-- The global identifiers are `0 .. count - 1` without repetition (in some order). -/
structure GloPerm (g : Grid F R) : Prop where
  nodes : (g.nodes.map g.nGlo).Perm (List.range g.nodes.length)
  edges : (g.edges.map g.eGlo).Perm (List.range g.edges.length)
  faces : (g.faces.map g.fGlo).Perm (List.range g.faces.length)

/-- Zone objects of the grid exist. -/
def ZonesAlloc (g : Grid F R) : Prop := ∀ z ∈ g.zones, z < g.zNext

/-- A well-formed decomposed grid. -/
structure Wf (g : Grid F R) : Prop where
  mesh : Mesh g
  zones : ZonesOk g
  alloc : ZonesAlloc g

/-- The least a grid needs for new zones: every face points to some zone, which may be left over from an earlier decomposition; a
zone marked as fixed has the face in its list. -/
structure Loose (g : Grid F R) : Prop where
  mesh : Mesh g
  points : ∀ f ∈ g.faces, ∃ z, g.fZone f = some z ∧ z < g.zNext ∧ (g.zFixed z = true → f ∈ g.zFaces z)

/-- The zones kept by a decomposition with fixed zone names. -/
def keptZones (g : Grid F R) (names : List Str) : List Nat := g.zones.filter (fun z => decide (g.zName z ∈ names))

/-- The faces outside the kept zones, in grid order. -/
def freeFaces (g : Grid F R) (names : List Str) : List Nat :=
  g.faces.filter (fun f => !((keptZones g names).any (fun z => (g.zFaces z).contains f)))

/-- `g'` has the same nodes, edges, faces, links, coordinates, data and identifiers as `g`; only the grid
name and zone related attributes may differ. -/
structure SameMesh (g g' : Grid F R) : Prop where
  nodes : g'.nodes = g.nodes
  edges : g'.edges = g.edges
  faces : g'.faces = g.faces
  bag : g'.bag = g.bag
  nGlo : g'.nGlo = g.nGlo
  nP : g'.nP = g.nP
  nKey : g'.nKey = g.nKey
  nEdges : g'.nEdges = g.nEdges
  nFaces : g'.nFaces = g.nFaces
  nBorder : g'.nBorder = g.nBorder
  eGlo : g'.eGlo = g.eGlo
  eNodes : g'.eNodes = g.eNodes
  eFaces : g'.eFaces = g.eFaces
  fGlo : g'.fGlo = g.fGlo
  fData : g'.fData = g.fData
  fNodes : g'.fNodes = g.fNodes
  fEdges : g'.fEdges = g.fEdges
  /-- the counters of objects -/
  nNext : g'.nNext = g.nNext
  eNext : g'.eNext = g.eNext
  fNext : g'.fNext = g.fNext

/-- What every decomposition has to guarantee, relative to the grid `g` before it. -/
structure DecompOk (g g' : Grid F R) : Prop where
  same : SameMesh g g'
  zones : ZonesOk g'
  lists : ZoneLists g'
  alloc : ZonesAlloc g'
  /-- zone identifiers are positions -/
  ids : ∀ i z : Nat, g'.zones[i]? = some z → g'.zId z = i

end Verif
