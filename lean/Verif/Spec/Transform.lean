import Verif.Spec.Grid
import Verif.Spec.Load
import Verif.Model.Transform

/-! Specifications for grid transformations. -/

namespace Verif
variable {F R : Type}

/-- Different faces have different sets of corners. -/
def Simple (g : Grid F R) : Prop :=
  ∀ f ∈ g.faces, ∀ h ∈ g.faces, (∀ n, n ∈ g.fNodes f ↔ n ∈ g.fNodes h) → f = h

/-- Different nodes have different rounded coordinates, and the bag of the grid contains exactly these. -/
structure Merged (rc : Vec F → R) (g : Grid F R) : Prop where
  key : ∀ n ∈ g.nodes, g.nKey n = rc (g.nP n)
  inj : ∀ n ∈ g.nodes, ∀ m ∈ g.nodes, g.nKey n = g.nKey m → n = m
  bag : ∀ k, k ∈ g.bag ↔ ∃ n ∈ g.nodes, g.nKey n = k

/-- All objects of the grid exist. -/
structure Alloc (g : Grid F R) : Prop where
  nodes : ∀ n ∈ g.nodes, n < g.nNext
  edges : ∀ e ∈ g.edges, e < g.eNext
  faces : ∀ f ∈ g.faces, f < g.fNext

/-- A consistent grid: what a load with merging gives, and what transformations have to keep. -/
structure Good (rc : Vec F → R) (g : Grid F R) : Prop where
  mesh : Mesh g
  zones : ZonesOk g
  zalloc : ZonesAlloc g
  alloc : Alloc g
  merged : Merged rc g
  simple : Simple g
  glo : GloPerm g

/-- No node of the grid is at the point `p` (after rounding). -/
def NewPlace (rc : Vec F → R) (g : Grid F R) (p : Vec F) : Prop := ∀ n ∈ g.nodes, rc (g.nP n) ≠ rc p

/-- Edge `e` joins `a` and `b`. -/
def Joins (g : Grid F R) (e a b : Nat) : Prop := ∀ n, n ∈ g.eNodes e ↔ n = a ∨ n = b

/-- Everything of `g` except the faces `df` and the edges `de`, which are removed, is still there in `g'`, with the same
attributes; links change only around the removed faces. -/
structure Keeps (df de : List Nat) (g g' : Grid F R) : Prop where
  name : g'.name = g.name
  zones : g'.zones = g.zones ∧ g'.zId = g.zId ∧ g'.zName = g.zName ∧ g'.zFixed = g.zFixed
  nodes : ∀ n ∈ g.nodes, n ∈ g'.nodes ∧ g'.nP n = g.nP n ∧ g'.nGlo n = g.nGlo n
  edges : ∀ e ∈ g.edges, e ∉ de → e ∈ g'.edges ∧ g'.eNodes e = g.eNodes e ∧ g'.eGlo e = g.eGlo e
  faces : ∀ f ∈ g.faces, f ∉ df → f ∈ g'.faces ∧ g'.fNodes f = g.fNodes f ∧ g'.fEdges f = g.fEdges f ∧
    g'.fData f = g.fData f ∧ g'.fZone f = g.fZone f ∧ g'.fGlo f = g.fGlo f
  node_links : ∀ n ∈ g.nodes, (∀ f ∈ df, n ∉ g.fNodes f) → g'.nEdges n = g.nEdges n ∧ g'.nFaces n = g.nFaces n
  edge_links : ∀ e ∈ g.edges, e ∉ de → (∀ f ∈ df, f ∉ g.eFaces e) → g'.eFaces e = g.eFaces e
  gone : (∀ f ∈ df, f ∉ g'.faces) ∧ ∀ e ∈ de, e ∉ g'.edges

/-- The nodes, edges and faces of `g'` are those of `g` without the faces `df` and the edges `de` and with the nodes `nn`, edges
`en` and faces `fn`, which are new. -/
structure Swaps (df de nn en fn : List Nat) (g g' : Grid F R) : Prop where
  nodes : ∀ n, n ∈ g'.nodes ↔ n ∈ g.nodes ∨ n ∈ nn
  edges : ∀ e, e ∈ g'.edges ↔ (e ∈ g.edges ∧ e ∉ de) ∨ e ∈ en
  faces : ∀ f, f ∈ g'.faces ↔ (f ∈ g.faces ∧ f ∉ df) ∨ f ∈ fn
  fresh : (∀ n ∈ nn, n ∉ g.nodes) ∧ (∀ e ∈ en, e ∉ g.edges) ∧ ∀ f ∈ fn, f ∉ g.faces

/-- `f` is a face of the grid with corners `a`, `b`, `c`, with the given data, in zone `z`. -/
structure IsFace (g : Grid F R) (f a b c : Nat) (data : List (Str × F)) (z : Nat) : Prop where
  face : f ∈ g.faces
  corners : ∀ n, n ∈ g.fNodes f ↔ n = a ∨ n = b ∨ n = c
  data : g.fData f = data
  zone : g.fZone f = some z

/-- No two faces of the file have the same three corners (after rounding, in any order). -/
def NoTwins (rc : Vec F → R) (blocks : List (ZoneBlock F)) : Prop :=
  (fileFaces rc true blocks).Pairwise (fun s t => ¬ ∀ c, c ∈ s ↔ c ∈ t)

/-- The number of nodes minus the number of edges plus the number of faces. -/
def euler (g : Grid F R) : Int := g.nodes.length - g.edges.length + g.faces.length

/-- The numbers of nodes, edges and faces. -/
def counts (g : Grid F R) : Nat × Nat × Nat := (g.nodes.length, g.edges.length, g.faces.length)

/-- Flipping edge `e` of face `f` does not create a second edge between two nodes: whenever `h` is the other face at the edge
and `c`, `c'` are the corners of `f` and `h` opposite to the edge, no edge joins `c` and `c'`. -/
def Flippable (g : Grid F R) (f e : Nat) : Prop :=
  ∀ h c c', h ≠ f → h ∈ g.eFaces e → c ∈ g.fNodes f → c ∉ g.eNodes e → c' ∈ g.fNodes h → c' ∉ g.eNodes e →
    ∀ x ∈ g.edges, ¬ Joins g x c c'

/-- What `collapse_edge` needs in order to shrink the edge `e` from `n1` to `n2` to the node `n1`. -/
structure Collapsible (rc : Vec F → R) (mid : Vec F → Vec F → Vec F) (g : Grid F R) (e n1 n2 : Nat) : Prop where
  edge : e ∈ g.edges
  ends : g.eNodes e = [n1, n2]
  /-- the edge has two faces -/
  inner : (g.eFaces e).length = 2
  /-- only the corners opposite to the edge are joined to both ends -/
  link : ∀ c, ∀ x ∈ g.edges, ∀ y ∈ g.edges, Joins g x n1 c → Joins g y n2 c → ∃ k ∈ g.eFaces e, c ∈ g.fNodes k
  /-- no face at `n1` and face at `n2` have the same other corners -/
  twins : ∀ k ∈ g.faces, k ∉ g.eFaces e → ∀ k' ∈ g.faces, n1 ∈ g.fNodes k → n2 ∈ g.fNodes k' →
    ¬ ∀ n, n ≠ n1 → n ≠ n2 → (n ∈ g.fNodes k ↔ n ∈ g.fNodes k')
  /-- `n2` is a corner of a third face -/
  third : ∃ k ∈ g.faces, k ∉ g.eFaces e ∧ n2 ∈ g.fNodes k
  /-- both faces have a neighbour behind one of their other sides -/
  sides : ∀ k ∈ g.eFaces e, ∃ x ∈ g.fEdges k, x ≠ e ∧ (g.eFaces x).length = 2
  /-- at least two faces remain -/
  four : 4 ≤ g.faces.length
  /-- the middle of the edge is a new place -/
  place : NewPlace rc g (mid (g.nP n1) (g.nP n2))
  /-- the zones of the faces at `n2` list it -/
  listed : ∀ k ∈ g.faces, k ∉ g.eFaces e → n2 ∈ g.fNodes k → ∀ z, g.fZone k = some z → n2 ∈ g.zNodes z

/-- The nodes, edges and faces left when the edge `e` with second end `n2` is shrunk: without the node `n2`, without the faces at
the edge, and without the sides of these faces at `n2`; in their order. -/
def leftNodes (g : Grid F R) (n2 : Nat) : List Nat := g.nodes.filter (fun n => decide (n ≠ n2))

@[inherit_doc leftNodes]
def leftEdges (g : Grid F R) (e n2 : Nat) : List Nat :=
  g.edges.filter (fun x => decide (x ≠ e ∧ ∀ k ∈ g.eFaces e, ¬ (x ∈ g.fEdges k ∧ n2 ∈ g.eNodes x)))

@[inherit_doc leftNodes]
def leftFaces (g : Grid F R) (e : Nat) : List Nat := g.faces.filter (fun k => decide (k ∉ g.eFaces e))

/-- `g'` is `g` with the edge `e` from `n1` to `n2` shrunk to the node `n1`, which is moved to `p`; of each of the faces at the
edge nothing is left but a side from `n1`. -/
structure Shrinks (g g' : Grid F R) (e n1 n2 : Nat) (p : Vec F) : Prop where
  name : g'.name = g.name
  zones : g'.zones = g.zones ∧ g'.zId = g.zId ∧ g'.zName = g.zName ∧ g'.zFixed = g.zFixed
  nodes : g'.nodes = leftNodes g n2
  edges : g'.edges = leftEdges g e n2
  faces : g'.faces = leftFaces g e
  /-- one node, three edges and two faces are gone -/
  counts : g'.nodes.length + 1 = g.nodes.length ∧ g'.edges.length + 3 = g.edges.length ∧ g'.faces.length + 2 = g.faces.length
  /-- only `n1` has moved -/
  moved : g'.nP n1 = p
  others : ∀ n ∈ g.nodes, n ≠ n1 → g'.nP n = g.nP n
  /-- `n1` takes the place of `n2` in faces and edges -/
  corners : ∀ k ∈ g'.faces, ∀ n, n ∈ g'.fNodes k ↔ n ≠ n2 ∧ (n ∈ g.fNodes k ∨ n = n1 ∧ n2 ∈ g.fNodes k)
  ends : ∀ x ∈ g'.edges, ∀ n, n ∈ g'.eNodes x ↔ n ≠ n2 ∧ (n ∈ g.eNodes x ∨ n = n1 ∧ n2 ∈ g.eNodes x)
  data : ∀ k ∈ g'.faces, g'.fData k = g.fData k ∧ g'.fZone k = g.fZone k

/-- The last node, the last three edges and the last two faces left are the ones with the greatest identifiers of all. -/
def LastIds (g : Grid F R) (e n2 : Nat) : Prop :=
  (∀ n ∈ (leftNodes g n2).drop ((leftNodes g n2).length - 1), (leftNodes g n2).length ≤ g.nGlo n) ∧
  (∀ x ∈ (leftEdges g e n2).drop ((leftEdges g e n2).length - 3), (leftEdges g e n2).length ≤ g.eGlo x) ∧
  ∀ k ∈ (leftFaces g e).drop ((leftFaces g e).length - 2), (leftFaces g e).length ≤ g.fGlo k

/-- The transformations: those which refine a grid, which flip an edge and which shrink an edge. -/
inductive Op (F : Type) where
  | divide (f : Nat) (p : Vec F)
  | cut (e : Nat) (p : Vec F)
  | cutSingle (e : Nat) (p : Vec F)
  | cutTwo (e : Nat) (p1 p2 : Vec F)
  | collapse (f : Nat)
  | shrink (e : Nat)

/-- Carrying out one transformation. -/
def Op.run [DecidableEq R] (rc : Vec F → R) (mid : Vec F → Vec F → Vec F) (dist : Vec F → Vec F → F) (gt : F → F → Bool)
    (g : Grid F R) : Op F → Res (Grid F R)
  | .divide f p => g.divideFace rc f p
  | .cut e p => (fun r => r.1) <$> g.cutEdge rc e p
  | .cutSingle e p => (fun r => r.1) <$> g.cutSingleEdge rc e p
  | .cutTwo e p1 p2 => (fun r => r.1) <$> g.cutEdgeTwoNodes rc e p1 p2
  | .collapse f => (fun r => r.1) <$> g.collapseFace dist gt f
  | .shrink e => (fun r => r.1) <$> g.collapseEdge rc mid e

/-- The arguments of the transformation are objects of the grid, new points are at new places, a flip does not create a
second edge between two nodes, and an edge with two faces is shrunk only if this is possible and the objects with the greatest
identifiers are the last ones. -/
def Op.Applicable (rc : Vec F → R) (mid : Vec F → Vec F → Vec F) (dist : Vec F → Vec F → F) (gt : F → F → Bool)
    (g : Grid F R) : Op F → Prop
  | .divide f p => f ∈ g.faces ∧ NewPlace rc g p
  | .cut e p => e ∈ g.edges ∧ NewPlace rc g p
  | .cutSingle e p => e ∈ g.edges ∧ NewPlace rc g p
  | .cutTwo e p1 p2 => e ∈ g.edges ∧ NewPlace rc g p1 ∧ NewPlace rc g p2 ∧ rc p2 ≠ rc p1
  | .collapse f => f ∈ g.faces ∧ ∀ e, g.maxEdge dist gt f = .ok e → Flippable g f e
  | .shrink e => (g.eFaces e).length = 2 → ∃ n1 n2, Collapsible rc mid g e n1 n2 ∧ LastIds g e n2

/-- The transformation stays within one zone: the faces it takes away or changes belong to the same zone. -/
def Op.InZone (dist : Vec F → Vec F → F) (gt : F → F → Bool) (g : Grid F R) : Op F → Prop
  | .divide _ _ => True
  | .cut e _ => ∃ z, ∀ f ∈ g.eFaces e, g.fZone f = some z
  | .cutSingle _ _ => True
  | .cutTwo e _ _ => ∃ z, ∀ f ∈ g.eFaces e, g.fZone f = some z
  | .collapse f => ∀ e, g.maxEdge dist gt f = .ok e → ∃ z, ∀ k ∈ g.eFaces e, g.fZone k = some z
  | .shrink e => ∃ z, ∀ n ∈ g.eNodes e, ∀ f ∈ g.faces, n ∈ g.fNodes f → g.fZone f = some z

/-- `g'` is obtained from `g` by some applicable transformations. -/
inductive Steps [DecidableEq R] (rc : Vec F → R) (mid : Vec F → Vec F → Vec F) (dist : Vec F → Vec F → F) (gt : F → F → Bool)
    (g : Grid F R) : Grid F R → Prop
  | refl : Steps rc mid dist gt g g
  | step {g' g'' : Grid F R} (o : Op F) : Steps rc mid dist gt g g' → o.Applicable rc mid dist gt g' →
      o.run rc mid dist gt g' = .ok g'' → Steps rc mid dist gt g g''

/-- `g'` is obtained from `g` by some applicable transformations, each within one zone. -/
inductive ZoneSteps [DecidableEq R] (rc : Vec F → R) (mid : Vec F → Vec F → Vec F) (dist : Vec F → Vec F → F) (gt : F → F → Bool)
    (g : Grid F R) : Grid F R → Prop
  | refl : ZoneSteps rc mid dist gt g g
  | step {g' g'' : Grid F R} (o : Op F) : ZoneSteps rc mid dist gt g g' → o.Applicable rc mid dist gt g' → o.InZone dist gt g' →
      o.run rc mid dist gt g' = .ok g'' → ZoneSteps rc mid dist gt g g''

end Verif
