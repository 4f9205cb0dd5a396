import Verif.Spec.Transform

/-! Specification of a transformation at a point which is an existing node. -/

namespace Verif
variable {F R : Type}

/-- Node `k` is apart from the faces `fs`: it is not a corner of any of them, and no edge joins it to one of their corners. -/
def Unjoined (g : Grid F R) (k : Nat) (fs : List Nat) : Prop :=
  ∀ f ∈ fs, k ∉ g.fNodes f ∧ ∀ c ∈ g.fNodes f, ∀ x ∈ g.edges, ¬ Joins g x k c

/-- `g'` is `g` with the faces `df` and the edges `de` replaced by the edges `en` and the faces `fn`, with the existing node `k`
taken as the new node; `z` is the zone of the new faces. -/
structure Reuses (rc : Vec F → R) (k : Nat) (df de en fn : List Nat) (z : Nat) (g g' : Grid F R) : Prop where
  /-- no node is added, none is moved -/
  nodes : g'.nodes = g.nodes ∧ ∀ n ∈ g.nodes, g'.nP n = g.nP n ∧ g'.nGlo n = g.nGlo n
  swaps : Swaps df de [] en fn g g'
  /-- what is not replaced is kept -/
  edges : ∀ e ∈ g.edges, e ∉ de → g'.eNodes e = g.eNodes e ∧ g'.eGlo e = g.eGlo e
  faces : ∀ f ∈ g.faces, f ∉ df → g'.fNodes f = g.fNodes f ∧ g'.fEdges f = g.fEdges f ∧ g'.fData f = g.fData f ∧
    g'.fZone f = g.fZone f ∧ g'.fGlo f = g.fGlo f
  /-- zones and identifiers stay consistent -/
  zones : g'.zones = g.zones ∧ ZonesOk g'
  glo : GloPerm g'
  /-- one element is missing for the Euler number -/
  euler : euler g' = euler g - 1
  /-- the result is a consistent mesh exactly when the node is apart from the replaced faces -/
  mesh : Mesh g' ↔ Unjoined g k df
  good : Unjoined g k df → Good rc g'
  /-- the node is not put into the list of the zone -/
  lists : ZoneLists g → (∀ f ∈ df, g.fZone f = some z) → (ZoneLists g' ↔ k ∈ g.zNodes z)

/-- What the new edges of a cut with two nodes join: `k1` and the end `a` of the cut edge, `k2` and the end `b`, `k1` and `k2`, and
both with the corners `cs` opposite to the edge. -/
def cutJoins (a b k1 k2 : Nat) (cs : List Nat) : List (Nat × Nat) :=
  (a, k1) :: (b, k2) :: (k1, k2) :: cs.flatMap (fun c => [(c, k1), (c, k2)])

/-- Two nodes can be taken as the new nodes of a cut of an edge with the ends `a`, `b` and the faces `fs`. -/
structure CutFits (g : Grid F R) (fs : List Nat) (a b k1 k2 : Nat) (cs : List Nat) : Prop where
  differ : k1 ≠ k2
  corners : ∀ f ∈ fs, k1 ∉ g.fNodes f ∧ k2 ∉ g.fNodes f
  /-- what is to be joined is not yet joined -/
  unjoined : ∀ j ∈ cutJoins a b k1 k2 cs, ∀ x ∈ g.edges, ¬ Joins g x j.1 j.2

/-- `g'` is `g` with an edge with the ends `a`, `b` cut at the points `p1` and `p2`, whether or not there are nodes at these points:
`k1` and `k2` are the nodes which are there afterwards, the faces `df` and the edges `de` are replaced by the edges `en` and the
faces `fn`, `nn` are the new nodes, and `z` is the zone of the new faces. -/
structure CutsTwo (rc : Vec F → R) (p1 p2 : Vec F) (k1 k2 : Nat) (df de nn en fn : List Nat) (a b : Nat) (cs : List Nat) (z : Nat)
    (g g' : Grid F R) : Prop where
  /-- the two nodes are at the two points; the same one when the points are rounded to the same place -/
  place : (k1 ∈ g'.nodes ∧ rc (g'.nP k1) = rc p1) ∧ (k2 ∈ g'.nodes ∧ rc (g'.nP k2) = rc p2) ∧ (k1 = k2 ↔ rc p1 = rc p2)
  /-- those of them which did not exist are new -/
  new : ∀ n, n ∈ nn ↔ (n = k1 ∨ n = k2) ∧ n ∉ g.nodes
  point : (k1 ∉ g.nodes → g'.nP k1 = p1) ∧ (k2 ∉ g.nodes → k2 ≠ k1 → g'.nP k2 = p2)
  nodes : g'.nodes = g.nodes ++ nn ∧ nn.Nodup ∧ ∀ n ∈ g.nodes, g'.nP n = g.nP n ∧ g'.nGlo n = g.nGlo n
  swaps : Swaps df de nn en fn g g'
  /-- what is not replaced is kept -/
  edges : ∀ e ∈ g.edges, e ∉ de → g'.eNodes e = g.eNodes e ∧ g'.eGlo e = g.eGlo e
  faces : ∀ f ∈ g.faces, f ∉ df → g'.fNodes f = g.fNodes f ∧ g'.fEdges f = g.fEdges f ∧ g'.fData f = g.fData f ∧
    g'.fZone f = g.fZone f ∧ g'.fGlo f = g.fGlo f
  ends : List.Forall₂ (fun e j => ∀ n, n ∈ g'.eNodes e ↔ n = j.1 ∨ n = j.2) en (cutJoins a b k1 k2 cs)
  /-- zones and identifiers stay consistent -/
  zones : g'.zones = g.zones ∧ ZonesOk g'
  glo : GloPerm g'
  /-- the Euler number is kept only when both nodes are new -/
  euler : euler g' = euler g + nn.length - 2
  /-- the result is a consistent mesh exactly when the two nodes fit -/
  mesh : Mesh g' ↔ CutFits g df a b k1 k2 cs
  good : CutFits g df a b k1 k2 cs → Good rc g'
  /-- nodes which existed are not put into the list of the zone -/
  lists : ZoneLists g → (∀ f ∈ df, g.fZone f = some z) →
    (ZoneLists g' ↔ ∀ k, k = k1 ∨ k = k2 → k ∈ g.nodes → k ∈ g.zNodes z)

end Verif
