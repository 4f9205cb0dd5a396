import Verif.Py
import Verif.Model.Vect

/-!
Model of the objects of `crysgsu/gsu/{node,edge,face,zone,grid}.py` and of the basic operations of
`Grid` (grid.py:14-467, 744-800).

Objects (nodes, edges, faces, zones) are natural numbers; every attribute of a class is a map from
objects to values.  Creating an object takes the next unused number of its class and initialises all
its attributes.  Assertions `type(x) is gsu.Node` hold by typing and are left out.
`GloId` of an object that was not yet added to a grid is `-1` in Python and is never read before it is
set; the model uses `Nat` and starts with 0.
-/

namespace Verif

/-- Update of an attribute of one object. -/
def upd {α : Type _} (f : Nat → α) (i : Nat) (v : α) : Nat → α := fun j => if j = i then v else f j

/-- The grid object together with the attributes of all node, edge, face and zone objects.
`F` is the type of numbers, `R` the type of rounded coordinates (`RoundedCoords` tuples). -/
structure Grid (F R : Type) where
  -- grid.py:21-38
  name : Str
  nodes : List Nat
  edges : List Nat
  faces : List Nat
  zones : List Nat
  /-- the set `RoundedCoordsBag`, kept as a list -/
  bag : List R
  borderCnt : Nat
  -- node.py:17-36
  nGlo : Nat → Nat
  nP : Nat → Vec F
  nKey : Nat → R
  nEdges : Nat → List Nat
  nFaces : Nat → List Nat
  nBorder : Nat → Bool
  -- edge.py:15-25
  eGlo : Nat → Nat
  eNodes : Nat → List Nat
  eFaces : Nat → List Nat
  -- face.py:18-37
  fGlo : Nat → Nat
  fData : Nat → List (Str × F)
  fNodes : Nat → List Nat
  fEdges : Nat → List Nat
  fZone : Nat → Option Nat
  /-- attribute `bfs_mark` set by grid.py:457-458 -/
  fMark : Nat → Bool
  -- zone.py:16-33
  zId : Nat → Int
  zName : Nat → Str
  zNodes : Nat → List Nat
  zEdges : Nat → List Nat
  zFaces : Nat → List Nat
  zFixed : Nat → Bool
  -- next unused object numbers
  nNext : Nat
  eNext : Nat
  fNext : Nat
  zNext : Nat

namespace Grid
variable {F R : Type}

/-- A new grid: `Grid()`, grid.py:21-38; no objects exist yet. -/
def empty [Inhabited F] [Inhabited R] : Grid F R where
  name := []
  nodes := []
  edges := []
  faces := []
  zones := []
  bag := []
  borderCnt := 0
  nGlo := fun _ => 0
  nP := fun _ => ⟨default, default, default⟩
  nKey := fun _ => default
  nEdges := fun _ => []
  nFaces := fun _ => []
  nBorder := fun _ => false
  eGlo := fun _ => 0
  eNodes := fun _ => []
  eFaces := fun _ => []
  fGlo := fun _ => 0
  fData := fun _ => []
  fNodes := fun _ => []
  fEdges := fun _ => []
  fZone := fun _ => none
  fMark := fun _ => false
  zId := fun _ => -1
  zName := fun _ => []
  zNodes := fun _ => []
  zEdges := fun _ => []
  zFaces := fun _ => []
  zFixed := fun _ => false
  nNext := 0
  eNext := 0
  fNext := 0
  zNext := 0

/-- `clear`, grid.py:42-51. (`Name` and `number_of_border_nodes` are not reset.) -/
def clear (g : Grid F R) : Grid F R :=
  { g with nodes := [], edges := [], faces := [], zones := [], bag := [] }

/-- `gsu.Node(p)`, node.py:17-36; `rc` is `rounded_coords_tuple(10)`. The new object is `g.nNext`. -/
def newNode (rc : Vec F → R) (g : Grid F R) (p : Vec F) : Grid F R :=
  { g with
    nP := upd g.nP g.nNext p
    nKey := upd g.nKey g.nNext (rc p)
    nEdges := upd g.nEdges g.nNext []
    nFaces := upd g.nFaces g.nNext []
    nBorder := upd g.nBorder g.nNext false
    nGlo := upd g.nGlo g.nNext 0
    nNext := g.nNext + 1 }

/-- `gsu.Edge()`, edge.py:15-25. The new object is `g.eNext`. -/
def newEdge (g : Grid F R) : Grid F R :=
  { g with
    eGlo := upd g.eGlo g.eNext 0
    eNodes := upd g.eNodes g.eNext []
    eFaces := upd g.eFaces g.eNext []
    eNext := g.eNext + 1 }

/-- `gsu.Face(variables, values)`, face.py:18-37, with `Data = d` already built. The new object is
`g.fNext`. -/
def newFace (g : Grid F R) (d : List (Str × F)) : Grid F R :=
  { g with
    fGlo := upd g.fGlo g.fNext 0
    fData := upd g.fData g.fNext d
    fNodes := upd g.fNodes g.fNext []
    fEdges := upd g.fEdges g.fNext []
    fZone := upd g.fZone g.fNext none
    fMark := upd g.fMark g.fNext false
    fNext := g.fNext + 1 }

/-- `gsu.Zone(name)`, zone.py:16-33. The new object is `g.zNext`. -/
def newZone (g : Grid F R) (name : Str) : Grid F R :=
  { g with
    zId := upd g.zId g.zNext (-1)
    zName := upd g.zName g.zNext name
    zNodes := upd g.zNodes g.zNext []
    zEdges := upd g.zEdges g.zNext []
    zFaces := upd g.zFaces g.zNext []
    zFixed := upd g.zFixed g.zNext false
    zNext := g.zNext + 1 }

/-- `find_near_node`, grid.py:188-204. -/
def findNearNode [DecidableEq R] (g : Grid F R) (n : Nat) : Res (Option Nat) :=
  if g.nKey n ∈ g.bag then
    match g.nodes.find? (fun m => g.nKey m = g.nKey n) with
    | some m => .ok (some m)
    | none => .error (.exc "We expect to find node")
  else .ok none

/-- Registration of a node, grid.py:222-224. -/
def pushNode [DecidableEq R] (g : Grid F R) (n : Nat) : Grid F R :=
  { g with
    nGlo := upd g.nGlo n g.nodes.length
    nodes := g.nodes ++ [n]
    bag := if g.nKey n ∈ g.bag then g.bag else g.bag ++ [g.nKey n] }

/-- `add_node`, grid.py:208-229. Returns the grid and the registered node. -/
def addNode [DecidableEq R] (g : Grid F R) (n : Nat) (merge : Bool) : Res (Grid F R × Nat) := do
  let found ← g.findNearNode n
  match found with
  | none => .ok (g.pushNode n, n)
  | some m => if merge = false then .ok (g.pushNode n, n) else .ok (g, m)

/-- `add_edge`, grid.py:233-248; `gid` is the optional global id. -/
def addEdge (g : Grid F R) (e : Nat) (gid : Option Nat := none) : Grid F R :=
  { g with
    eGlo := upd g.eGlo e (gid.getD g.edges.length)
    edges := g.edges ++ [e] }

/-- `add_face`, grid.py:252-268. -/
def addFace (g : Grid F R) (f : Nat) (gid : Option Nat := none) : Grid F R :=
  { g with
    fGlo := upd g.fGlo f (gid.getD g.faces.length)
    faces := g.faces ++ [f] }

/-- `set_zones_ids`, grid.py:272-278. -/
def setZonesIds (g : Grid F R) : Grid F R :=
  { g with zId := (g.zones.zipIdx).foldl (fun ids p => upd ids p.1 (p.2 : Int)) g.zId }

/-- `reset_zones_ids`, grid.py:282-288. -/
def resetZonesIds (g : Grid F R) : Grid F R :=
  { g with zId := g.zones.foldl (fun ids z => upd ids z (-1)) g.zId }

/-- `link_node_edge`, grid.py:293-305. -/
def linkNodeEdge (g : Grid F R) (n e : Nat) : Grid F R :=
  { g with
    nEdges := upd g.nEdges n (g.nEdges n ++ [e])
    eNodes := upd g.eNodes e (g.eNodes e ++ [n]) }

/-- `link_node_face`, grid.py:310-322. -/
def linkNodeFace (g : Grid F R) (n f : Nat) : Grid F R :=
  { g with
    nFaces := upd g.nFaces n (g.nFaces n ++ [f])
    fNodes := upd g.fNodes f (g.fNodes f ++ [n]) }

/-- `link_edge_face`, grid.py:327-346. (The message formats `edge.Nodes[0]`; edges passed here always
have two nodes.) -/
def linkEdgeFace (g : Grid F R) (e f : Nat) : Res (Grid F R) :=
  if (g.eFaces e).length = 2 then .error (.exc "Too many faces linking with this edge")
  else .ok { g with
    eFaces := upd g.eFaces e (g.eFaces e ++ [f])
    fEdges := upd g.fEdges f (g.fEdges f ++ [e]) }

/-- `node == other` for nodes, node.py:40-66: rounded coordinates are equal. -/
def nodeEq [DecidableEq R] (g : Grid F R) (n m : Nat) : Bool := decide (g.nKey n = g.nKey m)

/-- `node in list` for a list of nodes. -/
def nodeIn [DecidableEq R] (g : Grid F R) (n : Nat) (l : List Nat) : Bool := l.any (fun m => g.nodeEq m n)

/-- `find_edge`, grid.py:351-364. -/
def findEdge [DecidableEq R] (g : Grid F R) (a b : Nat) : Option Nat :=
  (g.nEdges a).find? (fun e => g.nodeIn b (g.eNodes e))

/-- `complex_link_face_node_node_edge`, grid.py:368-390. -/
def complexLink [DecidableEq R] (g : Grid F R) (f a b : Nat) : Res (Grid F R) :=
  match g.findEdge a b with
  | none =>
    let e := g.eNext
    let g := g.newEdge
    let g := g.addEdge e
    let g := g.linkNodeEdge a e
    let g := g.linkNodeEdge b e
    g.linkEdgeFace e f
  | some e => g.linkEdgeFace e f

/-- `Zone.add_node`, zone.py:136-147. -/
def zoneAddNode (g : Grid F R) (z n : Nat) : Grid F R :=
  { g with zNodes := upd g.zNodes z (g.zNodes z ++ [n]) }

/-- `Zone.add_edge`, zone.py:151-162. -/
def zoneAddEdge (g : Grid F R) (z e : Nat) : Grid F R :=
  { g with zEdges := upd g.zEdges z (g.zEdges z ++ [e]) }

/-- `Face.unlink_from_zone`, face.py:109-120. -/
def unlinkFromZone (g : Grid F R) (f : Nat) : Res (Grid F R) :=
  match g.fZone f with
  | none => .ok g
  | some z => do
    let l ← Py.remove (g.zFaces z) f
    .ok { g with zFaces := upd g.zFaces z l, fZone := upd g.fZone f none }

/-- `Zone.add_face`, zone.py:166-183. -/
def zoneAddFace (g : Grid F R) (z f : Nat) : Res (Grid F R) := do
  let g ← (if g.fZone f ≠ none then g.unlinkFromZone f else .ok g)
  .ok { g with fZone := upd g.fZone f (some z), zFaces := upd g.zFaces z (g.zFaces z ++ [f]) }

/-- `f[item]`, face.py:41-49: missing data read as `0.0` (`dflt`). -/
def getData (g : Grid F R) (dflt : F) (f : Nat) (k : Str) : F :=
  (Py.dictGet? (g.fData f) k).getD dflt

/-- `f[key] = value`, face.py:53-61. -/
def setData (g : Grid F R) (f : Nat) (k : Str) (v : F) : Grid F R :=
  { g with fData := upd g.fData f (Py.dictSet (g.fData f) k v) }

/-- `[f.Zone.Id for f in fs]`, grid.py:758, 764: raises `AttributeError` if a face has no zone. -/
def zoneIds (g : Grid F R) (fs : List Nat) : Res (List Int) :=
  fs.mapM (fun f => match g.fZone f with | some z => .ok (g.zId z) | none => .error .attr)

/-- The elements of a list without repetitions: `list(set(l))`. The order of a Python set is not
specified; here every element appears at its last occurrence. -/
def dedup (l : List Int) : List Int :=
  l.foldr (fun a t => if a ∈ t then t else a :: t) []

/-- Body of the first loop of `link_nodes_and_edges_to_zones`, grid.py:758-760. -/
def linkNodeToZones (g : Grid F R) (n : Nat) : Res (Grid F R) := do
  let ids ← g.zoneIds (g.nFaces n)
  (dedup ids).foldlM (fun g zid => do
    let z ← Py.get g.zones zid
    pure (g.zoneAddNode z n)) g

/-- Body of the second loop of `link_nodes_and_edges_to_zones`, grid.py:764-766. -/
def linkEdgeToZones (g : Grid F R) (e : Nat) : Res (Grid F R) := do
  let ids ← g.zoneIds (g.eFaces e)
  (dedup ids).foldlM (fun g zid => do
    let z ← Py.get g.zones zid
    pure (g.zoneAddEdge z e)) g

/-- `link_nodes_and_edges_to_zones`, grid.py:744-768. -/
def linkNodesAndEdgesToZones (g : Grid F R) : Res (Grid F R) := do
  let g := { g with
    zNodes := g.zones.foldl (fun m z => upd m z []) g.zNodes
    zEdges := g.zones.foldl (fun m z => upd m z []) g.zEdges }
  let g := g.setZonesIds
  let g ← g.nodes.foldlM linkNodeToZones g
  let g ← g.edges.foldlM linkEdgeToZones g
  pure g.resetZonesIds

/-- Loop body of `unlink_faces_from_zones`, grid.py:778-779. The zone of a face must not be `None`. -/
def unlinkStep (g : Grid F R) (f : Nat) : Res (Grid F R) :=
  match g.fZone f with
  | none => .error .attr
  | some z => .ok (if g.zFixed z = false then { g with fZone := upd g.fZone f none } else g)

/-- `unlink_faces_from_zones`, grid.py:772-779. -/
def unlinkFacesFromZones (g : Grid F R) : Res (Grid F R) := g.faces.foldlM unlinkStep g

/-- `check_faces_are_linked_to_zones`, grid.py:783-790. -/
def checkFacesLinked (g : Grid F R) : Res Unit :=
  g.faces.forM (fun f => if g.fZone f = none then .error (.exc "Unlinked face detected.") else .ok ())

/-- `post_decompose`, grid.py:794-801. -/
def postDecompose (g : Grid F R) : Res (Grid F R) := do
  let g ← g.linkNodesAndEdgesToZones
  g.checkFacesLinked
  pure g.setZonesIds

/-- `self.Name = new_name` if given. -/
def rename (g : Grid F R) (newName : Option Str) : Grid F R :=
  { g with name := newName.getD g.name }

/-- Create a zone and append it to the zones of the grid. -/
def pushZone (g : Grid F R) (name : Str) : Grid F R :=
  let g' := g.newZone name
  { g' with zones := g'.zones ++ [g.zNext] }

/-- `decompose_mono`, grid.py:805-823. -/
def decomposeMono (g : Grid F R) (newName : Option Str := none) : Res (Grid F R) := do
  let g := g.rename newName
  let g := { g with zones := [] }
  let g ← g.unlinkFacesFromZones
  let z := g.zNext
  let g := g.pushZone "mono".toList
  let g ← g.faces.foldlM (fun g f => g.zoneAddFace z f) g
  g.postDecompose

/-- Names `'<prefix> ' + str(i)` for `i` in `range(count)`. -/
def numbered (pre : Str) (count : Nat) : List Str :=
  (List.range count).map (fun i => pre ++ Py.natStr i)

/-- Append new zones with the given names. -/
def pushZones (g : Grid F R) (names : List Str) : Grid F R := names.foldl pushZone g

/-- `decompose_random`, grid.py:827-848. `rand i` is the number drawn for the `i`-th face
(`random.randint(0, count - 1)`); `randint` raises `ValueError` for an empty range. -/
def decomposeRandom (g : Grid F R) (rand : Nat → Nat) (count : Nat) (newName : Option Str := none) :
    Res (Grid F R) := do
  let g := g.rename newName
  let g := { g with zones := [] }
  let g ← g.unlinkFacesFromZones
  let g := g.pushZones (numbered "random ".toList count)
  let g ← g.faces.zipIdx.foldlM (fun g p => do
    if count = 0 then .error .value
    else
      let z ← Py.get g.zones (rand p.2 : Int)
      g.zoneAddFace z p.1) g
  g.postDecompose

/-- Loop of `decompose_linear` over the zones, grid.py:877-883; the state is the grid and
`cur_face_i`. -/
def linearStep (fcpz fcrm : Nat) (s : Grid F R × Nat) (p : Nat × Nat) : Res (Grid F R × Nat) := do
  let toAdd := if p.2 < fcrm then fcpz + 1 else fcpz
  let g ← (List.range' s.2 toAdd).foldlM (fun (g : Grid F R) (j : Nat) => do
    let f ← Py.get g.faces (j : Int)
    g.zoneAddFace p.1 f) s.1
  pure (g, s.2 + toAdd)

/-- `decompose_linear`, grid.py:852-887. For a negative `count` Python's `range(count)` is empty, as for
`count.toNat = 0` here, and the quotient is not used. -/
def decomposeLinear (g : Grid F R) (count : Int) (newName : Option Str := none) : Res (Grid F R) := do
  let g := g.rename newName
  let fc := g.faces.length
  if count = 0 then .error .zeroDiv
  else
    let n := count.toNat
    let fcpz := fc / n
    let fcrm := fc % n
    let g := { g with zones := [] }
    let g ← g.unlinkFacesFromZones
    let g := g.pushZones (numbered "linear ".toList n)
    let (g, cur) ← g.zones.zipIdx.foldlM (linearStep fcpz fcrm) (g, 0)
    if cur ≠ fc then .error (.exc "Wrong linera distribution mathematics.")
    else g.postDecompose

/-! ### Breadth-first search -/

/-- `Face.get_neighbour`, face.py:83-105. -/
def getNeighbour (g : Grid F R) (f e : Nat) : Res (Option Nat) :=
  match g.eFaces e with
  | [a] => if a ≠ f then .error (.exc "Error while getting face neighbour.") else .ok none
  | [a, b] =>
    if a = f then .ok (some b)
    else if b = f then .ok (some a)
    else .error (.exc "Error while getting face neighbour.")
  | _ => .error (.exc "Wrong edge incident faces")

/-- Body of the loop over the edges of a face, grid.py:417-422; the state is the marks and the path.
(`f2` is never `None` here because a non-border edge was tested.) -/
def bfsEdge (g : Grid F R) (pred : Nat → Bool) (f : Nat) (s : (Nat → Bool) × List Nat) (e : Nat) :
    Res ((Nat → Bool) × List Nat) :=
  if (g.eFaces e).length = 1 then .ok s
  else do
    match ← g.getNeighbour f e with
    | none => .error .attr
    | some f2 =>
      if s.1 f2 = false ∧ pred f2 = true then .ok (upd s.1 f2 true, s.2 ++ [f2]) else .ok s

/-- The `while` loop of `bfs_path_connectivity_component`, grid.py:415-423, starting at position `i`.
`fuel` bounds the number of rounds. -/
def bfsWalk (g : Grid F R) (pred : Nat → Bool) : Nat → Nat → (Nat → Bool) × List Nat →
    Res ((Nat → Bool) × List Nat)
  | 0, _, _ => .error .runtime
  | fuel + 1, i, s =>
    match s.2[i]? with
    | none => .ok s
    | some f => do
      let s ← (g.fEdges f).foldlM (g.bfsEdge pred f) s
      bfsWalk g pred fuel (i + 1) s

/-- `bfs_path_connectivity_component`, grid.py:394-425. Every face is appended at most once, so
`g.fNext + 1` rounds are enough (the model allows a few more). -/
def bfsComponent (g : Grid F R) (pred : Nat → Bool) (marks : Nat → Bool) (start : Nat) :
    Res ((Nat → Bool) × List Nat) :=
  if marks start = true ∨ pred start = false then .ok (marks, [])
  else g.bfsWalk pred (g.faces.length + g.fNext + 1) 0 (upd marks start true, [start])

/-- `get_no_bfs_mark_face`, grid.py:429-441. -/
def noMarkFace (g : Grid F R) (pred : Nat → Bool) (marks : Nat → Bool) : Option Nat :=
  g.faces.find? (fun f => marks f = false && pred f)

/-- The `while True` loop of `bfs_path`, grid.py:463-467; `fuel` bounds the number of rounds. -/
def bfsLoop (g : Grid F R) (pred : Nat → Bool) : Nat → (Nat → Bool) → List Nat → Nat →
    Res ((Nat → Bool) × List Nat)
  | 0, _, _, _ => .error .runtime
  | fuel + 1, marks, p, start => do
    let (marks, c) ← g.bfsComponent pred marks start
    match g.noMarkFace pred marks with
    | none => .ok (marks, p ++ c)
    | some s => bfsLoop g pred fuel marks (p ++ c) s

/-- `bfs_path`, grid.py:445-467. Returns the grid (marks changed) and the path. -/
def bfsPath (g : Grid F R) (start : Nat) (pred : Nat → Bool) : Res (Grid F R × List Nat) := do
  let marks := g.faces.foldl (fun m f => upd m f false) g.fMark
  let (marks, p) ← g.bfsLoop pred (g.faces.length + 2) marks [] start
  pure ({ g with fMark := marks }, p)

/-- `faces_count_in_fixed_zones`, grid.py:110-117. -/
def facesCountInFixedZones (g : Grid F R) : Nat :=
  ((g.zones.filter (fun z => g.zFixed z)).map (fun z => (g.zFaces z).length)).sum

/-- `z.IsFixed = z.Name in names` for all zones, grid.py:1018-1019, 1059-1060. -/
def markFixed (g : Grid F R) (names : List Str) : Grid F R :=
  { g with zFixed := g.zones.foldl (fun m z => upd m z (decide (g.zName z ∈ names))) g.zFixed }

/-- One round of the loop of `decompose_farhat`, grid.py:1082-1089; state: grid and start face,
`p` = (zone, size). -/
def farhatStep (s : Grid F R × Nat) (p : Nat × Nat) : Res (Grid F R × Nat) := do
  let (g, path) ← s.1.bfsPath s.2 (fun f => decide (s.1.fZone f = none))
  let g ← (List.range p.2).foldlM (fun (g : Grid F R) (fi : Nat) => do
    let f ← Py.get path (fi : Int)
    g.zoneAddFace p.1 f) g
  pure (g, (path[p.2]?).getD s.2)

/-- `decompose_farhat`, grid.py:1049-1091. The zone objects `self.Zones[i + fz_count]` are the `count`
zones created just before. -/
def decomposeFarhat (g : Grid F R) (count : Nat) (newName : Option Str := none)
    (fzNames : List Str := []) : Res (Grid F R) := do
  let g := g.markFixed fzNames
  let g := g.rename newName
  let g := { g with zones := g.zones.filter (fun z => g.zFixed z) }
  let fzCount := g.zones.length
  let g ← g.unlinkFacesFromZones
  let g := g.pushZones (numbered "farhat ".toList count)
  let fc := g.faces.length - g.facesCountInFixedZones
  let sizes := (List.range count).map (fun i => fc / count + (if i < fc % count then 1 else 0))
  let start ← Py.get g.faces 0
  let (g, _) ← ((g.zones.drop fzCount).zip sizes).foldlM farhatStep (g, start)
  g.postDecompose

/-! ### Hierarchical decomposition -/

/-- `get_center`, face.py:124-133. A face has three nodes; the model returns the origin otherwise. -/
def getCenter [Add F] [Div F] [OfNat F 3] [OfNat F 0] (g : Grid F R) (f : Nat) : Vec F :=
  match g.fNodes f with
  | a :: b :: c :: _ =>
    ⟨((g.nP a).x + (g.nP b).x + (g.nP c).x) / 3, ((g.nP a).y + (g.nP b).y + (g.nP c).y) / 3,
     ((g.nP a).z + (g.nP b).z + (g.nP c).z) / 3⟩
  | _ => ⟨0, 0, 0⟩

/-- Default sign functions of `decompose_hierarchical`, grid.py:1004-1006. -/
def centerSigns [Add F] [Div F] [OfNat F 3] [OfNat F 0] (g : Grid F R) : List (Nat → F) :=
  [fun f => (g.getCenter f).x, fun f => (g.getCenter f).y, fun f => (g.getCenter f).z]

/-- Median of the signs, grid.py:903-905, 986-988: `sorted(signs)[len(signs) // 2]`. -/
def median {S : Type} [LE S] [DecidableLE S] (signs : List S) : Res S :=
  Py.get (signs.mergeSort (fun a b => decide (a ≤ b))) ((signs.length / 2 : Nat) : Int)

/-- `split_zone_metric`, grid.py:891-936. `none` stands for `math.inf`. In that case the zone links of
the faces are left at `zl`/`zr`, as in the code. -/
def splitZoneMetric {S : Type} [LT S] [LE S] [DecidableLT S] [DecidableLE S] (g : Grid F R)
    (zone zl zr : Nat) (fn : Nat → S) : Res (Grid F R × Option Nat) := do
  let fs := g.zFaces zone
  let blade ← median (fs.map fn)
  let g1 := { g with fZone := fs.foldl (fun m f => upd m f (some (if fn f < blade then zl else zr))) g.fZone }
  let zlc := (fs.filter (fun f => decide (fn f < blade))).length
  let zrc := (fs.filter (fun f => !decide (fn f < blade))).length
  if zlc = 0 ∨ zrc = 0 then pure (g1, none)
  else
    let r := (fs.map (fun f => ((g1.fEdges f).filter (fun e =>
      match g1.eFaces e with
      | [ff, sf] => (decide (g1.fZone ff = some zl) && decide (g1.fZone sf = some zr)) ||
                    (decide (g1.fZone ff = some zr) && decide (g1.fZone sf = some zl))
      | _ => false)).length)).sum
    let g2 := { g1 with fZone := fs.foldl (fun m f => upd m f (some zone)) g1.fZone }
    pure (g2, some r)

/-- All the metrics, grid.py:971-972. -/
def splitMetrics {S : Type} [LT S] [LE S] [DecidableLT S] [DecidableLE S] (zone zl zr : Nat) :
    List (Nat → S) → Grid F R → Res (Grid F R × List (Option Nat))
  | [], g => .ok (g, [])
  | fn :: fns, g => do
    let (g, m) ← g.splitZoneMetric zone zl zr fn
    let (g, ms) ← splitMetrics zone zl zr fns g
    pure (g, m :: ms)

/-- `min(metrics)` with its position (`metrics.index(min_metric)`), grid.py:973, 982; `none` if all
metrics are infinite. -/
def bestMetric : List (Option Nat) → Nat → Option (Nat × Nat)
  | [], _ => none
  | none :: ms, i => bestMetric ms (i + 1)
  | some m :: ms, i =>
    match bestMetric ms (i + 1) with
    | some (m', j) => if m ≤ m' then some (m, i) else some (m', j)
    | none => some (m, i)

/-- `split_zone`, grid.py:940-999. -/
def splitZone {S : Type} [LT S] [LE S] [DecidableLT S] [DecidableLE S] (g : Grid F R) (zone : Nat)
    (fns : List (Nat → S)) : Res (Grid F R) := do
  if g.zFixed zone = true then
    let l ← Py.remove g.zones zone
    pure { g with zones := l ++ [zone] }
  else if (g.zFaces zone).length < 2 then
    let l ← Py.remove g.zones zone
    pure { g with zones := l ++ [zone] }
  else
    let zl := g.zNext
    let g := g.newZone (g.zName zone ++ ['l'])
    let zr := g.zNext
    let g := g.newZone (g.zName zone ++ ['r'])
    let l ← Py.remove g.zones zone
    let g := { g with zones := l ++ [zl] ++ [zr] }
    let (g, ms) ← splitMetrics zone zl zr fns g
    if fns.isEmpty then .error .value   -- min() of an empty list
    else match bestMetric ms 0 with
    | none =>
      let l ← Py.remove g.zones zone
      pure { g with zones := l ++ [zone] }
    | some (_, i) =>
      match fns[i]? with
      | none => .error .index
      | some fn =>
        let fs := g.zFaces zone
        let blade ← median (fs.map fn)
        let lf := fs.filter (fun f => decide (fn f < blade))
        let rf := fs.filter (fun f => decide (blade ≤ fn f))
        let g ← lf.foldlM (fun g f => g.zoneAddFace zl f) g
        rf.foldlM (fun g f => g.zoneAddFace zr f) g

/-- One level of `decompose_hierarchical`, grid.py:1039-1043: `c` times split the first zone. -/
def splitLevel {S : Type} [LT S] [LE S] [DecidableLT S] [DecidableLE S] (fns : List (Nat → S)) :
    Nat → Grid F R → Res (Grid F R)
  | 0, g => .ok g
  | c + 1, g => do
    let z ← Py.get g.zones 0
    let g ← g.splitZone z fns
    splitLevel fns c g

/-- The levels loop, grid.py:1038-1043. -/
def splitLevels {S : Type} [LT S] [LE S] [DecidableLT S] [DecidableLE S] (fns : List (Nat → S)) :
    Nat → Grid F R → Res (Grid F R)
  | 0, g => .ok g
  | k + 1, g => do
    let g ← splitLevel fns g.zones.length g
    splitLevels fns k g

/-- `decompose_hierarchical`, grid.py:1003-1045. `fns` are the sign functions (by default the three
coordinates of the face centre); they do not depend on zones. -/
def decomposeHierarchical {S : Type} [LT S] [LE S] [DecidableLT S] [DecidableLE S] (g : Grid F R)
    (fns : List (Nat → S)) (levels : Nat) (newName : Option Str := none) (fixedZones : List Str := []) :
    Res (Grid F R) := do
  let g := g.markFixed fixedZones
  let g := g.rename newName
  let g := { g with zones := g.zones.filter (fun z => g.zFixed z) }
  let g ← g.unlinkFacesFromZones
  if levels < 1 then .error (.exc "It must be at least 1 level.")
  else
    let z := g.zNext
    let g := g.pushZone "h".toList
    let g ← g.faces.foldlM (fun g f => if g.fZone f = none then g.zoneAddFace z f else .ok g) g
    let g ← splitLevels fns (levels - 1) g
    g.postDecompose

end Grid
end Verif
