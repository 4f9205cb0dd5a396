import Verif.Model.Grid

/-!
Atomic grid transformations, grid.py:1179-1996: `del_face`, `del_edge`, `del_node`, `divide_face`,
`collapse_face`, `cut_edge`, `collapse_edge`, `cut_single_edge`, `cut_edge_with_two_nodes`, together with
`Node.replacing_node` and `Face.max_edge_from_face`.

A sequence of calls of one linking function is written as a fold over the list of its arguments, in program
order.  `gsu.Face(list(data.keys()), list(data.values()))` builds an equal copy of `data`.
-/

namespace Verif
namespace Grid
variable {F R : Type}

/-- Body of the loops grid.py:1192-1193, 1195-1196 and 1220-1221: `if face in x.Faces: x.Faces.remove(face)`. -/
def dropFrom (x : Nat) (m : Nat → List Nat) (o : Nat) : Nat → List Nat :=
  if x ∈ m o then upd m o ((m o).erase x) else m

/-- `del_face`, grid.py:1179-1198. -/
def delFace (g : Grid F R) (f : Nat) : Res (Grid F R) :=
  let g := { g with
    nFaces := (g.fNodes f).foldl (dropFrom f) g.nFaces
    eFaces := (g.fEdges f).foldl (dropFrom f) g.eFaces }
  match g.fZone f with
  | none => .error .attr
  | some z => do
    let l ← Py.remove (g.zFaces z) f
    let g := { g with zFaces := upd g.zFaces z l }
    let l ← Py.remove g.faces f
    .ok { g with faces := l }

/-- `edge.Nodes[i].Edges.remove(edge)`, grid.py:1214-1215. -/
def dropEdgeAt (g : Grid F R) (e : Nat) (i : Int) : Res (Grid F R) := do
  let n ← Py.get (g.eNodes e) i
  let l ← Py.remove (g.nEdges n) e
  .ok { g with nEdges := upd g.nEdges n l }

/-- `f.Edges.remove(edge)`, grid.py:1218 (also 1383, 1498-1499, 1601, 1603, 1689, 1798, 1904-1905). -/
def faceDropEdge (e : Nat) (g : Grid F R) (f : Nat) : Res (Grid F R) := do
  let l ← Py.remove (g.fEdges f) e
  .ok { g with fEdges := upd g.fEdges f l }

/-- `del_edge`, grid.py:1202-1222. -/
def delEdge (g : Grid F R) (e : Nat) : Res (Grid F R) := do
  let g ← g.dropEdgeAt e 0
  let g ← g.dropEdgeAt e 1
  let g ← (g.eFaces e).foldlM (faceDropEdge e) g
  let g := { g with zEdges := g.zones.foldl (dropFrom e) g.zEdges }
  let l ← Py.remove g.edges e
  .ok { g with edges := l }

/-- `if node in x.Nodes: x.Nodes.remove(node)`, grid.py:1239-1240 and 1243-1244; nodes are compared by rounded
coordinates. -/
def dropNodeFrom [DecidableEq R] (key : Nat → R) (n : Nat) (m : Nat → List Nat) (o : Nat) : Nat → List Nat :=
  if (m o).any (fun k => decide (key k = key n)) then upd m o ((m o).eraseP (fun k => decide (key k = key n))) else m

/-- `del_node`, grid.py:1226-1247. (`RoundedCoordsBag` is a set, so removing a value from the list removes all copies.) -/
def delNode [DecidableEq R] (g : Grid F R) (n : Nat) : Res (Grid F R) := do
  let g := { g with
    eNodes := (g.nEdges n).foldl (dropNodeFrom g.nKey n) g.eNodes
    fNodes := (g.nFaces n).foldl (dropNodeFrom g.nKey n) g.fNodes }
  let f ← Py.get (g.nFaces n) 0
  match g.fZone f with
  | none => .error .attr
  | some z => do
    let l ← Py.removeBy (fun k => decide (g.nKey k = g.nKey n)) (g.zNodes z)
    let g := { g with zNodes := upd g.zNodes z l }
    let l ← Py.removeBy (fun k => decide (g.nKey k = g.nKey n)) g.nodes
    let g := { g with nodes := l }
    if g.nKey n ∈ g.bag then .ok { g with bag := g.bag.filter (fun k => decide (k ≠ g.nKey n)) } else .error .key

/-- `gsu.Face(...)` called for every element of a list of data, face.py:18-37. The new objects are `g.fNext`,
`g.fNext + 1`, ... -/
def newFaces (g : Grid F R) (l : List (List (Str × F))) : Grid F R := l.foldl newFace g

/-- `gsu.Edge()` called `k` times, edge.py:15-25. The new objects are `g.eNext`, `g.eNext + 1`, ... -/
def newEdges (g : Grid F R) : Nat → Grid F R
  | 0 => g
  | k + 1 => (g.newEdges k).newEdge

/-- `self.add_face` called for every face of a list, with or without a global identifier, grid.py:252-268. -/
def addFaces (g : Grid F R) (l : List (Nat × Option Nat)) : Grid F R := l.foldl (fun g p => g.addFace p.1 p.2) g

/-- `self.add_edge` called for every edge of a list, with or without a global identifier, grid.py:233-248. -/
def addEdges (g : Grid F R) (l : List (Nat × Option Nat)) : Grid F R := l.foldl (fun g p => g.addEdge p.1 p.2) g

/-- `link_node_edge` called for every pair of a list, grid.py:293-305. -/
def linkNE (g : Grid F R) (l : List (Nat × Nat)) : Grid F R := l.foldl (fun g p => g.linkNodeEdge p.1 p.2) g

/-- `link_node_face` called for every pair of a list, grid.py:310-322. -/
def linkNF (g : Grid F R) (l : List (Nat × Nat)) : Grid F R := l.foldl (fun g p => g.linkNodeFace p.1 p.2) g

/-- `link_edge_face` called for every pair of a list, grid.py:327-346. -/
def linkEF (g : Grid F R) (l : List (Nat × Nat)) : Res (Grid F R) := l.foldlM (fun g p => g.linkEdgeFace p.1 p.2) g

/-- `zone.add_face` called for every face of a list, zone.py:166-183. -/
def zoneAddFaces (g : Grid F R) (z : Nat) (l : List Nat) : Res (Grid F R) := l.foldlM (fun g f => g.zoneAddFace z f) g

/-- `zone.add_edge` called for every edge of a list, zone.py:151-162. -/
def zoneAddEdges (g : Grid F R) (z : Nat) (l : List Nat) : Grid F R := l.foldl (fun g e => g.zoneAddEdge z e) g

/-- A node at point `p`, merged with an existing one and otherwise added to the zone: grid.py:1283-1288,
1490-1495, 1681-1686, 1784-1795, 1890-1901. Returns the node that is used from then on. -/
def placeNode [DecidableEq R] (rc : Vec F → R) (g : Grid F R) (z : Nat) (p : Vec F) : Res (Grid F R × Nat) := do
  let n := g.nNext
  let g := g.newNode rc p
  let (g, m) ← g.addNode n true
  if m = n then .ok (g.zoneAddNode z n, n) else .ok (g, m)

/-- `[i for i in f.Nodes if id(i) != id(n1) and id(i) != id(n2)][0]`, grid.py:1379-1380, 1488-1489, 1680, 1783,
1888-1889. -/
def thirdNode (g : Grid F R) (f n1 n2 : Nat) : Res Nat :=
  Py.get ((g.fNodes f).filter (fun i => decide (i ≠ n1) && decide (i ≠ n2))) 0

/-- `[ed for ed in f.Edges for node in ed.Nodes if id(node) == id(n)][0]`, grid.py:1384-1387, 1500-1503, 1602-1610,
1690-1691, 1799-1800, 1906-1909. -/
def edgeAt (g : Grid F R) (f n : Nat) : Res Nat :=
  Py.get ((g.fEdges f).flatMap (fun e => ((g.eNodes e).filter (fun k => decide (k = n))).map (fun _ => e))) 0

/-- The result of `find_edge` where it is used as an edge: `None` fails the assertion of `link_edge_face`
(grid.py:335). -/
def someEdge : Option Nat → Res Nat
  | some e => .ok e
  | none => .error .assertion

/-- The zone of a face where it is used as a zone: attributes of `None` raise `AttributeError`. In all
transformations this is raised by `del_face` (grid.py:1197) before anything else can fail. -/
def someZone (g : Grid F R) (f : Nat) : Res Nat :=
  match g.fZone f with
  | some z => .ok z
  | none => .error .attr

/-- `divide_face`, grid.py:1251-1342. -/
def divideFace [DecidableEq R] (rc : Vec F → R) (g : Grid F R) (f : Nat) (p : Vec F) : Res (Grid F R) := do
  let data := g.fData f
  let nodes := g.fNodes f
  let zone ← g.someZone f
  let gid := g.fGlo f
  let g ← g.delFace f
  let f1 := g.fNext
  let f2 := g.fNext + 1
  let f3 := g.fNext + 2
  let g := g.newFaces [data, data, data]
  let n1 ← Py.get nodes 0
  let n2 ← Py.get nodes 1
  let n3 ← Py.get nodes 2
  let (g, n4) ← g.placeNode rc zone p
  let e1 ← someEdge (g.findEdge n1 n2)
  let e2 ← someEdge (g.findEdge n2 n3)
  let e3 ← someEdge (g.findEdge n1 n3)
  let e4 := g.eNext
  let e5 := g.eNext + 1
  let e6 := g.eNext + 2
  let g := g.newEdges 3
  let g := g.linkNE [(n1, e4), (n2, e5), (n3, e6), (n4, e4), (n4, e5), (n4, e6)]
  let g ← g.linkEF [(e1, f1), (e2, f2), (e3, f3), (e4, f1), (e4, f3), (e5, f1), (e5, f2), (e6, f2), (e6, f3)]
  let g := g.linkNF [(n1, f1), (n1, f3), (n2, f1), (n2, f2), (n3, f2), (n3, f3), (n4, f1), (n4, f2), (n4, f3)]
  let g := g.addFaces [(f1, some gid), (f2, none), (f3, none)]
  let g := g.addEdges [(e4, none), (e5, none), (e6, none)]
  let g ← g.zoneAddFaces zone [f1, f2, f3]
  .ok (g.zoneAddEdges zone [e4, e5, e6])

/-- `edge.len_edge()`, edge.py:29-40; `dist` is `Vect.dist_to`. -/
def lenEdge (dist : Vec F → Vec F → F) (g : Grid F R) (e : Nat) : Res F :=
  if (g.eNodes e).length ≠ 2 then .error .assertion else do
    let a ← Py.get (g.eNodes e) 0
    let b ← Py.get (g.eNodes e) 1
    .ok (dist (g.nP a) (g.nP b))

/-- Loop body of `max_edge_from_face`, face.py:165-169; `gt` is `>` on numbers. -/
def maxEdgeStep (dist : Vec F → Vec F → F) (gt : F → F → Bool) (g : Grid F R) (best : Nat × F) (e : Nat) :
    Res (Nat × F) := do
  let l ← g.lenEdge dist e
  .ok (if gt l best.2 then (e, l) else best)

/-- `max_edge_from_face`, face.py:155-171. -/
def maxEdge (dist : Vec F → Vec F → F) (gt : F → F → Bool) (g : Grid F R) (f : Nat) : Res Nat := do
  let e ← Py.get (g.fEdges f) 0
  let l ← g.lenEdge dist e
  let r ← ((g.fEdges f).drop 1).foldlM (g.maxEdgeStep dist gt) (e, l)
  .ok r.1

/-- `collapse_face` with the longest edge `e` already chosen and known to have two faces,
grid.py:1360-1362 and 1366-1413. -/
def flipEdge (g : Grid F R) (f e : Nat) : Res (Grid F R) := do
  let data := g.fData f
  let gid1 := g.fGlo f
  let zone ← g.someZone f
  let g ← g.delFace f
  let g ← g.delEdge e
  let h ← Py.get (g.eFaces e) 0
  let gid2 := g.fGlo h
  let g ← g.delFace h
  let f1 := g.fNext
  let f2 := g.fNext + 1
  let g := g.newFaces [data, data]
  let n1 ← Py.get (g.eNodes e) 0
  let n2 ← Py.get (g.eNodes e) 1
  let n3 ← g.thirdNode f n1 n2
  let n4 ← g.thirdNode h n1 n2
  let g ← g.faceDropEdge e f
  let e1 ← g.edgeAt f n1
  let e2 ← g.edgeAt h n1
  let e3 ← g.edgeAt f n2
  let e4 ← g.edgeAt h n2
  let e5 := g.eNext
  let g := g.newEdges 1
  let g := g.addEdges [(e5, some (g.eGlo e))]
  let g := g.linkNE [(n3, e5), (n4, e5)]
  let g := g.linkNF [(n1, f1), (n3, f1), (n4, f1), (n2, f2), (n3, f2), (n4, f2)]
  let g ← g.linkEF [(e1, f1), (e2, f1), (e5, f1), (e3, f2), (e4, f2), (e5, f2)]
  let g ← g.zoneAddFaces zone [f1, f2]
  let g := g.zoneAddEdges zone [e5]
  .ok (g.addFaces [(f1, some gid1), (f2, some gid2)])

/-- `collapse_face`, grid.py:1346-1417. -/
def collapseFace (dist : Vec F → Vec F → F) (gt : F → F → Bool) (g : Grid F R) (f : Nat) : Res (Grid F R × Bool) := do
  let e ← g.maxEdge dist gt f
  if (g.eFaces e).length = 2 then do
    let g ← g.flipEdge f e
    .ok (g, true)
  else .ok (g, false)

/-- The body of `cut_edge` for an edge with two faces, grid.py:1460-1556. -/
def cutInner [DecidableEq R] (rc : Vec F → R) (g : Grid F R) (e : Nat) (p : Vec F) : Res (Grid F R) := do
  let f1 ← Py.get (g.eFaces e) 0
  let f2 ← Py.get (g.eFaces e) 1
  let data1 := g.fData f1
  let gid1 := g.fGlo f1
  let zone ← g.someZone f1
  let data2 := g.fData f2
  let gid2 := g.fGlo f2
  let g ← g.delFace f1
  let g ← g.delFace f2
  let g ← g.delEdge e
  let f11 := g.fNext
  let f12 := g.fNext + 1
  let f21 := g.fNext + 2
  let f22 := g.fNext + 3
  let g := g.newFaces [data1, data1, data2, data2]
  let g := g.addFaces [(f11, some gid1), (f21, some gid2), (f12, none), (f22, none)]
  let n1 ← Py.get (g.eNodes e) 0
  let n2 ← Py.get (g.eNodes e) 1
  let n3 ← g.thirdNode f1 n1 n2
  let n4 ← g.thirdNode f2 n1 n2
  let (g, n5) ← g.placeNode rc zone p
  let g ← g.faceDropEdge e f1
  let g ← g.faceDropEdge e f2
  let e13 ← g.edgeAt f1 n1
  let e23 ← g.edgeAt f1 n2
  let e14 ← g.edgeAt f2 n1
  let e24 ← g.edgeAt f2 n2
  let e15 := g.eNext
  let e25 := g.eNext + 1
  let e35 := g.eNext + 2
  let e45 := g.eNext + 3
  let g := g.newEdges 4
  let g := g.addEdges [(e15, some (g.eGlo e)), (e25, none), (e35, none), (e45, none)]
  let g := g.linkNE [(n1, e15), (n5, e15), (n2, e25), (n5, e25), (n3, e35), (n5, e35), (n4, e45), (n5, e45)]
  let g := g.linkNF [(n5, f11), (n5, f12), (n5, f21), (n5, f22), (n1, f12), (n1, f21), (n2, f11), (n2, f22),
    (n3, f11), (n3, f12), (n4, f21), (n4, f22)]
  let g ← g.linkEF [(e15, f12), (e15, f21), (e25, f11), (e25, f22), (e35, f12), (e35, f11), (e45, f22), (e45, f21),
    (e13, f12), (e23, f11), (e14, f21), (e24, f22)]
  let g ← g.zoneAddFaces zone [f11, f12, f21, f22]
  .ok (g.zoneAddEdges zone [e15, e25, e35, e45])

/-- `cut_edge`, grid.py:1421-1560. -/
def cutEdge [DecidableEq R] (rc : Vec F → R) (g : Grid F R) (e : Nat) (p : Vec F) : Res (Grid F R × Bool) :=
  if (g.eFaces e).length = 2 then do
    let g ← g.cutInner rc e p
    .ok (g, true)
  else .ok (g, false)

/-- The body of `cut_single_edge` for an edge with one face, grid.py:1661-1725. -/
def cutBorder [DecidableEq R] (rc : Vec F → R) (g : Grid F R) (e : Nat) (p : Vec F) : Res (Grid F R) := do
  let f ← Py.get (g.eFaces e) 0
  let data := g.fData f
  let gid := g.fGlo f
  let zone ← g.someZone f
  let g ← g.delFace f
  let g ← g.delEdge e
  let f1 := g.fNext
  let f2 := g.fNext + 1
  let g := g.newFaces [data, data]
  let g := g.addFaces [(f1, some gid), (f2, none)]
  let n1 ← Py.get (g.eNodes e) 0
  let n2 ← Py.get (g.eNodes e) 1
  let n3 ← g.thirdNode f n1 n2
  let (g, n4) ← g.placeNode rc zone p
  let g ← g.faceDropEdge e f
  let e13 ← g.edgeAt f n1
  let e23 ← g.edgeAt f n2
  let e14 := g.eNext
  let e24 := g.eNext + 1
  let e34 := g.eNext + 2
  let g := g.newEdges 3
  let g := g.addEdges [(e14, some (g.eGlo e)), (e24, none), (e34, none)]
  let g := g.linkNE [(n4, e14), (n4, e24), (n4, e34), (n1, e14), (n2, e24), (n3, e34)]
  let g := g.linkNF [(n3, f1), (n3, f2), (n4, f1), (n4, f2), (n1, f1), (n2, f2)]
  let g ← g.linkEF [(e34, f1), (e34, f2), (e13, f1), (e23, f2), (e14, f1), (e24, f2)]
  let g ← g.zoneAddFaces zone [f1, f2]
  .ok (g.zoneAddEdges zone [e14, e24, e34])

/-- `cut_single_edge`, grid.py:1632-1729. -/
def cutSingleEdge [DecidableEq R] (rc : Vec F → R) (g : Grid F R) (e : Nat) (p : Vec F) : Res (Grid F R × Bool) :=
  if (g.eFaces e).length = 1 then do
    let g ← g.cutBorder rc e p
    .ok (g, true)
  else .ok (g, false)

/-- The body of `cut_edge_with_two_nodes` for an edge with one face, grid.py:1762-1851. -/
def cutBorder2 [DecidableEq R] (rc : Vec F → R) (g : Grid F R) (e : Nat) (p1 p2 : Vec F) : Res (Grid F R) := do
  let f ← Py.get (g.eFaces e) 0
  let data := g.fData f
  let gid := g.fGlo f
  let zone ← g.someZone f
  let g ← g.delFace f
  let g ← g.delEdge e
  let f1 := g.fNext
  let f2 := g.fNext + 1
  let f3 := g.fNext + 2
  let g := g.newFaces [data, data, data]
  let g := g.addFaces [(f1, some gid), (f2, none), (f3, none)]
  let n1 ← Py.get (g.eNodes e) 0
  let n2 ← Py.get (g.eNodes e) 1
  let n3 ← g.thirdNode f n1 n2
  let (g, n4) ← g.placeNode rc zone p1
  let (g, n5) ← g.placeNode rc zone p2
  let g ← g.faceDropEdge e f
  let e13 ← g.edgeAt f n1
  let e23 ← g.edgeAt f n2
  let e14 := g.eNext
  let e25 := g.eNext + 1
  let e45 := g.eNext + 2
  let e34 := g.eNext + 3
  let e35 := g.eNext + 4
  let g := g.newEdges 5
  let g := g.addEdges [(e14, some (g.eGlo e)), (e25, none), (e45, none), (e34, none), (e35, none)]
  let g := g.linkNE [(n1, e14), (n2, e25), (n3, e34), (n3, e35), (n4, e14), (n4, e34), (n4, e45), (n5, e25),
    (n5, e35), (n5, e45)]
  let g := g.linkNF [(n1, f1), (n2, f3), (n3, f1), (n3, f2), (n3, f3), (n4, f1), (n4, f2), (n5, f2), (n5, f3)]
  let g ← g.linkEF [(e14, f1), (e13, f1), (e34, f1), (e34, f2), (e45, f2), (e35, f2), (e25, f3), (e35, f3), (e23, f3)]
  let g ← g.zoneAddFaces zone [f1, f2, f3]
  .ok (g.zoneAddEdges zone [e14, e25, e45, e34, e35])

/-- The body of `cut_edge_with_two_nodes` for an edge with two faces, grid.py:1857-1991. -/
def cutInner2 [DecidableEq R] (rc : Vec F → R) (g : Grid F R) (e : Nat) (p1 p2 : Vec F) : Res (Grid F R) := do
  let h1 ← Py.get (g.eFaces e) 0
  let h2 ← Py.get (g.eFaces e) 1
  let data1 := g.fData h1
  let gid1 := g.fGlo h1
  let zone ← g.someZone h1
  let data2 := g.fData h2
  let gid2 := g.fGlo h2
  let g ← g.delFace h1
  let g ← g.delFace h2
  let g ← g.delEdge e
  let f1 := g.fNext
  let f2 := g.fNext + 1
  let f3 := g.fNext + 2
  let f4 := g.fNext + 3
  let f5 := g.fNext + 4
  let f6 := g.fNext + 5
  let g := g.newFaces [data1, data1, data1, data2, data2, data2]
  let g := g.addFaces [(f1, some gid1), (f2, some gid2), (f3, none), (f4, none), (f5, none), (f6, none)]
  let n1 ← Py.get (g.eNodes e) 0
  let n2 ← Py.get (g.eNodes e) 1
  let n3 ← g.thirdNode h1 n1 n2
  let n6 ← g.thirdNode h2 n1 n2
  let (g, n4) ← g.placeNode rc zone p1
  let (g, n5) ← g.placeNode rc zone p2
  let g ← g.faceDropEdge e h1
  let g ← g.faceDropEdge e h2
  let e13 ← g.edgeAt h1 n1
  let e23 ← g.edgeAt h1 n2
  let e16 ← g.edgeAt h2 n1
  let e26 ← g.edgeAt h2 n2
  let e14 := g.eNext
  let e25 := g.eNext + 1
  let e45 := g.eNext + 2
  let e34 := g.eNext + 3
  let e35 := g.eNext + 4
  let e46 := g.eNext + 5
  let e56 := g.eNext + 6
  let g := g.newEdges 7
  let g := g.addEdges [(e14, some (g.eGlo e)), (e25, none), (e45, none), (e34, none), (e35, none), (e46, none), (e56, none)]
  let g := g.linkNE [(n1, e14), (n2, e25), (n3, e34), (n3, e35), (n4, e14), (n4, e34), (n4, e45), (n4, e46),
    (n5, e25), (n5, e35), (n5, e45), (n5, e56), (n6, e46), (n6, e56)]
  let g := g.linkNF [(n1, f1), (n1, f4), (n2, f3), (n2, f6), (n3, f1), (n3, f2), (n3, f3), (n4, f1), (n4, f2),
    (n4, f4), (n4, f5), (n5, f2), (n5, f3), (n5, f5), (n5, f6), (n6, f4), (n6, f5), (n6, f6)]
  let g ← g.linkEF [(e14, f1), (e13, f1), (e34, f1), (e34, f2), (e45, f2), (e35, f2), (e25, f3), (e35, f3), (e23, f3),
    (e16, f4), (e14, f4), (e46, f4), (e45, f5), (e46, f5), (e56, f5), (e26, f6), (e25, f6), (e56, f6)]
  let g ← g.zoneAddFaces zone [f1, f2, f3, f4, f5, f6]
  .ok (g.zoneAddEdges zone [e14, e25, e45, e34, e35, e46, e56])

/-- `cut_edge_with_two_nodes`, grid.py:1733-1996. -/
def cutEdgeTwoNodes [DecidableEq R] (rc : Vec F → R) (g : Grid F R) (e : Nat) (p1 p2 : Vec F) : Res (Grid F R × Bool) :=
  if (g.eFaces e).length = 1 then do
    let g ← g.cutBorder2 rc e p1 p2
    .ok (g, true)
  else if (g.eFaces e).length = 2 then do
    let g ← g.cutInner2 rc e p1 p2
    .ok (g, true)
  else .ok (g, false)

/-- Loop bodies of `replacing_node`, node.py:84-89: `x.Nodes.remove(self); x.Nodes += [n]`. -/
def swapNode [DecidableEq R] (key : Nat → R) (s n : Nat) (m : Nat → List Nat) (o : Nat) : Res (Nat → List Nat) := do
  let l ← Py.removeBy (fun k => decide (key k = key s)) (m o)
  .ok (upd m o (l ++ [n]))

/-- `self.replacing_node(n)` for a node `s`, node.py:70-89. (`n` and `s` are different objects.) -/
def replacingNode [DecidableEq R] (g : Grid F R) (s n : Nat) : Res (Grid F R) := do
  let g := { g with
    nEdges := upd g.nEdges n (g.nEdges n ++ g.nEdges s)
    nFaces := upd g.nFaces n (g.nFaces n ++ g.nFaces s) }
  let en ← (g.nEdges s).foldlM (swapNode g.nKey s n) g.eNodes
  let fn ← (g.nFaces s).foldlM (swapNode g.nKey s n) g.fNodes
  .ok { g with eNodes := en, fNodes := fn }

/-- `if e1.Faces: e3 = [...][0]; Grid.link_edge_face(e3, e1.Faces[0])`, grid.py:1606-1608 and 1609-1611. -/
def relink (g : Grid F R) (f n e1 : Nat) : Res (Grid F R) :=
  match g.eFaces e1 with
  | [] => .ok g
  | h :: _ => do
    let e3 ← g.edgeAt f n
    g.linkEdgeFace e3 h

/-- The body of `collapse_edge` for an edge with two faces, grid.py:1580-1624; `mid` is `Vect.middle_point`. -/
def collapseInner [DecidableEq R] (rc : Vec F → R) (mid : Vec F → Vec F → Vec F) (g : Grid F R) (e : Nat) :
    Res (Grid F R) := do
  let f1 ← Py.get (g.eFaces e) 0
  let f2 ← Py.get (g.eFaces e) 1
  let g ← g.delFace f1
  let g ← g.delFace f2
  let g ← g.delEdge e
  let n1 ← Py.get (g.eNodes e) 0
  let n2 ← Py.get (g.eNodes e) 1
  let p := mid (g.nP n1) (g.nP n2)
  if g.nKey n1 ∉ g.bag then .error .key else do
  let bag := g.bag.filter (fun k => decide (k ≠ g.nKey n1))
  let g := { g with
    nP := upd g.nP n1 p
    nKey := upd g.nKey n1 (rc p)
    bag := if rc p ∈ bag then bag else bag ++ [rc p] }
  let g ← g.faceDropEdge e f1
  let e1 ← g.edgeAt f1 n2
  let g ← g.faceDropEdge e f2
  let e2 ← g.edgeAt f2 n2
  let g ← g.relink f1 n1 e1
  let g ← g.relink f2 n1 e2
  let g ← g.delEdge e1
  let g ← g.delEdge e2
  let g ← g.replacingNode n2 n1
  let g ← g.delNode n2
  let fa ← Py.get g.faces (-1)
  let g := { g with fGlo := upd g.fGlo fa (g.fGlo f1) }
  let fb ← Py.get g.faces (-2)
  let g := { g with fGlo := upd g.fGlo fb (g.fGlo f2) }
  let ea ← Py.get g.edges (-1)
  let g := { g with eGlo := upd g.eGlo ea (g.eGlo e) }
  let eb ← Py.get g.edges (-2)
  let g := { g with eGlo := upd g.eGlo eb (g.eGlo e1) }
  let ec ← Py.get g.edges (-3)
  let g := { g with eGlo := upd g.eGlo ec (g.eGlo e2) }
  let na ← Py.get g.nodes (-1)
  .ok { g with nGlo := upd g.nGlo na (g.nGlo n2) }

/-- `collapse_edge`, grid.py:1564-1628. -/
def collapseEdge [DecidableEq R] (rc : Vec F → R) (mid : Vec F → Vec F → Vec F) (g : Grid F R) (e : Nat) :
    Res (Grid F R × Bool) :=
  if (g.eFaces e).length = 2 then do
    let g ← g.collapseInner rc mid e
    .ok (g, true)
  else .ok (g, false)

end Grid
end Verif
