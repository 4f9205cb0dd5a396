import Verif.Model.Left
import Verif.Model.Transform

/-! `collapse_edge` once more, with the grid it leaves behind when it raises. -/

namespace Verif
namespace Grid
variable {F R : Type}

/-- `del_face`, grid.py:1179-1198: the loops over nodes and edges cannot raise. -/
def delFaceX (g : Grid F R) (f : Nat) : Left F R (Grid F R) :=
  let g := { g with
    nFaces := (g.fNodes f).foldl (dropFrom f) g.nFaces
    eFaces := (g.fEdges f).foldl (dropFrom f) g.eFaces }
  match g.fZone f with
  | none => .error (.attr, g)
  | some z => do
    let l ← g.here (Py.remove (g.zFaces z) f)
    let g := { g with zFaces := upd g.zFaces z l }
    let l ← g.here (Py.remove g.faces f)
    .ok { g with faces := l }

/-- `del_edge`, grid.py:1202-1222. -/
def delEdgeX (g : Grid F R) (e : Nat) : Left F R (Grid F R) := do
  let g ← g.here (g.dropEdgeAt e 0)
  let g ← g.here (g.dropEdgeAt e 1)
  let g ← (g.eFaces e).foldlM (fun g f => g.here (faceDropEdge e g f)) g
  let g := { g with zEdges := g.zones.foldl (dropFrom e) g.zEdges }
  let l ← g.here (Py.remove g.edges e)
  .ok { g with edges := l }

/-- `del_node`, grid.py:1226-1247. -/
def delNodeX [DecidableEq R] (g : Grid F R) (n : Nat) : Left F R (Grid F R) := do
  let g := { g with
    eNodes := (g.nEdges n).foldl (dropNodeFrom g.nKey n) g.eNodes
    fNodes := (g.nFaces n).foldl (dropNodeFrom g.nKey n) g.fNodes }
  let f ← g.here (Py.get (g.nFaces n) 0)
  match g.fZone f with
  | none => .error (.attr, g)
  | some z => do
    let l ← g.here (Py.removeBy (fun k => decide (g.nKey k = g.nKey n)) (g.zNodes z))
    let g := { g with zNodes := upd g.zNodes z l }
    let l ← g.here (Py.removeBy (fun k => decide (g.nKey k = g.nKey n)) g.nodes)
    let g := { g with nodes := l }
    if g.nKey n ∈ g.bag then .ok { g with bag := g.bag.filter (fun k => decide (k ≠ g.nKey n)) } else .error (.key, g)

/-- Loop body of `replacing_node`, node.py:84-86. -/
def swapEdgeX [DecidableEq R] (s n : Nat) (g : Grid F R) (e : Nat) : Left F R (Grid F R) := do
  let m ← g.here (swapNode g.nKey s n g.eNodes e)
  .ok { g with eNodes := m }

/-- Loop body of `replacing_node`, node.py:87-89. -/
def swapFaceX [DecidableEq R] (s n : Nat) (g : Grid F R) (f : Nat) : Left F R (Grid F R) := do
  let m ← g.here (swapNode g.nKey s n g.fNodes f)
  .ok { g with fNodes := m }

/-- `self.replacing_node(n)` for a node `s`, node.py:70-89. -/
def replacingNodeX [DecidableEq R] (g : Grid F R) (s n : Nat) : Left F R (Grid F R) := do
  let g := { g with
    nEdges := upd g.nEdges n (g.nEdges n ++ g.nEdges s)
    nFaces := upd g.nFaces n (g.nFaces n ++ g.nFaces s) }
  let g ← (g.nEdges s).foldlM (swapEdgeX s n) g
  (g.nFaces s).foldlM (swapFaceX s n) g

/-- The body of `collapse_edge` for an edge with two faces, grid.py:1580-1624. `relink` (grid.py:1606-1611) calls
`link_edge_face` as its last action, which raises before it changes anything. -/
def collapseInnerX [DecidableEq R] (rc : Vec F → R) (mid : Vec F → Vec F → Vec F) (g : Grid F R) (e : Nat) :
    Left F R (Grid F R) := do
  let f1 ← g.here (Py.get (g.eFaces e) 0)
  let f2 ← g.here (Py.get (g.eFaces e) 1)
  let g ← g.delFaceX f1
  let g ← g.delFaceX f2
  let g ← g.delEdgeX e
  let n1 ← g.here (Py.get (g.eNodes e) 0)
  let n2 ← g.here (Py.get (g.eNodes e) 1)
  let p := mid (g.nP n1) (g.nP n2)
  if g.nKey n1 ∉ g.bag then .error (.key, g) else do
  let bag := g.bag.filter (fun k => decide (k ≠ g.nKey n1))
  let g := { g with
    nP := upd g.nP n1 p
    nKey := upd g.nKey n1 (rc p)
    bag := if rc p ∈ bag then bag else bag ++ [rc p] }
  let g ← g.here (g.faceDropEdge e f1)
  let e1 ← g.here (g.edgeAt f1 n2)
  let g ← g.here (g.faceDropEdge e f2)
  let e2 ← g.here (g.edgeAt f2 n2)
  let g ← g.here (g.relink f1 n1 e1)
  let g ← g.here (g.relink f2 n1 e2)
  let g ← g.delEdgeX e1
  let g ← g.delEdgeX e2
  let g ← g.replacingNodeX n2 n1
  let g ← g.delNodeX n2
  let fa ← g.here (Py.get g.faces (-1))
  let g := { g with fGlo := upd g.fGlo fa (g.fGlo f1) }
  let fb ← g.here (Py.get g.faces (-2))
  let g := { g with fGlo := upd g.fGlo fb (g.fGlo f2) }
  let ea ← g.here (Py.get g.edges (-1))
  let g := { g with eGlo := upd g.eGlo ea (g.eGlo e) }
  let eb ← g.here (Py.get g.edges (-2))
  let g := { g with eGlo := upd g.eGlo eb (g.eGlo e1) }
  let ec ← g.here (Py.get g.edges (-3))
  let g := { g with eGlo := upd g.eGlo ec (g.eGlo e2) }
  let na ← g.here (Py.get g.nodes (-1))
  .ok { g with nGlo := upd g.nGlo na (g.nGlo n2) }

/-- `collapse_edge`, grid.py:1564-1628. -/
def collapseEdgeX [DecidableEq R] (rc : Vec F → R) (mid : Vec F → Vec F → Vec F) (g : Grid F R) (e : Nat) :
    Left F R (Grid F R × Bool) :=
  if (g.eFaces e).length = 2 then do
    let g ← g.collapseInnerX rc mid e
    .ok (g, true)
  else .ok (g, false)

end Grid
end Verif
