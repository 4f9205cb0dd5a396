import Verif.Model.Grid

/-!
Model of `Grid.load`, grid.py:471-584, after the text of the file has been cut into zone blocks (the text
level is in `Model/Text.lean`).
-/

namespace Verif

/-- The content of one zone of a grid file: name, points, and for every face its data and its
connectivity line (numbers as written in the file, counted from 1). -/
structure ZoneBlock (F : Type) where
  name : Str
  pts : List (Vec F)
  faces : List (List (Str × F) × List Int)

namespace Grid
variable {F R : Type} [DecidableEq R]

/-- Loop over the points of a zone, grid.py:539-543. -/
def blockNode (rc : Vec F → R) (merge : Bool) (z : Nat) (g : Grid F R) (p : Vec F) : Res (Grid F R) := do
  let n := g.nNext
  let (g, m) ← (g.newNode rc p).addNode n merge
  pure (g.zoneAddNode z m)

/-- Loop creating the faces of a zone, grid.py:550-554. -/
def blockFace (z : Nat) (g : Grid F R) (d : List (Str × F)) : Res (Grid F R) :=
  ((g.newFace d).addFace g.fNext).zoneAddFace z g.fNext

/-- Loop over the connectivity lists, grid.py:557-566; `p` is the list and its position. -/
def blockConn (z : Nat) (g : Grid F R) (p : List Int × Nat) : Res (Grid F R) := do
  let f ← Py.get (g.zFaces z) (p.2 : Int)
  let nodes ← p.1.mapM (fun s => Py.get (g.zNodes z) (s - 1))
  match nodes with
  | [a, b, c] => pure (((g.linkNodeFace a f).linkNodeFace b f).linkNodeFace c f)
  | _ => .error (.exc "Wrong count of face linked nodes")

/-- One `ZONE` of the file, grid.py:503-566. Simplification: the whole zone is read before it is added
(when the file has several errors another one may be reported first); `Model/Stream.lean` follows the code line by line and
`C112_agrees` shows that it loads the same grids. -/
def addBlock (rc : Vec F → R) (merge : Bool) (g : Grid F R) (b : ZoneBlock F) : Res (Grid F R) := do
  let z := g.zNext
  let g := g.pushZone b.name
  let g ← b.pts.foldlM (blockNode rc merge z) g
  let g ← (b.faces.map (·.1)).foldlM (blockFace z) g
  (b.faces.map (·.2)).zipIdx.foldlM (blockConn z) g

/-- Body of the loop that makes the edges, grid.py:574-581. -/
def linkFace (g : Grid F R) (f : Nat) : Res (Grid F R) := do
  let a ← Py.get (g.fNodes f) 0
  let b ← Py.get (g.fNodes f) 1
  let c ← Py.get (g.fNodes f) 2
  let g ← g.complexLink f a b
  let g ← g.complexLink f a c
  g.complexLink f b c

/-- `load` after parsing, grid.py:485, 503-584. -/
def loadBlocks (rc : Vec F → R) (merge : Bool) (g : Grid F R) (blocks : List (ZoneBlock F)) : Res (Grid F R) := do
  let g ← blocks.foldlM (addBlock rc merge) g.clear
  let g ← g.faces.foldlM linkFace g
  g.linkNodesAndEdgesToZones

end Grid
end Verif
