import Verif.Model.Left
import Verif.Model.Text

/-! `Grid.load`, grid.py:471-584, line by line as it is written: every zone is added to the grid while it is read, and an
exception leaves the grid as it is then.  `Model/Text.lean` and `Model/Load.lean` read the file first and build the grid
afterwards; that both give the same grid whenever one of them gives a grid is proved (`C112_agrees`). -/

namespace Verif
namespace Grid
variable {F R : Type} [DecidableEq R]

/-- Body of the loop over the points of a zone, grid.py:539-543. -/
def streamNode (rc : Vec F → R) (merge : Bool) (z : Nat) (cx cy cz : List F) (g : Grid F R) (i : Nat) : Left F R (Grid F R) := do
  let p ← g.here (pointAt cx cy cz i)
  g.here (g.blockNode rc merge z p)

/-- Body of the loop creating the faces of a zone, grid.py:550-554. -/
def streamFace (fvars : List Str) (d : List (List F)) (z : Nat) (g : Grid F R) (i : Nat) : Left F R (Grid F R) := do
  let data ← g.here (dataAt fvars d i)
  g.here (g.blockFace z data)

/-- Body of the loop over the connectivity lines, grid.py:557-566; the state is the grid and the rest of the lines. -/
def streamConn (z : Nat) (s : Grid F R × List Str) (i : Nat) : Left F R (Grid F R × List Str) := do
  let f ← s.1.here (Py.get (s.1.zFaces z) (i : Int))
  let nodes ← s.1.here ((Py.splitWs (readline s.2).1).mapM (fun ss => do
    let k ← Py.int ss
    Py.get (s.1.zNodes z) (k - 1)))
  match nodes with
  | [a, b, c] => pure (((s.1.linkNodeFace a f).linkNodeFace b f).linkNodeFace c f, (readline s.2).2)
  | _ => .error (.exc "Wrong count of face linked nodes", s.1)

/-- One zone of the file, grid.py:503-566; `line` is its first line. Returns the grid and the rest of the lines. -/
def streamZone (rc : Vec F → R) (c : Codec F) (merge : Bool) (vars : List Str) (line : Str) (ls : List Str) (g : Grid F R) :
    Left F R (Grid F R × List Str) := do
  let zl ← g.here (lastField line)
  let z := g.zNext
  let g := g.pushZone (Py.slice zl (some 1) (some (-2)))
  let hd := readlines 5 ls
  match hd.1 with
  | [nodesLine, facesLine, packing, ztype, varloc] =>
    g.here (checkHead vars.length nodesLine facesLine packing ztype varloc)
    let nn ← g.here (countOf nodesLine)
    let nf ← g.here (countOf facesLine)
    let cl := readlines 3 hd.2
    let cs ← g.here (cl.1.mapM (parseFloats c))
    match cs with
    | [cx, cy, cz] =>
      let g ← (List.range nn.toNat).foldlM (streamNode rc merge z cx cy cz) g
      let dl := readlines (vars.drop 3).length cl.2
      let d ← g.here (dl.1.mapM (parseFloats c))
      let g ← (List.range nf.toNat).foldlM (streamFace (vars.drop 3) d z) g
      (List.range nf.toNat).foldlM (streamConn z) (g, dl.2)
    | _ => .error (.index, g)
  | _ => .error (.index, g)

/-- The loop over the lines of the file, grid.py:488-571. The first argument bounds the number of rounds, as in `parseFile`. -/
def stream (rc : Vec F → R) (c : Codec F) (merge : Bool) : Nat → List Str → Grid F R → List Str → Left F R (Grid F R)
  | 0, _, g, _ => .ok g
  | _ + 1, _, g, [] => .ok g
  | n + 1, vars, g, line :: ls =>
    if line.head? = some '#' then stream rc c merge n vars g ls
    else if Py.contains "TITLE=".toList line then do
      let t ← g.here (Py.get (Py.splitCh '=' line) 1)
      stream rc c merge n vars { g with name := Py.slice t (some 1) (some (-2)) } ls
    else if Py.contains "VARIABLES=".toList line then do
      let v ← g.here (varsOf line)
      stream rc c merge n v g ls
    else if Py.contains "ZONE T=".toList line then do
      let r ← streamZone rc c merge vars line ls g
      stream rc c merge n vars r.1 r.2
    else .error (.exc "Unexpected line", g)

/-- Body of the loop that makes the edges, grid.py:574-581. `complex_link_face_node_node_edge` (grid.py:368-390) raises, if at
all, for an edge found in the grid and before it changes anything. -/
def linkFaceX (g : Grid F R) (f : Nat) : Left F R (Grid F R) := do
  let a ← g.here (Py.get (g.fNodes f) 0)
  let b ← g.here (Py.get (g.fNodes f) 1)
  let c ← g.here (Py.get (g.fNodes f) 2)
  let g ← g.here (g.complexLink f a b)
  let g ← g.here (g.complexLink f a c)
  g.here (g.complexLink f b c)

/-- `load`, grid.py:471-584. `file` is the text of the file, `none` if it cannot be opened. -/
def loadX (rc : Vec F → R) (c : Codec F) (merge : Bool) (g : Grid F R) (file : Option Str) : Left F R (Grid F R) := do
  let g := g.clear
  match file with
  | none => .error (.os, g)
  | some text =>
    let ls := Py.readlines text
    let g ← stream rc c merge ls.length [] g ls
    let g ← g.faces.foldlM linkFaceX g
    g.linkNodesAndEdgesToZonesX

end Grid
end Verif
