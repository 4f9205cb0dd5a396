import Verif.Model.Ansys

/-! The part of `convert/gsu_converter.py` that the converters do not call: reading of a grid file and the cleaning of a zone. -/

namespace Verif.Ansys
variable {F : Type} [Field F]

/-- `int(l.split('=')[1])`, gsu_converter.py 339, 341. -/
def importCount (l : Str) : Res Int := do
  let s ← Py.get (Py.splitCh '=' l) 1
  Py.int s

/-- A node of the zone, gsu_converter.py 355-359; the other attributes have their defaults. -/
def importNode (c : Codec F) (xs ys zs : List Str) (i : Nat) : Res (CNode F) := do
  let sx ← Py.get xs (i : Int)
  let x ← c.parse sx
  let sy ← Py.get ys (i : Int)
  let y ← c.parse sy
  let sz ← Py.get zs (i : Int)
  let z ← c.parse sz
  .ok ⟨⟨x, y, z⟩, 0, 0, ⟨0, 0, 0⟩, 0⟩

/-- `z.Nodes[int(ns[k]) - 1]`, gsu_converter.py 382-384. -/
def importCorner (nodes : List (CNode F)) (ns : List Str) (k : Int) : Res Nat := do
  let s ← Py.get ns k
  let i ← Py.int s
  position nodes (i - 1)

/-- `float(l[i])`, gsu_converter.py 385-389. -/
def importFloat (c : Codec F) (l : List Str) (i : Nat) : Res F := do
  let s ← Py.get l (i : Int)
  c.parse s

/-- A face of the zone from its line, gsu_converter.py 380-389. -/
def importFace (c : Codec F) (nodes : List (CNode F)) (htcs betas txs tys tzs : List Str) (i : Nat) (l : Str) : Res (CFace F) := do
  let ns := Py.splitWs l
  let a ← importCorner nodes ns 0
  let b ← importCorner nodes ns 1
  let d ← importCorner nodes ns 2
  let h ← importFloat c htcs i
  let e ← importFloat c betas i
  let x ← importFloat c txs i
  let y ← importFloat c tys i
  let z ← importFloat c tzs i
  .ok ⟨a, b, d, h, e, ⟨x, y, z⟩, 0⟩

/-- The loop over the faces, gsu_converter.py 379-389: `n` faces from number `i` on; the faces and the rest of the lines. -/
def importFaces (c : Codec F) (nodes : List (CNode F)) (htcs betas txs tys tzs : List Str) : Nat → Nat → List Str → Res (List (CFace F) × List Str)
  | 0, _, ls => .ok ([], ls)
  | n + 1, i, ls => do
    let f ← importFace c nodes htcs betas txs tys tzs i (Grid.readline ls).1
    let r ← importFaces c nodes htcs betas txs tys tzs n (i + 1) (Grid.readline ls).2
    .ok (f :: r.1, r.2)

/-- `assert len(l) == n`, gsu_converter.py 352-354, 374-378. -/
def assertLen (l : List Str) (n : Int) : Res Unit := if (l.length : Int) = n then .ok () else .error .assertion

/-- The nodes of a zone, gsu_converter.py 346-359, from the three lines of coordinates. -/
def importNodes (c : Codec F) (nn : Int) (lx ly lz : Str) : Res (List (CNode F)) := do
  assertLen (Py.splitWs lx) nn
  assertLen (Py.splitWs ly) nn
  assertLen (Py.splitWs lz) nn
  (List.range nn.toNat).mapM (importNode c (Py.splitWs lx) (Py.splitWs ly) (Py.splitWs lz))

/-- The data and the faces of a zone, gsu_converter.py 361-389, from the five lines that are not skipped and the lines after them. -/
def importData (c : Codec F) (ne : Int) (nodes : List (CNode F)) (lh lb lx ly lz : Str) (ls : List Str) : Res (List (CFace F) × List Str) := do
  assertLen (Py.splitWs lb) ne
  assertLen (Py.splitWs lh) ne
  assertLen (Py.splitWs lx) ne
  assertLen (Py.splitWs ly) ne
  assertLen (Py.splitWs lz) ne
  importFaces c nodes (Py.splitWs lh) (Py.splitWs lb) (Py.splitWs lx) (Py.splitWs ly) (Py.splitWs lz) ne.toNat 0 ls

/-- The line number `i` of those that follow; the empty string at the end of the file. -/
def lineAt (ls : List Str) (i : Nat) : Str := ls.getD i []

/-- A zone, gsu_converter.py 334-389: `l` is its first line, `ls` are the lines after it. The lines 2, 3, 4 and 8, 9, 10 are skipped. -/
def importZone (c : Codec F) (l : Str) (ls : List Str) : Res (CZone F × List Str) := do
  let t ← Py.get (Py.splitCh '=' l) 1
  let nn ← importCount (lineAt ls 0)
  let ne ← importCount (lineAt ls 1)
  let nodes ← importNodes c nn (lineAt ls 5) (lineAt ls 6) (lineAt ls 7)
  let r ← importData c ne nodes (lineAt ls 11) (lineAt ls 12) (lineAt ls 13) (lineAt ls 14) (lineAt ls 15) (ls.drop 16)
  .ok (⟨Py.slice t (some 1) (some (-2)), nodes, r.1⟩, r.2)

/-- The loop over the lines of `Import`, gsu_converter.py 320-393. The first argument bounds the number of rounds; every round takes
at least one line. -/
def importLoop (c : Codec F) : Nat → List (CZone F) → List Str → Res (List (CZone F))
  | 0, zs, _ => .ok zs
  | _ + 1, zs, [] => .ok zs
  | n + 1, zs, l :: ls =>
    if Py.contains "EXPORT_MODE".toList l then importLoop c n zs ls
    else if Py.contains "TITLE".toList l then importLoop c n zs ls
    else if Py.contains "VARIABLES".toList l then importLoop c n zs ls
    else if Py.contains "ZONE T=".toList l then do
      let r ← importZone c l ls
      importLoop c n (zs ++ [r.1]) r.2
    else importLoop c n zs ls

/-- `Import`, gsu_converter.py 312-395, into an empty grid. -/
def importText (c : Codec F) (text : Str) : Res (List (CZone F)) :=
  let ls := Py.readlines text
  importLoop c ls.length [] ls

/-! ### Cleaning of a zone

Here nodes are objects (numbers), since the position of a node in its zone changes. -/

/-- The nodes of a zone, the corners of its faces and the attribute `Id` of nodes. -/
structure LinkZone where
  nodes : List Nat
  faces : List (List Nat)
  id : Nat → Nat

/-- `ReplaceNode`, gsu_converter.py 132-147; objects are compared by identity. -/
def LinkZone.replaceNode (on nn : Nat) (z : LinkZone) : LinkZone :=
  { z with
    nodes := z.nodes.map (fun n => if n = on then nn else n)
    faces := z.faces.map (fun f => f.map (fun n => if n = on then nn else n)) }

/-- `RestoreNodesIndices`, gsu_converter.py 151-157. -/
def LinkZone.restoreIds (z : LinkZone) : LinkZone :=
  { z with id := z.nodes.zipIdx.foldl (fun m p => fun n => if n = p.1 then p.2 else m n) z.id }

/-- `DeleteExtraNodes`, gsu_converter.py 161-169. -/
def LinkZone.deleteExtra (z : LinkZone) : LinkZone :=
  let ns := z.faces.foldl (fun ns f => ns ++ f) []
  { z with nodes := z.nodes.filter (fun n => n ∈ ns) }

/-- The numbers of the corners in the exported file, gsu_converter.py 446-447. -/
def LinkZone.links (z : LinkZone) : List (List Nat) := z.faces.map (fun f => f.map (fun n => z.id n + 1))

end Verif.Ansys
