import Verif.Model.Load
import Verif.Model.Mpi

/-!
Model of the text level of `Grid.store` (grid.py:612-659) and `Grid.load` (grid.py:471-584).

The text of a float and its reading are parameters: `fmt` is `'{0:.18e}'.format(x)`, `parse` is `float(s)`.
-/

namespace Verif
variable {F R : Type}

/-- Writing and reading of floats. -/
structure Codec (F : Type) where
  fmt : F → Str
  parse : Str → Res F

namespace Grid

/-- A line of floats: the items separated by blanks, then `' \n'`, grid.py:646-651, zone.py:92-103, 107-118. -/
def floatLine (c : Codec F) (l : List F) : Str := Py.join [' '] (l.map c.fmt) ++ " \n".toList

/-- A line of the connectivity list, grid.py:657. -/
def connLine (l : List Int) : Str := Py.join [' '] (l.map Py.intStr) ++ ['\n']

/-- The lines of one zone, grid.py:637-657, from the collected numbers: name, points, one row of values for every
data variable, connectivity lists; `vc` is `len(variables)`. -/
def zoneLines (c : Codec F) (vc : Nat) (name : Str) (pts : List (Vec F)) (rows : List (List F)) (conns : List (List Int)) :
    List Str :=
  ["ZONE T=\"".toList ++ name ++ "\"\n".toList,
   "NODES=".toList ++ Py.natStr pts.length ++ ['\n'],
   "ELEMENTS=".toList ++ Py.natStr conns.length ++ ['\n'],
   "DATAPACKING=BLOCK\n".toList,
   "ZONETYPE=FETRIANGLE\n".toList,
   "VARLOCATION=([4-".toList ++ Py.natStr vc ++ "]=CELLCENTERED)\n".toList,
   floatLine c (pts.map Vec.x), floatLine c (pts.map Vec.y), floatLine c (pts.map Vec.z)] ++
  rows.map (floatLine c) ++ conns.map connLine

/-- Connectivity list of a face with numbers from 1, grid.py:657. -/
def faceConn (g : Grid F R) (ids : List Int) (f : Nat) : Res (List Int) := do
  let l ← localIds g.nGlo ids (g.fNodes f)
  pure (l.map (· + 1))

/-- Body of the loop over zones of `store`, grid.py:635-657; the state is `loc_ids` and the lines written.
Simplification: the numbers of the zone are collected first and then written. -/
def storeZone (g : Grid F R) (c : Codec F) (dflt : F) (vars : List Str) (s : List Int × List Str) (z : Nat) :
    Res (List Int × List Str) := do
  let ids ← number g.nGlo s.1 (g.zNodes z)
  let conns ← (g.zFaces z).mapM (g.faceConn ids)
  pure (ids, s.2 ++ zoneLines c vars.length (g.zName z) ((g.zNodes z).map g.nP)
    ((vars.drop 3).map (g.dataSlice dflt z)) conns)

/-- The head of the file, grid.py:623-628. -/
def headLines (name : Str) (vars : List Str) : List Str :=
  ["# crys-gsu\n".toList, "TITLE=\"".toList ++ name ++ "\"\n".toList,
   "VARIABLES=".toList ++ Py.join ", ".toList (vars.map (fun v => ['"'] ++ v ++ ['"'])) ++ ['\n']]

/-- `store`, grid.py:612-659: the lines written to the file.  `dflt` is `0.0`.
(What an exception leaves in the file is in `Model/Broken.lean`.) -/
def storeLines (g : Grid F R) (c : Codec F) (dflt : F) : Res (List Str) := do
  let f0 ← Py.get g.faces 0
  let vars := ["X".toList, "Y".toList, "Z".toList] ++ (g.fData f0).map Prod.fst
  let s ← g.zones.foldlM (g.storeZone c dflt vars) (List.replicate g.nodes.length (-1), headLines g.name vars)
  pure s.2

/-- `store`: the text of the file. -/
def storeText (g : Grid F R) (c : Codec F) (dflt : F) : Res Str := do
  let ls ← g.storeLines c dflt
  pure ls.flatten

/-! ### Reading -/

/-- `f.readline()` on the remaining lines: the empty string at the end of the file. -/
def readline (ls : List Str) : Str × List Str := (ls.headD [], ls.tail)

/-- Repeated `f.readline()`. -/
def readlines : Nat → List Str → List Str × List Str
  | 0, ls => ([], ls)
  | n + 1, ls => ((readline ls).1 :: (readlines n (readline ls).2).1, (readlines n (readline ls).2).2)

/-- `line.split('=')[-1]`. -/
def lastField (line : Str) : Res Str := Py.get (Py.splitCh '=' line) (-1)

/-- `[float(xi) for xi in line.split()]`, grid.py:538, 548. -/
def parseFloats (c : Codec F) (line : Str) : Res (List F) := (Py.splitWs line).mapM c.parse

/-- `[int(ss) for ss in line.split()]`, part of grid.py:560. -/
def parseInts (line : Str) : Res (List Int) := (Py.splitWs line).mapM Py.int

/-- `geom.Vect(c[0][i], c[1][i], c[2][i])`, grid.py:540. -/
def pointAt (cx cy cz : List F) (i : Nat) : Res (Vec F) := do
  let x ← Py.get cx (i : Int)
  let y ← Py.get cy (i : Int)
  let z ← Py.get cz (i : Int)
  pure ⟨x, y, z⟩

/-- `gsu.Face(face_variables, [d[j][i] for j in range(face_variables_count)]).Data`, grid.py:551-552, face.py:30. -/
def dataAt (fvars : List Str) (d : List (List F)) (i : Nat) : Res (List (Str × F)) := do
  let vals ← d.mapM (fun row => Py.get row (i : Int))
  pure (Py.dictOf (fvars.zip vals))

/-- `int(line.split('=')[-1][:-1])`, grid.py:530, 532. -/
def countOf (line : Str) : Res Int := do
  let s ← lastField line
  Py.int (Py.slice s none (some (-1)))

/-- Check of the five head lines of a zone, grid.py:516-529. -/
def checkHead (vc : Nat) (nodesLine facesLine packing ztype varloc : Str) : Res Unit :=
  if Py.contains "NODES=".toList nodesLine = false then .error (.exc "Wrong nodes line")
  else if Py.contains "ELEMENTS=".toList facesLine = false then .error (.exc "Wrong faces line")
  else if Py.slice packing none (some (-1)) ≠ "DATAPACKING=BLOCK".toList then .error (.exc "Wrong packing line")
  else if Py.slice ztype none (some (-1)) ≠ "ZONETYPE=FETRIANGLE".toList then .error (.exc "Wrong zonetype line")
  else if Py.slice varloc none (some (-1)) ≠ "VARLOCATION=([4-".toList ++ Py.natStr vc ++ "]=CELLCENTERED)".toList then
    .error (.exc "Wrong varlocation line")
  else .ok ()

/-- One zone of the file, grid.py:503-566, up to the numbers; returns the block and the rest of the lines.
Simplification: connectivity numbers of all faces are read before the nodes they name are looked up
(`loadBlocks`), so for a file with several errors another one may be reported. -/
def parseZone (c : Codec F) (vars : List Str) (line : Str) (ls : List Str) : Res (ZoneBlock F × List Str) := do
  let zl ← lastField line
  let hd := readlines 5 ls
  match hd.1 with
  | [nodesLine, facesLine, packing, ztype, varloc] =>
    checkHead vars.length nodesLine facesLine packing ztype varloc
    let nn ← countOf nodesLine
    let nf ← countOf facesLine
    let cl := readlines 3 hd.2
    let cs ← cl.1.mapM (parseFloats c)
    match cs with
    | [cx, cy, cz] =>
      let pts ← (List.range nn.toNat).mapM (pointAt cx cy cz)
      let dl := readlines (vars.drop 3).length cl.2
      let d ← dl.1.mapM (parseFloats c)
      let datas ← (List.range nf.toNat).mapM (dataAt (vars.drop 3) d)
      let nl := readlines nf.toNat dl.2
      let conns ← nl.1.mapM parseInts
      pure ({ name := Py.slice zl (some 1) (some (-2)), pts := pts, faces := datas.zip conns }, nl.2)
    | _ => .error .index
  | _ => .error .index

/-- What has been read so far: `self.Name`, `variables` and the zones. -/
structure FileState (F : Type) where
  name : Str
  vars : List Str
  blocks : List (ZoneBlock F)

/-- `line.split('=')[-1][:-1].replace('"', '').replace(',', '').split()`, grid.py:498-499. -/
def varsOf (line : Str) : Res (List Str) := do
  let s ← lastField line
  pure (Py.splitWs (Py.delCh ',' (Py.delCh '"' (Py.slice s none (some (-1))))))

/-- The loop over the lines of the file, grid.py:488-571. The first argument bounds the number of rounds; every
round takes at least one line, so the number of lines is enough. -/
def parseFile (c : Codec F) : Nat → FileState F → List Str → Res (FileState F)
  | 0, s, _ => .ok s
  | _ + 1, s, [] => .ok s
  | n + 1, s, line :: ls =>
    if line.head? = some '#' then parseFile c n s ls
    else if Py.contains "TITLE=".toList line then do
      let t ← Py.get (Py.splitCh '=' line) 1
      parseFile c n { s with name := Py.slice t (some 1) (some (-2)) } ls
    else if Py.contains "VARIABLES=".toList line then do
      let v ← varsOf line
      parseFile c n { s with vars := v } ls
    else if Py.contains "ZONE T=".toList line then do
      let r ← parseZone c s.vars line ls
      parseFile c n { s with blocks := s.blocks ++ [r.1] } r.2
    else .error (.exc "Unexpected line")

/-- `load`, grid.py:471-584, from the text of the file. -/
def loadText [DecidableEq R] (rc : Vec F → R) (c : Codec F) (merge : Bool) (g : Grid F R) (text : Str) : Res (Grid F R) := do
  let ls := Py.readlines text
  let s ← parseFile c ls.length ⟨g.name, [], []⟩ ls
  loadBlocks rc merge { g with name := s.name } s.blocks

end Grid
end Verif
