import Verif.Model.Zam

/-! Model of `Grid.store_mpi` (grid.py:663-740) and of the local numbering used by it and by `store`. -/

namespace Verif
variable {F R : Type}

/-- `ids[i] = v` for a list and a non-negative index. -/
def setAt (ids : List Int) (i : Nat) (v : Int) : Res (List Int) :=
  if i < ids.length then .ok (ids.set i v) else .error .index

/-- Step of the numbering loops. -/
def numberStep (glo : Nat → Nat) (ids : List Int) (p : Nat × Nat) : Res (List Int) := setAt ids (glo p.1) (p.2 : Int)

/-- `for i, o in enumerate(objs): ids[o.GloId] = i`, grid.py:654-655, 712-715. -/
def number (glo : Nat → Nat) (ids : List Int) (objs : List Nat) : Res (List Int) :=
  objs.zipIdx.foldlM (numberStep glo) ids

/-- `[ids[o.GloId] for o in objs]`, grid.py:657, 718, 721, 724. -/
def localIds (glo : Nat → Nat) (ids : List Int) (objs : List Nat) : Res (List Int) :=
  objs.mapM (fun o => Py.get ids (glo o : Int))

/-- Contents of one file written by `store_mpi`; numbers are kept as numbers, see `render` for the text. -/
structure MpiFile (F : Type) where
  title : Str
  mpi : Nat
  nodesCount : Nat
  edgesCount : Nat
  crossEdges : Nat
  facesCount : Nat
  /-- three coordinate lines -/
  coords : List (List F)
  gloIds : List Nat
  /-- one line for each variable -/
  data : List (List F)
  faceNode : List (List Int)
  faceEdge : List (List Int)
  edgeNode : List (List Int)
  mpiBorders : Nat
  /-- border lists: number of the neighbour zone and local numbers of edges -/
  borders : List (Nat × List Int)

namespace Grid

/-- `get_nodes_coord_slice_str(i)`, zone.py:92-103, before formatting. -/
def coordSlice (g : Grid F R) (z : Nat) (c : Vec F → F) : List F := (g.zNodes z).map (fun n => c (g.nP n))

/-- `get_faces_data_slice_str(e)`, zone.py:107-118, before formatting. -/
def dataSlice (g : Grid F R) (dflt : F) (z : Nat) (k : Str) : List F := (g.zFaces z).map (fun f => g.getData dflt f k)

/-- Data variables of `store_mpi`, grid.py:674-676 (`variables[4:]`). -/
def mpiVars : List Str :=
  ["T".toList, "Hw".toList, "Hi".toList, "HTC".toList, "Beta".toList, "MImp2".toList, "Vd2".toList,
   "TauX".toList, "TauY".toList, "TauZ".toList, "RecoveryFactor".toList]

/-- One border list, grid.py:729-738; `p` is `(le, li)`. -/
def borderList (g : Grid F R) (eids : List Int) (z : Nat) (p : Nat × Nat) : Res (Nat × List Int) := do
  let lz ← Py.get g.zones (p.2 : Int)
  let ids ← localIds g.eGlo eids ((g.zEdges z).filter (fun e => g.isConnectZones e z lz))
  pure (p.2, ids)

/-- State of the loop over zones in `store_mpi`: `loc_nodes_ids`, `loc_edges_ids` and written files. -/
structure MpiState (F : Type) where
  nids : List Int
  eids : List Int
  files : List (MpiFile F)

/-- Body of the loop over zones in `store_mpi`, grid.py:684-738; `p` is the zone and its index. -/
def mpiZone (g : Grid F R) (dflt : F) (zam : Zam) (s : MpiState F) (p : Nat × Nat) : Res (MpiState F) := do
  let nids ← number g.nGlo s.nids (g.zNodes p.1)
  let eids ← number g.eGlo s.eids (g.zEdges p.1)
  let faceNode ← (g.zFaces p.1).mapM (fun f => localIds g.nGlo nids (g.fNodes f))
  let faceEdge ← (g.zFaces p.1).mapM (fun f => localIds g.eGlo eids (g.fEdges f))
  let edgeNode ← (g.zEdges p.1).mapM (fun e => localIds g.nGlo nids (g.eNodes e))
  let borders ← ((zam.crossArray p.2).zipIdx.filter (fun q => decide (0 < q.1))).mapM (g.borderList eids p.1)
  pure { nids := nids, eids := eids, files := s.files ++ [
    { title := g.zName p.1
      mpi := p.2
      nodesCount := (g.zNodes p.1).length
      edgesCount := (g.zEdges p.1).length
      crossEdges := zam.crossCount p.2
      facesCount := (g.zFaces p.1).length
      coords := [g.coordSlice p.1 Vec.x, g.coordSlice p.1 Vec.y, g.coordSlice p.1 Vec.z]
      gloIds := (g.zFaces p.1).map g.fGlo
      data := mpiVars.map (g.dataSlice dflt p.1)
      faceNode := faceNode
      faceEdge := faceEdge
      edgeNode := edgeNode
      mpiBorders := zam.crossBorders p.2
      borders := borders }] }

/-- `store_mpi`, grid.py:663-740: the contents of the files in the order they are written.  `dflt` is `0.0`.
(In Python a file is left truncated if an exception is raised while it is written.) -/
def storeMpi (g : Grid F R) (dflt : F) : Res (List (MpiFile F)) := do
  let zam ← Zam.make g g.edges g.zones
  let s ← g.zones.zipIdx.foldlM (g.mpiZone dflt zam)
    ⟨List.replicate g.nodes.length (-1), List.replicate g.edges.length (-1), []⟩
  pure s.files

end Grid

/-- Name of the file of zone `zi`, grid.py:685: `'{0}_{1:05d}_{2}{3}'.format(filename_base, zi, ts, sf)`. -/
def mpiFileName (base ts sf : Str) (zi : Nat) : Str :=
  base ++ ['_'] ++ Py.natStrPad 5 zi ++ ['_'] ++ ts ++ sf

namespace MpiFile

/-- A line of numbers separated by blanks. -/
def line {α : Type} (str : α → Str) (l : List α) : Str := Py.join [' '] (l.map str)

/-- Text of a border list, grid.py:734-738. -/
def borderText (b : Nat × List Int) : Str :=
  ['['] ++ Py.natStr b.1 ++ "] ".toList ++ b.2.flatMap (fun i => Py.intStr i ++ [' ']) ++ ['\n']

/-- Text of the file, grid.py:692-738; `fmt` is `'{0:.18e}'.format`. -/
def render (fmt : F → Str) (m : MpiFile F) : Str :=
  "TITLE=\"".toList ++ m.title ++ "\"\n".toList ++
  "VARIABLES=".toList ++ Py.join ", ".toList (((["X".toList, "Y".toList, "Z".toList, "GloId".toList] ++ Grid.mpiVars)).map
    (fun v => ['"'] ++ v ++ ['"'])) ++ ['\n'] ++
  "MPI=".toList ++ Py.natStr m.mpi ++ ['\n'] ++
  "NODES=".toList ++ Py.natStr m.nodesCount ++ ['\n'] ++
  "EDGES=".toList ++ Py.natStr m.edgesCount ++ ['\n'] ++
  "CROSS-EDGES=".toList ++ Py.natStr m.crossEdges ++ ['\n'] ++
  "FACES=".toList ++ Py.natStr m.facesCount ++ ['\n'] ++
  "NODES COORDINATES:\n".toList ++ m.coords.flatMap (fun l => line fmt l ++ " \n".toList) ++
  "FACES DATA:\n".toList ++ line Py.natStr m.gloIds ++ ['\n'] ++ m.data.flatMap (fun l => line fmt l ++ " \n".toList) ++
  "FACE-NODE CONNECTIVITY LIST:\n".toList ++ m.faceNode.flatMap (fun l => line Py.intStr l ++ ['\n']) ++
  "FACE-EDGE CONNECTIVITY LIST:\n".toList ++ m.faceEdge.flatMap (fun l => line Py.intStr l ++ ['\n']) ++
  "EDGE-NODE CONNECTIVITY LIST:\n".toList ++ m.edgeNode.flatMap (fun l => line Py.intStr l ++ ['\n']) ++
  "MPI-BORDERS=".toList ++ Py.natStr m.mpiBorders ++ ['\n'] ++ m.borders.flatMap borderText

end MpiFile
end Verif
