import Verif.Model.Left
import Verif.Model.Calc

/-! What is left when reading of results, storing of a grid, or merging of results raises. -/

namespace Verif
namespace Grid
variable {F R : Type}

/-- `load_faces_calc_data`, grid.py:1141-1163, with the grid an exception leaves behind. `file` is the text of the file, `none` if
it cannot be opened. -/
def loadCalcX (c : Codec F) (g : Grid F R) (file : Option Str) : Left F R (Grid F R) :=
  match file with
  | none => .error (.os, g)
  | some text => do
    let ls := Py.readlines text
    let vars ← g.here (calcVars (ls.headD []))
    ls.tail.foldlM (fun g line => g.here (g.loadCalcLine c vars line)) g

/-- A step of `store` that raises leaves the lines written so far. -/
def written {α : Type} (w : List Str) (r : Res α) : Except (Err × List Str) α :=
  match r with
  | .ok a => .ok a
  | .error e => .error (e, w)

/-- Body of the loop over the faces of a zone, grid.py:656-657; the state is the list of lines written. -/
def storeConnX (g : Grid F R) (ids : List Int) (w : List Str) (f : Nat) : Except (Err × List Str) (List Str) := do
  let l ← written w (g.faceConn ids f)
  pure (w ++ [connLine l])

/-- Body of the loop over zones of `store`, grid.py:635-657, line by line; the state is `loc_ids` and the lines written. -/
def storeZoneX (g : Grid F R) (c : Codec F) (dflt : F) (vars : List Str) (s : List Int × List Str) (z : Nat) :
    Except (Err × List Str) (List Int × List Str) := do
  let pts := (g.zNodes z).map g.nP
  let w := s.2 ++
    ["ZONE T=\"".toList ++ g.zName z ++ "\"\n".toList,
     "NODES=".toList ++ Py.natStr (g.zNodes z).length ++ ['\n'],
     "ELEMENTS=".toList ++ Py.natStr (g.zFaces z).length ++ ['\n'],
     "DATAPACKING=BLOCK\n".toList,
     "ZONETYPE=FETRIANGLE\n".toList,
     "VARLOCATION=([4-".toList ++ Py.natStr vars.length ++ "]=CELLCENTERED)\n".toList,
     floatLine c (pts.map Vec.x), floatLine c (pts.map Vec.y), floatLine c (pts.map Vec.z)] ++
    ((vars.drop 3).map (g.dataSlice dflt z)).map (floatLine c)
  let ids ← written w (number g.nGlo s.1 (g.zNodes z))
  let w ← (g.zFaces z).foldlM (g.storeConnX ids) w
  pure (ids, w)

/-- `store`, grid.py:612-659, with the content of the file when it raises: `none` if the file has not been opened yet, so that it
is as it was before. The `with` statement closes the file, so everything written is in it. Opening is taken to succeed. -/
def storeX (g : Grid F R) (c : Codec F) (dflt : F) : Except (Err × Option Str) Str :=
  match Py.get g.faces 0 with
  | .error e => .error (e, none)
  | .ok f0 =>
    let vars := ["X".toList, "Y".toList, "Z".toList] ++ (g.fData f0).map Prod.fst
    match g.zones.foldlM (g.storeZoneX c dflt vars) (List.replicate g.nodes.length (-1), headLines g.name vars) with
    | .ok s => .ok s.2.flatten
    | .error (e, w) => .error (e, some w.flatten)

end Grid
end Verif
