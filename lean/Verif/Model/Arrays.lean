import Verif.Model.Mpi

/-! The numpy arrays and counts of a zone, zone.py:37-88, 122-132 and 185-251. A matrix is its list of rows. `npFloat` says whether the installed
numpy still has the name `np.float`; without it the two functions that use it raise `AttributeError`. -/

namespace Verif
variable {F R : Type}

namespace Grid

/-- `.T` of a matrix with `m` columns. -/
def transposed [Inhabited F] (m : Nat) (rows : List (List F)) : List (List F) := (List.range m).map (fun j => rows.map (fun r => r[j]!))

/-- `coords_np_array`, zone.py:185-197. -/
def coordsArray [Inhabited F] (g : Grid F R) (z : Nat) : List (List F) :=
  transposed (g.zNodes z).length [g.coordSlice z Vec.x, g.coordSlice z Vec.y, g.coordSlice z Vec.z]

/-- `variables_np_array`, zone.py:199-223. -/
def variablesArray [Inhabited F] [NatCast F] [Zero F] (npFloat : Bool) (g : Grid F R) (z : Nat) : Res (List (List F)) :=
  if npFloat = false then .error .attr else
  let zeros := List.replicate (g.zFaces z).length (0 : F)
  let var := fun v : String => g.dataSlice 0 z v.toList
  .ok (transposed (g.zFaces z).length [(g.zFaces z).map (fun f => (g.fGlo f : F)), var "T", var "Hw", var "Hi", var "HTC", var "Beta", zeros, zeros,
    var "TauX", var "TauY", var "TauZ", zeros])

/-- A row of `connectivity_list_faces_nodes`, zone.py:234-236; `not n1 == n2 == n3` is `not (n1 == n2 and n2 == n3)`. -/
def connRow (g : Grid F R) (f : Nat) : Res (List Nat) := do
  let n1 ← Py.get (g.fNodes f) 0
  let n2 ← Py.get (g.fNodes f) 1
  let n3 ← Py.get (g.fNodes f) 2
  if g.nGlo n1 = g.nGlo n2 ∧ g.nGlo n2 = g.nGlo n3 then .error .assertion else .ok [g.nGlo n1, g.nGlo n2, g.nGlo n3]

/-- `connectivity_list_faces_nodes`, zone.py:225-237; the numbers are natural numbers here, floats in the code. -/
def connArray (npFloat : Bool) (g : Grid F R) (z : Nat) : Res (List (List Nat)) := do
  let rows ← (g.zFaces z).mapM (connRow g)
  if npFloat then .ok rows else .error .attr

/-- `get_variable`, zone.py:239-251. -/
def getVariable [Zero F] (g : Grid F R) (z : Nat) (v : Str) : List F := g.dataSlice 0 z v

/-- `get_faces_global_ids_slice_str`, zone.py:122-132. -/
def gloSlice (g : Grid F R) (z : Nat) : Str := Py.join [' '] ((g.zFaces z).map (fun f => Py.natStr (g.fGlo f)))

/-- `outer_edges_count`, zone.py:59-66. -/
def outerCount (g : Grid F R) (z : Nat) : Res Nat := do
  let bs ← (g.zEdges z).mapM g.isOuter
  .ok (bs.filter id).length

/-- `zone_quality_factor`, zone.py:81-88, and its use in `print_info`. The division is a division of numpy floats, so that `x / 0` is `inf`
(`none` here) for `x > 0` and `nan` for `x = 0` (an empty zone, also `none`). `sqrt` is the square root of the number type. -/
def qualityFactor [NatCast F] [Div F] (sqrt : F → F) (g : Grid F R) (z : Nat) : Res (Option F) := do
  let n ← g.outerCount z
  .ok (if n = 0 then none else some (sqrt ((g.zFaces z).length : F) / (n : F)))

end Grid
end Verif
