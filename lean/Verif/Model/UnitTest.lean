import Verif.Model.Transform
import Verif.Model.Drops

/-! The unit test of transformations, `tests/test_gsu.py`, and the programs of `crysgsu/test.py` (cases 015 - 020) that do the same
and print the identifiers. The parts of the test differ in the list of identifiers they look at; before every part the grid is loaded
again. -/

namespace Verif.UnitTest
variable {F R : Type}

/-- `check_GloId`, test_gsu.py 17-26. The numbers of items are natural numbers, their difference may be negative. -/
def checkGloId (old new : List Nat) (d : Int) : Bool :=
  if (new.length : Int) = old.length + d then
    (new.mergeSort (fun a b => decide (a ≤ b))).zipIdx.all (fun p => decide (p.2 = p.1))
  else false

/-- The search for an edge, test_gsu.py 71-79 and test.py 222-229: the loop over `n` ends at the first face whose first edge has `k`
faces, and with `IndexError` if there is none. The transformation is carried out in the last turn; it is a separate step here. -/
def findFace (g : Grid F R) (k : Nat) : List Nat → Res (Nat × Nat)
  | [] => .error .index
  | f :: fs => do
    let e ← Py.get (g.fEdges f) 0
    if (g.eFaces e).length = k then .ok (f, e) else findFace g k fs

/-- Part `collapse_face`, test_gsu.py 50-56 (`i = 60`) and case 016, test.py 198-199 (`i = 0`). -/
def collapseFace (dist : Vec F → Vec F → F) (gt : F → F → Bool) (i : Int) (g : Grid F R) : Res (Grid F R) := do
  let f ← Py.get g.faces i
  let r ← g.collapseFace dist gt f
  .ok r.1

/-- Part `collapse_edge`, test_gsu.py 112-120 and case 018, test.py 252-259. -/
def collapseEdge [DecidableEq R] (rc : Vec F → R) (mid : Vec F → Vec F → Vec F) (g : Grid F R) : Res (Grid F R) := do
  let fe ← findFace g 2 g.faces
  let r ← g.collapseEdge rc mid fe.2
  .ok r.1

variable [Field F] [LinearOrder F] [DecidableEq R]

/-- `f.get_triangle().centroid()`. -/
def centroid (g : Grid F R) (f : Nat) : Res (Vec F) := do
  let t ← g.triangle f
  .ok t.centroid

/-- Part `divide_face`, test_gsu.py 29-33 and case 015, test.py 174-175. -/
def divideFace (rc : Vec F → R) (g : Grid F R) : Res (Grid F R) := do
  let f ← Py.get g.faces 0
  let p ← centroid g f
  g.divideFace rc f p

/-- Part `cut_edge`, test_gsu.py 70-81 and case 017, test.py 222-229. -/
def cutEdge (rc : Vec F → R) (g : Grid F R) : Res (Grid F R) := do
  let fe ← findFace g 2 g.faces
  let p ← centroid g fe.1
  let r ← g.cutEdge rc fe.2 p
  .ok r.1

/-- Part `cut_single_edge`, test_gsu.py 151-162 and case 019, test.py 282-289. -/
def cutSingleEdge (rc : Vec F → R) (g : Grid F R) : Res (Grid F R) := do
  let fe ← findFace g 1 g.faces
  let p ← centroid g fe.1
  let r ← g.cutSingleEdge rc fe.2 p
  .ok r.1

/-- `geom.Vect(0.01, 0.01, 0.01)`. -/
def shift : Vec F := ⟨1 / 100, 1 / 100, 1 / 100⟩

/-- Parts `cut_edge_with_two_nodes`, test_gsu.py 191-205 (`k = 1`) and 237-251 (`k = 2`), and case 020, test.py 312-321 and
330-339. -/
def cutTwo (rc : Vec F → R) (k : Nat) (g : Grid F R) : Res (Grid F R) := do
  let fe ← findFace g k g.faces
  let p ← centroid g fe.1
  let r ← g.cutEdgeTwoNodes rc fe.2 (p.sub shift) (p.add shift)
  .ok r.1

/-- Case 020, test.py 301-345: both cuts one after the other. -/
def case020 (rc : Vec F → R) (g : Grid F R) : Res (Grid F R) := do
  let g ← cutTwo rc 1 g
  cutTwo rc 2 g

end Verif.UnitTest
