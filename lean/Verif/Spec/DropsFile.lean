import Verif.Spec.Drops
import Verif.Spec.Text
import Verif.Model.DropsFile
import Verif.Proofs.Strings

/-! How the files of `drops` are laid out. -/

namespace Verif
variable {F R : Type}

/-- The word at position `i` of the line (from 0). -/
def WordAt (l : Str) (i : Nat) (w : Str) : Prop := (Py.splitWs l)[i]? = some w

/-- The line of a node of the air: its first three numbers are the point, those at positions 5, 6, 7 the velocity. -/
def AirNode (c : Codec F) (l : Str) (a : Vec F × Vec F) : Prop :=
  ∃ x y z u v w, WordAt l 0 x ∧ WordAt l 1 y ∧ WordAt l 2 z ∧ WordAt l 5 u ∧ WordAt l 6 v ∧ WordAt l 7 w ∧
    c.parse x = .ok a.1.x ∧ c.parse y = .ok a.1.y ∧ c.parse z = .ok a.1.z ∧
    c.parse u = .ok a.2.x ∧ c.parse v = .ok a.2.y ∧ c.parse w = .ok a.2.z

/-- A part of an air file: a line outside of zones, or a zone with its head, node lines and element lines. -/
inductive AirPart where
  | line (l : Str)
  | zone (head : Str) (nodes elems : List Str)

def AirPart.lines : AirPart → List Str
  | .line l => [l]
  | .zone h ns es => h :: (ns ++ es)

/-- The text of an air file. -/
def airText (ps : List AirPart) : Str := (ps.flatMap AirPart.lines).flatten

/-- The head of a zone with `n` nodes and `e` elements. In a zone of bricks the second word has `FEBRICK` and the numbers are the
seventh and the tenth word, in other zones they are the sixth and the ninth. -/
def AirHead (h : Str) (brick : Prop) (n e : Nat) : Prop :=
  Py.IsLine h ∧ "ZONE".toList <:+: h ∧ ¬ "TITLE=".toList <:+: h ∧ ¬ "VARIABLES=".toList <:+: h ∧
    (∃ w, WordAt h 1 w ∧ ("FEBRICK".toList <:+: w ↔ brick)) ∧
    (brick → WordAt h 6 (Py.natStr n) ∧ WordAt h 9 (Py.natStr e)) ∧ (¬ brick → WordAt h 5 (Py.natStr n) ∧ WordAt h 8 (Py.natStr e))

/-- A part holds the air `as`: the nodes of a zone of bricks in their order; lines outside of zones and other zones hold none. -/
def AirPart.Holds (c : Codec F) (as : List (Vec F × Vec F)) : AirPart → Prop
  | .line l => Py.IsLine l ∧ ("ZONE".toList <:+: l → "TITLE=".toList <:+: l ∨ "VARIABLES=".toList <:+: l) ∧ as = []
  | .zone h ns es => (∀ l ∈ ns ++ es, Py.IsLine l) ∧
    ((AirHead h True ns.length es.length ∧ List.Forall₂ (AirNode c) ns as) ∨ (AirHead h False ns.length es.length ∧ as = []))

/-- The block of a trajectory in a grid file: its points, and degenerate triangles for the segments between them. -/
def trajBlock (name : Str) (pts : List (Vec F)) : ZoneBlock F :=
  { name := name, pts := pts
    faces := (List.range (pts.length - 1)).map (fun i : Nat => ([], [(i : Int) + 1, (i : Int) + 2, (i : Int) + 2])) }

/-- The names of the variables of a grid in STALL format that the result does not have. -/
def stallNames : List Str := ["Stall".toList, "StallD".toList, "StallVX".toList, "StallVY".toList, "StallVZ".toList]

/-- The names of the variables that are reset. -/
def stateNames : List Str := ["T".toList, "Hw".toList, "Hi".toList]

open Classical in
/-- The variables of the file that `drops` writes for a grid with the variables `vars`: without the stall, with `MImp2` if the grid
had it or if `hit` (a droplet landed on the first face), with `T`, `Hw` and `Hi`. -/
noncomputable def outVars (hit : Prop) (vars : List Str) : List Str :=
  vars.filter (· ∉ stallNames) ++ (if hit ∧ "MImp2".toList ∉ vars then ["MImp2".toList] else []) ++ stateNames.filter (· ∉ vars)

variable [Field F] [LinearOrder F]

/-- The value of a variable of the face `f` in the file that `drops` writes. -/
def outValue (P : Grid.DropsPar F) (air : Space F) (cloud : Cloud F) (g : Grid F R) (f : Nat) (v : Str) : F :=
  if v = "MImp2".toList then caught P air cloud g g.faces f else if v ∈ stateNames then 0 else g.getData 0 f v

end Verif
