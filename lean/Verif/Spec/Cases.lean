import Verif.Model.Cases
import Verif.Spec.Calc
import Verif.Spec.Load
import Verif.Spec.Text
import Mathlib.Algebra.BigOperators.Group.List.Basic

/-! What is in a grid file, for the statements about the example programs. -/

namespace Verif
variable {F R : Type}

/-- The faces of a zone of a file: data and rounded corners. -/
def ZoneBlock.tris (rc : Vec F → R) (b : ZoneBlock F) : List (List (Str × F) × List (Option R)) :=
  b.faces.map (fun f => (f.1, f.2.map (fun s => (b.point? s).map rc)))

/-- The zones of a file: names and faces. -/
def contents (rc : Vec F → R) (blocks : List (ZoneBlock F)) : List (Str × List (List (Str × F) × List (Option R))) :=
  blocks.map (fun b => (b.name, b.tris rc))

/-- The faces of all zones of a file. -/
def allTris (rc : Vec F → R) (blocks : List (ZoneBlock F)) : List (List (Str × F) × List (Option R)) := blocks.flatMap (·.tris rc)

/-- The text is a grid file which can be loaded and stored: the reader finds this title and these zones in it; faces have three
corners at different places, no three of them have two corners in common, there is at least one; names can be written to a file; all
faces have the same variables. -/
structure GoodFile [DecidableEq R] (rc : Vec F → R) (c : Codec F) (text title : Str) (vars : List Str) (blocks : List (ZoneBlock F)) :
    Prop where
  file : GridFile c text title blocks
  valid : ∀ b ∈ blocks, b.Valid
  corners : NonDegenerate rc true blocks
  manifold : ¬ OverShared rc true blocks
  some_face : ∃ b ∈ blocks, b.faces ≠ []
  plain_title : PlainName title
  plain_names : ∀ b ∈ blocks, PlainName b.name
  plain_vars : ∀ v ∈ vars, PlainVar v
  dict : vars.Nodup
  same : ∀ b ∈ blocks, ∀ f ∈ b.faces, f.1.map Prod.fst = vars

/-- Every point of a zone is a corner of one of its faces. -/
def AllUsed (rc : Vec F → R) (blocks : List (ZoneBlock F)) : Prop :=
  ∀ b ∈ blocks, ∀ p ∈ b.pts, ∃ f ∈ b.faces, ∃ s ∈ f.2, (b.point? s).map rc = some (rc p)

/-- The zones `case_002_decompose` does not touch. -/
def posZones (blocks : List (ZoneBlock F)) : List (ZoneBlock F) := blocks.filter (fun b => b.name ∈ ["POS1".toList, "POS2".toList])

/-- Which zones the file written for a method has. One decomposition makes one zone, two make 32 zones, two keep the zones `POS1`
and `POS2` and make 32 or at most 32 zones of the other faces. The first and third keep the order of faces. -/
def MethodZones (rc : Vec F → R) (m : Str) (blocks b' : List (ZoneBlock F)) : Prop :=
  (m = "mono".toList → contents rc b' = [("mono".toList, allTris rc blocks)]) ∧
  (m = "random".toList → b'.map (·.name) = (List.range 32).map (fun i => "random ".toList ++ Py.natStr i)) ∧
  (m = "linear".toList → b'.map (·.name) = (List.range 32).map (fun i => "linear ".toList ++ Py.natStr i) ∧
    allTris rc b' = allTris rc blocks) ∧
  (m = "hierarchical".toList → (∀ b ∈ posZones blocks, (b.name, b.tris rc) ∈ contents rc b') ∧ b'.length ≤ (posZones blocks).length + 32) ∧
  (m = "farhat".toList → ∃ new, b' = b'.take (posZones blocks).length ++ new ∧
    contents rc (b'.take (posZones blocks).length) = contents rc (posZones blocks) ∧
    new.map (·.name) = (List.range 32).map (fun i => "farhat ".toList ++ Py.natStr i))

/-- The methods of `case_002_decompose`. -/
def methodNames : List Str := ["mono".toList, "random".toList, "linear".toList, "hierarchical".toList, "farhat".toList]

/-- The point is the mean of the points: the sum is the number of points times the point. -/
def MeanPoint [Field F] (ps : List (Vec F)) (m : Vec F) : Prop :=
  ps ≠ [] ∧ (ps.map (·.x)).sum = ps.length * m.x ∧ (ps.map (·.y)).sum = ps.length * m.y ∧ (ps.map (·.z)).sum = ps.length * m.z

/-- The zones of the second file are those of the first one moved away from the mean point `gm` of all points: every zone by the
vector from `gm` to the mean point of the zone, times `k`. -/
def Exploded [Field F] (k : F) (gm : Vec F) (bh be : List (ZoneBlock F)) : Prop :=
  List.Forall₂ (fun b e => e.name = b.name ∧ e.faces = b.faces ∧ ∃ m, MeanPoint b.pts m ∧
    e.pts = b.pts.map (fun p => p.add ((m.sub gm).smul k))) bh be

end Verif
