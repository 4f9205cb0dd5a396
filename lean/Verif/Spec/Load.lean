import Verif.Model.Load
import Mathlib.Data.List.Forall2

/-! What a grid file says, in terms of the file content only. -/

namespace Verif
variable {F R : Type}

/-- The point a connectivity number refers to (numbers count from 1; Python also accepts numbers ≤ 0,
counting from the end). -/
def ZoneBlock.point? (b : ZoneBlock F) (s : Int) : Option (Vec F) :=
  match Py.get b.pts (s - 1) with
  | .ok p => some p
  | .error _ => none

/-- Every face of the block is given by three numbers of points of the block. -/
def ZoneBlock.Valid (b : ZoneBlock F) : Prop :=
  ∀ fc ∈ b.faces, fc.2.length = 3 ∧ ∀ s ∈ fc.2, (b.point? s).isSome = true

/-- The identity of a corner as far as the loader is concerned: rounded coordinates, and the number of
the zone when nodes are not merged. -/
def cornerId (rc : Vec F → R) (merge : Bool) (i : Nat) (b : ZoneBlock F) (s : Int) : Nat × Option R :=
  (if merge then 0 else i, (b.point? s).map rc)

/-- All faces of the file in order, each as the list of its corners. -/
def fileFaces (rc : Vec F → R) (merge : Bool) (blocks : List (ZoneBlock F)) : List (List (Nat × Option R)) :=
  blocks.zipIdx.flatMap (fun p => p.1.faces.map (fun fc => fc.2.map (cornerId rc merge p.2 p.1)))

/-- No face has two corners at the same place (after rounding). -/
def NonDegenerate (rc : Vec F → R) (merge : Bool) (blocks : List (ZoneBlock F)) : Prop :=
  ∀ t ∈ fileFaces rc merge blocks, t.Nodup

/-- Three or more faces have two corners in common. -/
def OverShared [DecidableEq R] (rc : Vec F → R) (merge : Bool) (blocks : List (ZoneBlock F)) : Prop :=
  ∃ u v, u ≠ v ∧ 3 ≤ ((fileFaces rc merge blocks).filter (fun t => decide (u ∈ t) && decide (v ∈ t))).length

/-- Without merging: the points of a zone are at different places. -/
def ZonePoints (rc : Vec F → R) (merge : Bool) (blocks : List (ZoneBlock F)) : Prop :=
  merge = false → ∀ b ∈ blocks, (b.pts.map rc).Nodup

/-- One more point of the file: when nodes are merged a point at an already registered place is dropped. -/
def register [DecidableEq R] (rc : Vec F → R) (merge : Bool) (acc : List (Vec F)) (p : Vec F) : List (Vec F) :=
  if merge = true ∧ rc p ∈ acc.map rc then acc else acc ++ [p]

/-- The points that become nodes, in order: with merging, the first point of each place. -/
def registered [DecidableEq R] (rc : Vec F → R) (merge : Bool) (ps : List (Vec F)) : List (Vec F) :=
  ps.foldl (register rc merge) []

/-- Zone `z` of the grid represents block `b`: same name, and face by face the same data and corners. -/
structure Represents (rc : Vec F → R) (merge : Bool) (g : Grid F R) (b : ZoneBlock F) (z : Nat) : Prop where
  name : g.zName z = b.name
  faces : List.Forall₂ (fun fc f => g.fData f = fc.1 ∧
    List.Forall₂ (fun s n => n ∈ g.nodes ∧ ∃ p, b.point? s = some p ∧ g.nKey n = rc p ∧ (merge = false → g.nP n = p))
      fc.2 (g.fNodes f)) b.faces (g.zFaces z)

end Verif
