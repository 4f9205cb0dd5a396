import Verif.Spec.Grid
import Verif.Spec.Drops
import Verif.Model.Remesh

/-! What remeshing has to achieve, in terms of coordinates, face data and the attributes of faces and nodes. -/

namespace Verif
variable {F R : Type} [Field F] [LinearOrder F]

/-- The distance of two points. -/
def dist (sqrt : F → F) (p q : Vec F) : F := sqrt ((p.x - q.x) ^ 2 + (p.y - q.y) ^ 2 + (p.z - q.z) ^ 2)

/-- The length of the shortest side of a face. -/
def shortestSide (sqrt : F → F) (g : Grid F R) (f : Nat) : F :=
  match g.fNodes f with
  | [a, b, c] => min (min (dist sqrt (g.nP a) (g.nP b)) (dist sqrt (g.nP b) (g.nP c))) (dist sqrt (g.nP c) (g.nP a))
  | _ => 0

/-- The number of steps a face needs, remeshing.py 440 (docs): the ice of one step is less than a given part of its shortest side. -/
def stepsNeeded (P : RemeshPar F) (g : Grid F R) (f : Nat) : Int :=
  P.trunc (g.getData 0 f "Hi".toList / (shortestSide P.sqrt g f * P.hiSideFact)) + 1

/-- The volume of the tetrahedron with the given corners. -/
def volume4 (a b c d : Vec F) : F :=
  |(a.x - d.x) * ((b.y - d.y) * (c.z - d.z) - (b.z - d.z) * (c.y - d.y))
    + (a.y - d.y) * ((b.z - d.z) * (c.x - d.x) - (b.x - d.x) * (c.z - d.z))
    + (a.z - d.z) * ((b.x - d.x) * (c.y - d.y) - (b.y - d.y) * (c.x - d.x))| / 6

/-- The volume between a face of `g` and the same face with the node coordinates of `g'`, cut into three tetrahedra. -/
def grown (g g' : Grid F R) (f : Nat) : F :=
  match g.fNodes f with
  | [a, b, c] => volume4 (g.nP a) (g.nP b) (g.nP c) (g'.nP c) + volume4 (g.nP a) (g.nP b) (g'.nP b) (g'.nP c)
      + volume4 (g.nP a) (g'.nP a) (g'.nP b) (g'.nP c)
  | _ => 0

/-- `g'` differs from `g` in coordinates of nodes only. -/
def Moved (g g' : Grid F R) : Prop := ∃ p, g' = { g with nP := p }

/-- `ss` are the states before the first step and after each of the `n` steps of a run on the grid `g`, `r` is the result. -/
structure IceSteps (P : RemeshPar F) (g : Grid F R) (n : Nat) (ss : Nat → Ice F R) (r : Ice F R) : Prop where
  /-- the target is the volume of the ice -/
  target : ∀ i ≤ n, ∀ f ∈ g.faces, (ss i).target f = faceArea P.sqrt g f * g.getData 0 f "Hi".toList
  rest : ∀ f ∈ g.faces, (ss 0).rest f = (ss 0).target f
  actual : ∀ f ∈ g.faces, (ss 0).actual f = 0
  /-- nothing has moved before the first step -/
  first : (ss 0).g.nP = g.nP
  /-- the steps -/
  next : ∀ i < n, Ice.turn P ((n : Int) - i) (ss i) = .ok (ss (i + 1))
  /-- after the last step nothing moves any more -/
  last : r.g.nP = (ss n).g.nP ∧ r.rest = (ss n).rest ∧ r.actual = (ss n).actual ∧ r.target = (ss n).target

/-- `g'` is `g` with other positions of nodes, border marks and ice heights, the latter all zero. The variable is appended where it
was missing. -/
def Remeshed (g g' : Grid F R) : Prop :=
  ∃ p b c D, g' = { g with nP := p, nBorder := b, borderCnt := c, fData := D } ∧ (∀ n ∉ g.nodes, p n = g.nP n) ∧
    (∀ f ∉ g.faces, D f = g.fData f) ∧ ∀ f ∈ g.faces, Py.dictGet? (D f) "Hi".toList = some 0 ∧
      (D f).map Prod.fst = (g.fData f).map Prod.fst ++ (if "Hi".toList ∈ (g.fData f).map Prod.fst then [] else ["Hi".toList]) ∧
      ∀ k, k ≠ "Hi".toList → Py.dictGet? (D f) k = Py.dictGet? (g.fData f) k

end Verif
