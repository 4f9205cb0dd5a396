import Verif.Spec.Transform
import Verif.Model.Refine
import Mathlib.Logic.Relation

/-! Specification of what `refine` does to a grid. -/

namespace Verif
variable {F R : Type}

/-- What has to be done with one face. -/
inductive Change (F : Type) where
  /-- nothing -/
  | keep
  /-- divide the face at the point -/
  | inside (p : Vec F)
  /-- cut the edge at the point -/
  | side (e : Nat) (p : Vec F)
  /-- cut the edge at the two points -/
  | side2 (e : Nat) (p q : Vec F)

/-- The points of an act. -/
def Change.points : Change F → List (Vec F)
  | .keep => []
  | .inside p => [p]
  | .side _ p => [p]
  | .side2 _ p q => [p, q]

/-- The act cuts the edge `e`. -/
def Change.Cuts (e : Nat) : Change F → Prop
  | .side x _ => x = e
  | .side2 x _ _ => x = e
  | _ => False

/-- `e` is a side of the face `f`, and its ends are at the points `n.1` and `n.2`. -/
def SideAt (g : Grid F R) (f e : Nat) (n : Vec F × Vec F) : Prop :=
  e ∈ g.fEdges f ∧ ∃ a b, (∀ x, x ∈ g.eNodes e ↔ x = a ∨ x = b) ∧ g.nP a = n.1 ∧ g.nP b = n.2

/-- `act` is what the points ask for that were found for the face `f` with the triangle `t`. A point outside of the triangle or in a
corner (`pointInTriangle` is 0 or 1) is ignored; one point in a side (2) or inside (3), or two points in the same side, cause an act;
other points do not. The side of a point is the one given by `point_on_edge_of_triangle`. -/
def Asks [Field F] [LinearOrder F] (sqrt round10 : F → F) (g : Grid F R) (f : Nat) (t : Tri F) (pts : List (Vec F)) (act : Change F) : Prop :=
  let at' := t.pointInTriangle sqrt round10
  let found := pts.filter (fun p => decide (at' p ≠ 0 ∧ at' p ≠ 1))
  match act with
  | .inside p => found = [p] ∧ at' p = 3
  | .side e p => found = [p] ∧ at' p = 2 ∧ SideAt g f e (Refine.sideOf sqrt t p)
  | .side2 e p q => found = [p, q] ∧ at' p = 2 ∧ at' q = 2 ∧
      SideAt g f e (Refine.sideOf sqrt t p) ∧ SideAt g f e (Refine.sideOf sqrt t q)
  | .keep => found = [] ∨ 3 ≤ found.length ∨ ∃ p q, found = [p, q] ∧ (at' p = 3 ∨ at' q = 3 ∨
      ∃ e e', e ≠ e' ∧ SideAt g f e (Refine.sideOf sqrt t p) ∧ SideAt g f e' (Refine.sideOf sqrt t q))

/-- `jobs` are the faces of the entries `l` with what has to be done with them. -/
def Jobs [Field F] [LinearOrder F] (sqrt round10 : F → F) (g : Grid F R) (l : List (Tri F × List (Vec F))) (jobs : List (Nat × Change F)) : Prop :=
  List.Forall₂ (fun x j => j.1 ∈ g.faces ∧ g.triangle j.1 = .ok x.1 ∧ Asks sqrt round10 g j.1 x.1 x.2 j.2) l jobs

/-- Different nodes of the grid are not equal as points (`Vect.__eq__`). -/
def Distinct [Field F] [LinearOrder F] (sqrt : F → F) (g : Grid F R) : Prop :=
  ∀ n ∈ g.nodes, ∀ m ∈ g.nodes, n ≠ m → (g.nP n).eq sqrt (g.nP m) = false

/-- The jobs are for different faces, and the new points are at new places which differ for jobs that do not cut the same edge. -/
structure Separated (rc : Vec F → R) (g : Grid F R) (jobs : List (Nat × Change F)) : Prop where
  faces : (jobs.map Prod.fst).Nodup
  new : ∀ j ∈ jobs, ∀ p ∈ j.2.points, NewPlace rc g p
  points : ∀ i ∈ jobs, ∀ j ∈ jobs, i ≠ j → (∀ e, ¬ (i.2.Cuts e ∧ j.2.Cuts e)) → ∀ p ∈ i.2.points, ∀ q ∈ j.2.points, rc p ≠ rc q
  two : ∀ j ∈ jobs, ∀ e p q, j.2 = .side2 e p q → rc q ≠ rc p

/-- Of all sides of the face `f`, the jobs cut `e` first. -/
def FirstCut (g : Grid F R) (jobs : List (Nat × Change F)) (f e : Nat) : Prop :=
  e ∈ g.fEdges f ∧ ∃ pre j post, jobs = pre ++ j :: post ∧ j.2.Cuts e ∧ ∀ i ∈ pre, ∀ x ∈ g.fEdges f, ¬ i.2.Cuts x

/-- Job `j` comes too late after the jobs `pre`: the face has to be divided, but one of its sides was cut, or a side has to be cut, but
it is the side of the face which was cut first. -/
def TooLate (g : Grid F R) (pre : List (Nat × Change F)) (j : Nat × Change F) : Prop :=
  match j.2 with
  | .keep => False
  | .inside _ => ∃ e, FirstCut g pre j.1 e
  | .side e _ => FirstCut g pre j.1 e
  | .side2 e _ _ => FirstCut g pre j.1 e

/-- Every edge which is cut is an edge of faces of one zone only. -/
def WithinZones (g : Grid F R) (jobs : List (Nat × Change F)) : Prop :=
  ∀ j ∈ jobs, ∀ e, j.2.Cuts e → ∃ z, ∀ f ∈ g.eFaces e, g.fZone f = some z

/-- `g'` is the grid `g` after the jobs: nodes stay, and there are new nodes exactly at the points of the jobs which divide a face or are
the first to cut an edge; an edge stays unless it is cut, a face stays unless it is divided or one of its sides is cut. -/
structure Refined (g g' : Grid F R) (jobs : List (Nat × Change F)) : Prop where
  nodes : ∀ n ∈ g.nodes, n ∈ g'.nodes ∧ g'.nP n = g.nP n
  new : ∀ n ∈ g'.nodes, n ∉ g.nodes → ∃ pre j post, jobs = pre ++ j :: post ∧ (∀ e, j.2.Cuts e → ∀ i ∈ pre, ¬ i.2.Cuts e) ∧ g'.nP n ∈ j.2.points
  placed : ∀ pre j post, jobs = pre ++ j :: post → (∀ e, j.2.Cuts e → ∀ i ∈ pre, ¬ i.2.Cuts e) → ∀ p ∈ j.2.points, ∃ n ∈ g'.nodes, g'.nP n = p
  edges : ∀ e ∈ g.edges, e ∈ g'.edges ↔ ∀ j ∈ jobs, ¬ j.2.Cuts e
  faces : ∀ f ∈ g.faces, f ∈ g'.faces ↔ (∀ p, (f, Change.inside p) ∉ jobs) ∧ ∀ j ∈ jobs, ∀ e ∈ g.fEdges f, ¬ j.2.Cuts e

/-- Two numbers with a relative difference of at most 1e-9. -/
def NearNum [Field F] [LinearOrder F] (x y : F) : Prop := |x - y| ≤ 1 / 10 ^ 9 * max |x| |y|

/-- Two points with near coordinates. -/
def Near [Field F] [LinearOrder F] (p q : Vec F) : Prop := NearNum p.x q.x ∧ NearNum p.y q.y ∧ NearNum p.z q.z

/-- `q` is reached from `p` by steps between near points. -/
def Chain [Field F] [LinearOrder F] (p q : Vec F) : Prop := Relation.ReflTransGen Near p q

end Verif
