import Verif.Spec.Geom
import Verif.Model.Drops

/-! What the flight of a droplet and the collected water mean. -/

namespace Verif
variable {F R : Type} [Field F] [LinearOrder F]

/-- The droplet with position and velocity `a` is moved to `b` by the air of the nearest point of the field. -/
def Moves (sqrt : F → F) (pow : F → F → F) (s : Space F) (d dt : F) (a b : Vec F × Vec F) : Prop :=
  ∃ w, s.findNearest sqrt a.1 = .ok w ∧ flyStep sqrt pow a.1 a.2 w.2 d dt = .ok b

/-- No triangle that has a common point with the segment from `a` to `b` passes the intersection test of the code. -/
def Clear (round10 : F → F) (ts : List (Tri F)) (a b : Vec F) : Prop :=
  ∀ t ∈ ts, Meets t a b → t.intersectSegment round10 a b = []

/-- What the result of a flight says. `states` are the positions and velocities of the droplet.
* The trajectory consists of their positions, each comes from the previous one by a step; it has at most `max_steps + 1` points, or
  one if `max_steps` is negative.
* All points but the last are in the box of the field.
* The search found nothing on any segment, except the last segment of a flight that ends with 'C'.
* 'N': more than `max_steps` points. 'O': the last point is outside the box. 'S': the next point would be nearer than 1e-15.
  'C': the last segment hits a triangle, and its face is returned. There is no face in the other cases. -/
structure Ended (sqrt : F → F) (pow : F → F → F) (round10 : F → F) (s : Space F) (d dt : F) (ts : List (Tri F)) (maxSteps : Int)
    (r : Flight F) (states : List (Vec F × Vec F)) : Prop where
  points : states.map Prod.fst = r.points
  chain : states.IsChain (Moves sqrt pow s d dt)
  long : r.points.length ≤ maxSteps.toNat + 1
  inside : ∀ x ∈ r.points.dropLast, InBox s.bx x
  clear : ∀ pre a b post, r.points = pre ++ a :: b :: post → (r.status = 'C' → post ≠ []) → Clear round10 ts a b
  status : (r.status = 'N' ∧ maxSteps < r.points.length ∧ r.face = none) ∨
    (r.status = 'O' ∧ (∃ pre l, r.points = pre ++ [l] ∧ ¬ InBox s.bx l) ∧ r.face = none) ∨
    (r.status = 'S' ∧ (∃ pre a b, states = pre ++ [a] ∧ Moves sqrt pow s d dt a b ∧ b.1.distTo sqrt a.1 < 1 / 10 ^ 15) ∧
      r.face = none) ∨
    (r.status = 'C' ∧ ∃ pre l m t, r.points = pre ++ [l, m] ∧ t ∈ ts ∧ t.intersectSegment round10 l m ≠ [] ∧ r.face = t.back)

/-- The face on which the droplet of the face `f` lands: `none` if the face is not wet or the droplet does not cross the surface. -/
def landing (P : Grid.DropsPar F) (air : Space F) (cloud : Cloud F) (g : Grid F R) (f : Nat) : Option Nat :=
  if g.getData 0 f "Stall".toList > P.stallThr then
    match g.dropFlight P air cloud f with
    | .ok r => if r.status = 'C' then r.face else none
    | .error _ => none
  else none

/-- The area of a face: half the length of the vector product of two of its sides. -/
def faceArea (sqrt : F → F) (g : Grid F R) (f : Nat) : F :=
  match g.fNodes f with
  | [a, b, c] =>
    let p := g.nP a
    let q := g.nP b
    let r := g.nP c
    1 / 2 * sqrt (((q.y - p.y) * (r.z - q.z) - (q.z - p.z) * (r.y - q.y)) ^ 2
      + ((q.z - p.z) * (r.x - q.x) - (q.x - p.x) * (r.z - q.z)) ^ 2
      + ((q.x - p.x) * (r.y - q.y) - (q.y - p.y) * (r.x - q.x)) ^ 2)
  | _ => 0

/-- The water of the face `h` after the droplets of the faces `fs` in this order: the last droplet that landed on it counts. -/
def caught (P : Grid.DropsPar F) (air : Space F) (cloud : Cloud F) (g : Grid F R) (fs : List Nat) (h : Nat) : F :=
  match (fs.filter (fun f => landing P air cloud g f = some h)).getLast? with
  | some f => g.getData 0 f "Stall".toList / faceArea P.sqrt g h
  | none => g.getData 0 h "MImp2".toList

/-- The water of secondary impingement on all faces: the sum of `MImp2` times the area. -/
def water (sqrt : F → F) (g : Grid F R) : F :=
  (g.faces.map (fun f => g.getData 0 f "MImp2".toList * faceArea sqrt g f)).sum

/-- The water of all droplets of the grid that land on a face. -/
def landed (P : Grid.DropsPar F) (air : Space F) (cloud : Cloud F) (g : Grid F R) : F :=
  ((g.faces.filter (fun f => landing P air cloud g f ≠ none)).map (fun f => g.getData 0 f "Stall".toList)).sum

end Verif
