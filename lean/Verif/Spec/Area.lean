import Verif.Spec.Orient
import Verif.Spec.Drops
import Verif.Spec.Refine

/-! Specification of area and of sums over the surface. -/

namespace Verif
variable {F R : Type} [Field F]

/-- The sum over all faces of the area times a quantity which depends on the data and the zone of the face. -/
def surfaceSum (sqrt : F → F) (g : Grid F R) (q : List (Str × F) → Option Nat → F) : F :=
  (g.faces.map (fun f => faceArea sqrt g f * q (g.fData f) (g.fZone f))).sum

/-- The point at the part `t` of the way from `a` to `b`. -/
def along (a b : Vec F) (t : F) : Vec F := ⟨a.x + t * (b.x - a.x), a.y + t * (b.y - a.y), a.z + t * (b.z - a.z)⟩

variable [LinearOrder F]

/-- `p` is a point of the face, its border included. -/
def InFace (g : Grid F R) (f : Nat) (p : Vec F) : Prop :=
  ∃ a b c s t u, g.fNodes f = [a, b, c] ∧ 0 ≤ s ∧ 0 ≤ t ∧ 0 ≤ u ∧ s + t + u = 1 ∧ p = mix s (g.nP a) t (g.nP b) u (g.nP c)

/-- `p` is a point of the edge, its ends included. -/
def OnEdge (g : Grid F R) (e : Nat) (p : Vec F) : Prop :=
  ∃ a b t, g.eNodes e = [a, b] ∧ 0 ≤ t ∧ t ≤ 1 ∧ p = along (g.nP a) (g.nP b) t

/-- On the way from the first end of the edge to the second one comes first to `p` and then to `q`. -/
def OnEdge2 (g : Grid F R) (e : Nat) (p q : Vec F) : Prop :=
  ∃ a b s t, g.eNodes e = [a, b] ∧ 0 ≤ s ∧ s ≤ t ∧ t ≤ 1 ∧ p = along (g.nP a) (g.nP b) s ∧ q = along (g.nP a) (g.nP b) t

/-- All faces of the edge are in one zone. -/
def OneZone (g : Grid F R) (e : Nat) : Prop := ∃ z, ∀ f ∈ g.eFaces e, g.fZone f = some z

/-- `h` comes from `g` by dividing faces and cutting edges at points of them, any number of times.  With `keep` both faces of a cut
edge have to be in one zone. -/
inductive Parts [DecidableEq R] (rc : Vec F → R) (keep : Prop) (g : Grid F R) : Grid F R → Prop where
  | refl : Parts rc keep g g
  | divide {h h' : Grid F R} {f : Nat} {p : Vec F} : Parts rc keep g h → f ∈ h.faces → InFace h f p → NewPlace rc h p →
      h.divideFace rc f p = .ok h' → Parts rc keep g h'
  | single {h h' : Grid F R} {e : Nat} {p : Vec F} {b : Bool} : Parts rc keep g h → e ∈ h.edges → OnEdge h e p → NewPlace rc h p →
      h.cutSingleEdge rc e p = .ok (h', b) → Parts rc keep g h'
  | cut {h h' : Grid F R} {e : Nat} {p : Vec F} {b : Bool} : Parts rc keep g h → e ∈ h.edges → OnEdge h e p → NewPlace rc h p → (keep → OneZone h e) →
      h.cutEdge rc e p = .ok (h', b) → Parts rc keep g h'
  | cut2 {h h' : Grid F R} {e : Nat} {p q : Vec F} {b : Bool} : Parts rc keep g h → e ∈ h.edges → OnEdge2 h e p q → NewPlace rc h p → NewPlace rc h q → rc q ≠ rc p →
      (keep → OneZone h e) → h.cutEdgeTwoNodes rc e p q = .ok (h', b) → Parts rc keep g h'

/-- The points at which faces are divided are points of these faces, the points at which edges are cut are points of these edges, and two
points at one edge are in the order of its ends. -/
def FitsIn (g : Grid F R) (jobs : List (Nat × Change F)) : Prop := ∀ j ∈ jobs,
  match j.2 with
  | .keep => True
  | .inside p => InFace g j.1 p
  | .side e p => OnEdge g e p
  | .side2 e p q => OnEdge2 g e p q

end Verif
