import Verif.Model.Geom

/-! What boxes, triangles, segments and clouds of triangles mean. -/

namespace Verif
variable {F : Type}

/-- The point `p` lies in the box. -/
def InBox [LinearOrder F] (b : Box F) (p : Vec F) : Prop :=
  (b.minX ≤ p.x ∧ p.x ≤ b.maxX) ∧ (b.minY ≤ p.y ∧ p.y ≤ b.maxY) ∧ (b.minZ ≤ p.z ∧ p.z ≤ b.maxZ)

/-- `b` is the smallest box with all the points: it contains them, and every box that contains them contains `b`. -/
def Bounds [LinearOrder F] (b : Box F) (ps : List (Vec F)) : Prop :=
  (∀ p ∈ ps, InBox b p) ∧ ∀ o : Box F, (∀ p ∈ ps, InBox o p) → ∀ p, InBox b p → InBox o p

variable [Field F] [LinearOrder F]

/-- `x` is a point of the segment from `p` to `q`. -/
def OnSegment (p q x : Vec F) : Prop :=
  ∃ k : F, 0 ≤ k ∧ k ≤ 1 ∧ x = ⟨p.x + k * (q.x - p.x), p.y + k * (q.y - p.y), p.z + k * (q.z - p.z)⟩

/-- `x` is a point of the triangle. -/
def InTriangle (t : Tri F) (x : Vec F) : Prop :=
  ∃ u v w : F, 0 ≤ u ∧ 0 ≤ v ∧ 0 ≤ w ∧ u + v + w = 1 ∧
    x = ⟨u * t.a.x + v * t.b.x + w * t.c.x, u * t.a.y + v * t.b.y + w * t.c.y, u * t.a.z + v * t.b.z + w * t.c.z⟩

/-- The segment and the triangle have a common point. -/
def Meets (t : Tri F) (p q : Vec F) : Prop := ∃ x, OnSegment p q x ∧ InTriangle t x

/-- The volume (with sign, times 6) spanned by two sides of the triangle and the segment. It is zero iff the triangle is degenerate
or the segment is parallel to its plane. -/
def volume (t : Tri F) (p q : Vec F) : F :=
  (p.x - q.x) * ((t.b.y - t.a.y) * (t.c.z - t.a.z) - (t.b.z - t.a.z) * (t.c.y - t.a.y))
  + (p.y - q.y) * ((t.b.z - t.a.z) * (t.c.x - t.a.x) - (t.b.x - t.a.x) * (t.c.z - t.a.z))
  + (p.z - q.z) * ((t.b.x - t.a.x) * (t.c.y - t.a.y) - (t.b.y - t.a.y) * (t.c.x - t.a.x))

/-- The point `p` lies in the plane of the triangle (any point, if the triangle is degenerate). -/
def InPlane (t : Tri F) (p : Vec F) : Prop := volume t p t.a = 0

/-- The triangles have a common point. -/
def Share (s t : Tri F) : Prop := ∃ x, InTriangle s x ∧ InTriangle t x

/-- No side of one of the triangles lies in the plane of the other one. -/
def Apart (s t : Tri F) : Prop :=
  ¬ (InPlane s t.a ∧ InPlane s t.b) ∧ ¬ (InPlane s t.b ∧ InPlane s t.c) ∧ ¬ (InPlane s t.c ∧ InPlane s t.a) ∧
  ¬ (InPlane t s.a ∧ InPlane t s.b) ∧ ¬ (InPlane t s.b ∧ InPlane t s.c) ∧ ¬ (InPlane t s.c ∧ InPlane t s.a)

/-- The brute-force search: for every pair of triangles that `hit` finds to intersect the two entries with the common points. -/
def doubleLoop (hit : Tri F → Tri F → List (Vec F)) (ss ts : List (Tri F)) : List (Tri F × List (Vec F)) :=
  (ss.product ts).flatMap (fun st => if hit st.1 st.2 = [] then [] else [(st.1, hit st.1 st.2), (st.2, hit st.1 st.2)])

/-- The length of the box along an axis. -/
def Box.side (b : Box F) : Fin 3 → F
  | 0 => b.maxX - b.minX
  | 1 => b.maxY - b.minY
  | 2 => b.maxZ - b.minZ

/-- A binary tree with the given triangles: a leaf holds one triangle, an inner node two non-empty trees and no triangles; the box
of every node is the smallest box with the triangles below the node. -/
inductive TreeOf : Cloud F → List (Tri F) → Prop
  | leaf {b : Box F} {t : Tri F} : Bounds b t.points → TreeOf (.mk b [t] []) [t]
  | node {b : Box F} {l r : Cloud F} {ls rs : List (Tri F)} : TreeOf l ls → TreeOf r rs → ls ≠ [] → rs ≠ [] →
      Bounds b ((ls ++ rs).flatMap Tri.points) → TreeOf (.mk b [] [l, r]) (ls ++ rs)

end Verif
