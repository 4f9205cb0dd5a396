import Verif.Model.Predicates
import Verif.Model.Transform
import Verif.Model.Drops
import Verif.Model.Text

/-! The program `refine.py`: intersections of the triangles of a grid with each other, and rebuilding of the triangles at the points
found. The file imports `gsu.gsu`, `gsu.node`, `gsu.edge` and `gsu.face` as modules with classes (refine.py 9-12); there is no
module `gsu.gsu`, so the program as it is ends with `ModuleNotFoundError`. The model is of the code behind the imports, with `Grid`
being `gsu.Grid`. -/

namespace Verif
variable {F R : Type} [Field F] [LinearOrder F]

namespace Refine

/-! ### Merging of the intersections, refine.py 243-264 -/

/-- An element `[triangle, points]` of the list of intersections. `pts` is the identity of the list object of points. -/
structure Hit (F : Type) where
  tri : Tri F
  pts : Nat

/-- The result of `intersection_with_triangles_cloud` as objects: `list_tri_and_intersection_points.append` is called twice in a row
with the same list of points (triangles_cloud.py 200-201), so the entries `2 i` and `2 i + 1` share the list object `i`. -/
def hits (l : List (Tri F × List (Vec F))) : List (Hit F) := l.mapIdx (fun i x => ⟨x.1, i / 2⟩)

@[inherit_doc hits]
def heap (l : List (Tri F × List (Vec F))) (i : Nat) : List (Vec F) :=
  match l[2 * i]? with
  | some x => x.2
  | none => []

/-- `res_intersect.sort(key=...)`, refine.py 245: a stable sort by `id` of the triangle. `addr` is `id`. -/
def sortHits (addr : Nat → Nat) (l : List (Hit F)) : List (Hit F) := l.insertionSort (fun s t => addr s.tri.id ≤ addr t.tri.id)

/-- The loop refine.py 251-255. `prev` is `res_intersect[i - 1]`, `cur` is `res_intersect_new_list[-1]` and `done` is the list before
it; `+=` extends the list object in place. -/
def mergeLoop (done : List (Hit F)) (cur prev : Hit F) (h : Nat → List (Vec F)) : List (Hit F) → List (Hit F) × (Nat → List (Vec F))
  | [] => (done ++ [cur], h)
  | x :: xs =>
    if x.tri.id ≠ prev.tri.id then mergeLoop (done ++ [cur]) x x h xs
    else mergeLoop done cur x (upd h cur.pts (h cur.pts ++ h x.pts)) xs

/-- refine.py 247-255: `res_intersect[0]` raises `IndexError` for an empty list. -/
def mergeHits (h : Nat → List (Vec F)) : List (Hit F) → Res (List (Hit F) × (Nat → List (Vec F)))
  | [] => .error .index
  | x :: xs => .ok (mergeLoop [] x x h xs)

/-- `math.isclose` of all coordinates, refine.py 262-264. -/
def close (p q : Vec F) : Bool := Py.isClose p.x q.x && Py.isClose p.y q.y && Py.isClose p.z q.z

/-- The new list of points, refine.py 261-264: every point is compared with its left neighbour in the sorted list. -/
def thin : List (Vec F) → Res (List (Vec F))
  | [] => .error .index
  | x :: xs => .ok (x :: ((x :: xs).zip xs).filterMap (fun (l, r) => if close r l then none else some r))

/-- The loop refine.py 258-264. `j[1].sort()` sorts the list object; `sort` is `list.sort` with `Vect.__lt__`. The new list is a new
object, which belongs to this entry only. -/
def thinLoop (sort : List (Vec F) → List (Vec F)) (h : Nat → List (Vec F)) : List (Hit F) → Res (List (Tri F × List (Vec F)))
  | [] => .ok []
  | x :: xs => do
    let l ← thin (sort (h x.pts))
    let r ← thinLoop sort (upd h x.pts (sort (h x.pts))) xs
    .ok ((x.tri, l) :: r)

/-- refine.py 243-264. -/
def collect (sort : List (Vec F) → List (Vec F)) (addr : Nat → Nat) (l : List (Tri F × List (Vec F))) :
    Res (List (Tri F × List (Vec F))) := do
  let r ← mergeHits (heap l) (sortHits addr (hits l))
  thinLoop sort r.2 r.1

/-! ### Rebuilding, refine.py 101-220 -/

/-- `point_on_edge_of_triangle`, refine.py 34-56: the ends of the side (the third corner, which is returned too, is not used). -/
def sideOf (sqrt : F → F) (t : Tri F) (p : Vec F) : Vec F × Vec F :=
  if Tri.area sqrt ⟨0, t.a, t.b, p, none⟩ = 0 then (t.a, t.b)
  else if Tri.area sqrt ⟨0, p, t.b, t.c, none⟩ = 0 then (t.b, t.c)
  else (t.c, t.a)

/-- The condition on an edge, refine.py 147-148 and 180-181. Whatever the first comparison gives, `ed.Nodes[1]` is read. -/
def isSide (sqrt : F → F) (g : Grid F R) (n : Vec F × Vec F) (e : Nat) : Res Bool := do
  let a ← Py.get (g.eNodes e) 0
  let b ← Py.get (g.eNodes e) 1
  .ok (((g.nP a).eq sqrt n.1 && (g.nP b).eq sqrt n.2) || ((g.nP b).eq sqrt n.1 && (g.nP a).eq sqrt n.2))

/-- `[ed for ed in face.Edges if ...][0]`, refine.py 147-148 and 180-181. -/
def findSide (sqrt : F → F) (g : Grid F R) (f : Nat) (n : Vec F × Vec F) : Res Nat := do
  let l ← (g.fEdges f).filterM (isSide sqrt g n)
  Py.get l 0

/-- `rebuilding_points`, refine.py 129-133: points with their positions in the triangle, without those which are outside (0) or
corners (1). -/
def rebuilding (sqrt round10 : F → F) (t : Tri F) (pts : List (Vec F)) : List (Nat × Vec F) :=
  pts.filterMap (fun p =>
    let k := t.pointInTriangle sqrt round10 p
    if k ≠ 0 ∧ k ≠ 1 then some (k, p) else none)

/-- refine.py 144-153: one point on a side. -/
def cutSide [DecidableEq R] (rc : Vec F → R) (sqrt : F → F) (g : Grid F R) (t : Tri F) (f : Nat) (p : Vec F) : Res (Grid F R) := do
  let e ← findSide sqrt g f (sideOf sqrt t p)
  if (g.eFaces e).length = 2 then do
    let r ← g.cutEdge rc e p
    .ok r.1
  else do
    let r ← g.cutSingleEdge rc e p
    .ok r.1

/-- refine.py 165-182: two points on sides. Nothing happens if the sides are different. -/
def cutSide2 [DecidableEq R] (rc : Vec F → R) (sqrt : F → F) (g : Grid F R) (t : Tri F) (f : Nat) (p q : Vec F) : Res (Grid F R) :=
  if (sideOf sqrt t p).1.eq sqrt (sideOf sqrt t q).1 && (sideOf sqrt t p).2.eq sqrt (sideOf sqrt t q).2 then do
    let e ← findSide sqrt g f (sideOf sqrt t p)
    let r ← g.cutEdgeTwoNodes rc e p q
    .ok r.1
  else .ok g

/-- The cases of refine.py 135-220. -/
def rebuild [DecidableEq R] (rc : Vec F → R) (sqrt : F → F) (g : Grid F R) (t : Tri F) (f : Nat) : List (Nat × Vec F) → Res (Grid F R)
  | [(k, p)] => if k = 2 then cutSide rc sqrt g t f p else g.divideFace rc f p
  | [(k, p), (l, q)] => if k = 2 ∧ l = 2 then cutSide2 rc sqrt g t f p q else .ok g
  | _ => .ok g

/-- The body of the loop refine.py 118-220. -/
def refineFace [DecidableEq R] (rc : Vec F → R) (sqrt round10 : F → F) (g : Grid F R) (x : Tri F × List (Vec F)) : Res (Grid F R) :=
  match x.1.back with
  | none => .error .assertion
  | some f => rebuild rc sqrt g x.1 f (rebuilding sqrt round10 x.1 x.2)

/-- `refine`, refine.py 101-220. -/
def refine [DecidableEq R] (rc : Vec F → R) (sqrt round10 : F → F) (g : Grid F R) (l : List (Tri F × List (Vec F))) : Res (Grid F R) :=
  l.foldlM (refineFace rc sqrt round10) g

/-! ### The program, refine.py 18-269 -/

/-- `refine_grid` without files, refine.py 237-267. `addr t` is `id` of the triangle made for face `t`. -/
def refineGrid [DecidableEq R] (rc : Vec F → R) (sqrt round10 : F → F) (sort : List (Vec F) → List (Vec F)) (addr : Nat → Nat)
    (g : Grid F R) : Res (Grid F R) := do
  let ts ← g.faces.mapM g.triangle
  let cloud ← Cloud.ofList ts
  let l ← collect sort addr (Cloud.inter (Tri.intersectTriangle sqrt round10 sort) cloud cloud)
  refine rc sqrt round10 g l

/-- `refine_grid`, refine.py 18-269, from the text of the grid file to the text of the new file. -/
def refineText [DecidableEq R] (rc : Vec F → R) (c : Codec F) (sqrt round10 : F → F) (sort : List (Vec F) → List (Vec F)) (addr : Nat → Nat)
    (g0 : Grid F R) (text : Str) : Res Str := do
  let g ← Grid.loadText rc c true g0 text
  let g' ← refineGrid rc sqrt round10 sort addr g
  g'.storeText c 0

end Refine
end Verif
