import Verif.Model.Vect
import Mathlib.Algebra.Order.Field.Basic
import Mathlib.Data.List.Sort

/-! Geometry, `crysgsu/geom`: vectors, boxes, triangles and clouds of triangles.

Numbers are an ordered field `F` (the code has doubles): there is no rounding, no `nan` and no infinity. `sqrt` and `round` are
parameters wherever the code calls them. -/

namespace Verif
variable {F : Type}

/-! ### Vectors, `geom/vect.py` -/

namespace Vec
variable [Field F]

/-- `Vect.__add__`, vect.py 204-212. -/
def add (u v : Vec F) : Vec F := ⟨u.x + v.x, u.y + v.y, u.z + v.z⟩

/-- `Vect.__sub__`, vect.py 216-224. -/
def sub (u v : Vec F) : Vec F := ⟨u.x - v.x, u.y - v.y, u.z - v.z⟩

/-- `Vect.__mul__` with a number, vect.py 228-235 (and `__rmul__`, 239-246). -/
def smul (u : Vec F) (k : F) : Vec F := ⟨u.x * k, u.y * k, u.z * k⟩

/-- `Vect.__truediv__`, vect.py 250-258: `self * (1.0 / k)`. -/
def div [DecidableEq F] (u : Vec F) (k : F) : Res (Vec F) :=
  if k = 0 then .error .zeroDiv else .ok (u.smul (1 / k))

/-- `Vect.dot_product`, vect.py 294-303. -/
def dot (u v : Vec F) : F := u.x * v.x + u.y * v.y + u.z * v.z

/-- `Vect.cross_product`, vect.py 440-451. -/
def cross (u v : Vec F) : Vec F :=
  ⟨u.y * v.z - u.z * v.y, u.z * v.x - u.x * v.z, u.x * v.y - u.y * v.x⟩

/-- `Vect.mod2`, vect.py 307-314. -/
def mod2 (u : Vec F) : F := u.dot u

/-- `Vect.mod`, vect.py 318-325. -/
def mod (sqrt : F → F) (u : Vec F) : F := sqrt u.mod2

/-- `Vect.dist_to`, vect.py 329-337. -/
def distTo (sqrt : F → F) (u v : Vec F) : F := (u.sub v).mod sqrt

/-- `Vect.is_near`, vect.py 363-372. -/
def isNear [LinearOrder F] (sqrt : F → F) (u v : Vec F) (eps : F) : Bool := decide (u.distTo sqrt v < eps)

/-- `Vect.orth`, vect.py 376-383. -/
def orth [DecidableEq F] (sqrt : F → F) (u : Vec F) : Res (Vec F) := u.div (u.mod sqrt)

/-- `Vect.middle_point`, vect.py 453-467. The division by the literal 2 cannot raise. -/
def middlePoint (a b : Vec F) : Vec F := (a.add b).smul (1 / 2)

end Vec

/-! ### Boxes, `geom/box.py` -/

/-- `min(l)`: the first of the smallest elements, `ValueError` for an empty list. -/
def Py.minimum [LinearOrder F] : List F → Res F
  | [] => .error .value
  | x :: xs => .ok (xs.foldl (fun m y => if y < m then y else m) x)

/-- `max(l)`: the first of the largest elements, `ValueError` for an empty list. -/
def Py.maximum [LinearOrder F] : List F → Res F
  | [] => .error .value
  | x :: xs => .ok (xs.foldl (fun m y => if m < y then y else m) x)

/-- `Box`, box.py 11-35. -/
structure Box (F : Type) where
  minX : F
  minY : F
  minZ : F
  maxX : F
  maxY : F
  maxZ : F
deriving DecidableEq, Repr

/-- `Triangle`, triangle.py 14-31: three points and the reference to a face. `id` is the identity of the object, which
`intersection_with_triangle` compares. -/
structure Tri (F : Type) where
  id : Nat
  a : Vec F
  b : Vec F
  c : Vec F
  back : Option Nat
deriving DecidableEq, Repr

/-- The list `Points` of a triangle, triangle.py 30. -/
def Tri.points (t : Tri F) : List (Vec F) := [t.a, t.b, t.c]

namespace Box
variable [LinearOrder F]

/-- `Box.__init__`, box.py 18-35 (and `Box.from_points`, 40-48). -/
def ofPoints (ps : List (Vec F)) : Res (Box F) := do
  let minX ← Py.minimum (ps.map (·.x))
  let minY ← Py.minimum (ps.map (·.y))
  let minZ ← Py.minimum (ps.map (·.z))
  let maxX ← Py.maximum (ps.map (·.x))
  let maxY ← Py.maximum (ps.map (·.y))
  let maxZ ← Py.maximum (ps.map (·.z))
  .ok ⟨minX, minY, minZ, maxX, maxY, maxZ⟩

/-- `Box.from_triangles`, box.py 53-65. -/
def ofTriangles (ts : List (Tri F)) : Res (Box F) := ofPoints (ts.flatMap Tri.points)

/-- `Box.is_point_inside`, box.py 82-92. -/
def isPointInside (b : Box F) (p : Vec F) : Bool :=
  decide (p.x ≥ b.minX) && decide (p.x ≤ b.maxX) && decide (p.y ≥ b.minY) && decide (p.y ≤ b.maxY)
    && decide (p.z ≥ b.minZ) && decide (p.z ≤ b.maxZ)

/-- `Box.is_potential_intersect_with_box`, box.py 124-143. -/
def meetsBox (b o : Box F) : Bool :=
  let noX := decide (o.minX > b.maxX) || decide (o.maxX < b.minX)
  let noY := decide (o.minY > b.maxY) || decide (o.maxY < b.minY)
  let noZ := decide (o.minZ > b.maxZ) || decide (o.maxZ < b.minZ)
  if noX || noY || noZ then false else true

/-- `Box.is_intersect_with_segment`, box.py 96-120, for the segment `Segment(p, q)` (segment.py 16-25). -/
def meetsSegment (b : Box F) (p q : Vec F) : Res Bool := do
  let sb ← ofPoints [p, q]
  let noX := decide (sb.minX > b.maxX) || decide (sb.maxX < b.minX)
  let noY := decide (sb.minY > b.maxY) || decide (sb.maxY < b.minY)
  let noZ := decide (sb.minZ > b.maxZ) || decide (sb.maxZ < b.minZ)
  if noX || noY || noZ then .ok false else .ok true

end Box

/-! ### Triangles, `geom/triangle.py` -/

/-- A number or one of the two infinities; bounds of the intervals in `intersection_with_segment`. -/
inductive ExtNum (F : Type) where
  | negInf
  | fin (x : F)
  | posInf
deriving DecidableEq, Repr

namespace ExtNum
variable [Field F] [LinearOrder F]

/-- `x <= y`. -/
def le : ExtNum F → ExtNum F → Bool
  | negInf, _ => true
  | _, posInf => true
  | fin x, fin y => decide (x ≤ y)
  | _, _ => false

/-- `x < y`. -/
def lt (x y : ExtNum F) : Bool := !(y.le x)

/-- `x + k` for a finite `k`. -/
def add (k : F) : ExtNum F → ExtNum F
  | fin x => fin (x + k)
  | e => e

/-- The larger of two bounds (`np.max`). -/
def max (x y : ExtNum F) : ExtNum F := if x.le y then y else x

/-- The smaller of two bounds (`np.min`). -/
def min (x y : ExtNum F) : ExtNum F := if x.le y then x else y

/-- `math.isclose(x, y)` with the default tolerances (relative 1e-9, absolute 0) for a finite `y`. -/
def isClose (x : ExtNum F) (y : F) : Bool :=
  match x with
  | fin x => decide (x = y) || decide (|x - y| ≤ (1 / 10 ^ 9) * (if |x| < |y| then |y| else |x|))
  | _ => false

end ExtNum

namespace Tri
variable [Field F] [LinearOrder F]

/-- `Triangle.centroid`, triangle.py 103-110. The division by the literal 3.0 cannot raise. -/
def centroid (t : Tri F) : Vec F := ((t.a.add t.b).add t.c).smul (1 / 3)

/-- `Triangle.area`, triangle.py 79-86. -/
def area (sqrt : F → F) (t : Tri F) : F := 1 / 2 * ((t.b.sub t.a).cross (t.c.sub t.b)).mod sqrt

/-- `Triangle.normal_orth`, triangle.py 90-99. -/
def normalOrth (sqrt : F → F) (t : Tri F) : Res (Vec F) := ((t.b.sub t.a).cross (t.c.sub t.b)).orth sqrt

/-- `numpy.linalg.det` of the 3x3 matrix with the given rows (or columns), as the exact determinant. -/
def det3 (u v w : Vec F) : F :=
  u.x * (v.y * w.z - v.z * w.y) - u.y * (v.x * w.z - v.z * w.x) + u.z * (v.x * w.y - v.y * w.x)

/-- `numpy.linalg.det` of `[[a, b], [c, d]]`, as the exact determinant. -/
def det2 (a b c d : F) : F := a * d - b * c

/-- `Triangle.point_in_one_plane`, triangle.py 361-385. -/
def pointInOnePlane (t : Tri F) (p : Vec F) : Bool :=
  decide (det3 (p.sub t.a) (t.b.sub t.a) (t.c.sub t.a) = 0)

/-- `solve_the_linear_equation`, triangle.py 192-209: the numbers `x` with `0 <= a * x + b`; `none` is the empty list. -/
def solveLinear (a b : F) : Option (ExtNum F × ExtNum F) :=
  if a > 0 then some (.fin (-b / a), .posInf)
  else if a < 0 then some (.negInf, .fin (-b / a))
  else if b ≥ 0 then some (.negInf, .posInf)
  else none

/-- `intersection_of_intervals`, triangle.py 211-241. -/
def intersectIntervals (data : List (ExtNum F × ExtNum F)) (aps : F) : List (ExtNum F) :=
  match data with
  | [d0, d1, d2] =>
    let r0 := (d0.1.max d1.1).max d2.1
    let r1 := (d0.2.min d1.2).min d2.2
    if r1.lt (r0.add aps) || (r1.add aps).lt r0 || (ExtNum.lt (.fin 1) (r0.add (-aps)) && ExtNum.lt (.fin 1) r1)
        || (ExtNum.lt (r1.add aps) (.fin 0) && ExtNum.lt r0 (.fin 0)) then []
    else if r0.isClose 1 && ExtNum.lt (.fin 1) r1 then [r0]
    else if r1.isClose 0 && ExtNum.lt r0 (.fin 0) then [r1]
    else
      let r : ExtNum F × ExtNum F :=
        if ExtNum.le (r0.add (-aps)) (.fin 0) && ExtNum.le (.fin 1) (r1.add aps) then (.fin 0, .fin 1)
        else if ExtNum.le (r0.add (-aps)) (.fin 0) && ExtNum.lt r1 (.fin 1) then (.fin 0, r1)
        else if ExtNum.lt (.fin 0) r0 && ExtNum.le (.fin 1) (r1.add aps) then (r0, .fin 1)
        else (r0, r1)
      if [d0, d1, d2].all (fun d => (d.1.add (-aps)).le r.1 && r.2.le (d.2.add aps)) then [r.1, r.2] else []
  | _ => []

/-- The common part of the segment and a triangle in one plane, computed from the coordinates `i` and `j` when their determinant
`det` is not zero, triangle.py 279-314. The infinities cannot be in `fi` (`intersectIntervals_fin`), so their image does not
matter. -/
def coplanar (t : Tri F) (p q : Vec F) (i j : Fin 3) (det : F) : List (Vec F) :=
  let ba := t.b.sub t.a
  let ca := t.c.sub t.a
  let pa := p.sub t.a
  let qp := q.sub p
  let aAlf := det2 (qp.get i) (ca.get i) (qp.get j) (ca.get j) / det
  let bAlf := det2 (pa.get i) (ca.get i) (pa.get j) (ca.get j) / det
  let aBet := det2 (ba.get i) (qp.get i) (ba.get j) (qp.get j) / det
  let bBet := det2 (ba.get i) (pa.get i) (ba.get j) (pa.get j) / det
  let res := (solveLinear aAlf bAlf).toList ++ (solveLinear aBet bBet).toList
    ++ (solveLinear (-aAlf - aBet) (-bAlf - bBet + 1)).toList
  let fi := intersectIntervals res (1 / 10 ^ 10)
  fi.map (fun e => match e with | .fin k => p.add (qp.smul k) | _ => p)

/-- `Triangle.intersection_with_segment`, triangle.py 114-327, for the segment `Segment(p, q)`. The loops 271-273 try the pairs of
coordinates (0, 1), (0, 2), (1, 2) in this order. `inv(m).dot(pa)` is the exact solution of the linear system, written with
Cramer's rule. -/
def intersectSegment (round10 : F → F) (t : Tri F) (p q : Vec F) : List (Vec F) :=
  let ba := t.b.sub t.a
  let ca := t.c.sub t.a
  let pq := p.sub q
  let pa := p.sub t.a
  let d := det3 ba ca pq
  if |d| < 1 / 10 ^ 10 then
    if t.pointInOnePlane p && t.pointInOnePlane q then
      let det (i j : Fin 3) := round10 (det2 (ba.get i) (ca.get i) (ba.get j) (ca.get j))
      if det 0 1 ≠ 0 then t.coplanar p q 0 1 (det 0 1)
      else if det 0 2 ≠ 0 then t.coplanar p q 0 2 (det 0 2)
      else if det 1 2 ≠ 0 then t.coplanar p q 1 2 (det 1 2)
      else []
    else []
  else
    let alfa := det3 pa ca pq / d
    let beta := det3 ba pa pq / d
    let phi := det3 ba ca pa / d
    if (alfa ≥ 0 ∧ beta ≥ 0 ∧ alfa + beta ≤ 1) ∧ (phi ≥ 0 ∧ phi ≤ 1) then [p.sub (pq.smul phi)] else []

/-- Removal of neighbours that are equal up to 1e-10 (`Vect.__eq__`, vect.py 281-289), triangle.py 432: the list comprehension
compares every element with its left neighbour. -/
def dedup (sqrt : F → F) : List (Vec F) → List (Vec F)
  | [] => []
  | x :: xs => x :: ((x :: xs).zip xs).filterMap (fun (l, r) => if r.isNear sqrt l (1 / 10 ^ 10) then none else some r)

/-- `Triangle.intersection_with_triangle`, triangle.py 407-433. `sort` is `list.sort` with `Vect.__lt__`, which is not a total
order; the theorems assume only that `sort` permutes the list. -/
def intersectTriangle (sqrt round10 : F → F) (sort : List (Vec F) → List (Vec F)) (s t : Tri F) : List (Vec F) :=
  if s.id = t.id then [] else
    let res := s.intersectSegment round10 t.a t.b ++ s.intersectSegment round10 t.b t.c
      ++ s.intersectSegment round10 t.c t.a ++ t.intersectSegment round10 s.a s.b
      ++ t.intersectSegment round10 s.b s.c ++ t.intersectSegment round10 s.c s.a
    if res = [] then res else dedup sqrt (sort res)

/-- `Triangle.sorting_by_the_selected_axis`, triangle.py 464-480. `list.sort` is stable, and so is `insertionSort`. -/
def sortByAxis (ts : List (Tri F)) (axis : Fin 3) : List (Tri F) :=
  ts.insertionSort (fun s t => s.centroid.get axis ≤ t.centroid.get axis)

end Tri

/-! ### Clouds of triangles, `geom/triangles_cloud.py` -/

/-- `TrianglesCloud`, triangles_cloud.py 12-71: the box, the list `Triangles` and the list `Subclouds`. -/
inductive Cloud (F : Type) where
  | mk (box : Box F) (tris : List (Tri F)) (subs : List (Cloud F))

namespace Cloud

/-- Field `Box`, triangles_cloud.py 66. -/
def box : Cloud F → Box F | .mk b _ _ => b

/-- Field `Triangles`, triangles_cloud.py 60. -/
def tris : Cloud F → List (Tri F) | .mk _ ts _ => ts

/-- Field `Subclouds`, triangles_cloud.py 63. -/
def subs : Cloud F → List (Cloud F) | .mk _ _ cs => cs

/-- `is_list`, triangles_cloud.py 122-135. -/
def isList (c : Cloud F) : Res Bool :=
  if c.tris ≠ [] ∧ c.subs ≠ [] then .error (.exc "internal error") else .ok (!c.tris.isEmpty)

/-- Search of the first hit in the list of triangles, triangles_cloud.py 152-154. -/
def firstTri (hit : Tri F → List (Vec F)) : List (Tri F) → Option (Tri F)
  | [] => none
  | t :: ts => if hit t ≠ [] then some t else firstTri hit ts

variable [Field F] [LinearOrder F]

/-- The index of the longest side of a box, `lenxyz.index(np.amax(lenxyz))`, triangles_cloud.py 107-112: the first of the
longest. -/
def longAxis (b : Box F) : Fin 3 :=
  let lx := b.maxX - b.minX
  let ly := b.maxY - b.minY
  let lz := b.maxZ - b.minZ
  let m := max (max lx ly) lz
  if lx = m then 0 else if ly = m then 1 else 2

/-- The argument of `separate_triangles_list` after line 115: the list is sorted in place along the longest side of the box of
the centroids, triangles_cloud.py 102-115. -/
def sorted (ts : List (Tri F)) : Res (List (Tri F)) := do
  if ts.length > 1 then
    let box ← Box.ofPoints (ts.map Tri.centroid)
    .ok (Tri.sortByAxis ts (longAxis box))
  else .error .assertion

/-- `separate_triangles_list`, triangles_cloud.py 94-118. -/
def separate (ts : List (Tri F)) : Res (List (List (Tri F))) := do
  let ts ← sorted ts
  let mid := ts.length / 2
  .ok [ts.take mid, ts.drop mid]

/-- `TrianglesCloud.__init__` and `build_subclouds_tree`, triangles_cloud.py 52-90, with a bound for the depth of the recursion;
Python has such a bound too and raises `RecursionError`, a `RuntimeError`. `MaxListTrianglesCount` (48) is 1. -/
def build : Nat → List (Tri F) → Res (Cloud F)
  | 0, _ => .error .runtime
  | n + 1, ts => do
    let box ← Box.ofTriangles ts
    if ts.length > 1 then
      let ls ← separate ts
      let subs ← ls.mapM (build n)
      .ok (.mk box [] subs)
    else .ok (.mk box ts [])

/-- What `TrianglesCloud(ts)` leaves in the list object `ts` of the caller: it is sorted in place when it has more than one
triangle (the parts handed to the subclouds are copies), triangles_cloud.py 60, 82, 115 and triangle.py 479. -/
def argAfter (ts : List (Tri F)) : Res (List (Tri F)) := if ts.length > 1 then sorted ts else .ok ts

mutual
/-- `first_intersection_with_segment`, triangles_cloud.py 139-162, for the segment `Segment(p, q)`. `hit t` is
`t.intersection_with_segment(s)`. -/
def first (hit : Tri F → List (Vec F)) (p q : Vec F) : Cloud F → Res (Option (Tri F))
  | .mk box tris subs => do
    if !(← box.meetsSegment p q) then .ok none
    else if ← (Cloud.mk box tris subs).isList then .ok (firstTri hit tris)
    else firstSub hit p q subs
/-- The loop over the subclouds, triangles_cloud.py 156-159. -/
def firstSub (hit : Tri F → List (Vec F)) (p q : Vec F) : List (Cloud F) → Res (Option (Tri F))
  | [] => .ok none
  | c :: cs => do
    match ← first hit p q c with
    | some t => .ok (some t)
    | none => firstSub hit p q cs
end

/-- The double loop over two lists of triangles, triangles_cloud.py 195-205. `hit s t` is `s.intersection_with_triangle(t)`. -/
def pairs (hit : Tri F → Tri F → List (Vec F)) (ss ts : List (Tri F)) : List (Tri F × List (Vec F)) :=
  ss.flatMap (fun s => ts.flatMap (fun t => if hit s t ≠ [] then [(s, hit s t), (t, hit s t)] else []))

mutual
/-- `intersection_with_triangles_cloud` of a cloud without subclouds (box `b`, triangles `ss`), triangles_cloud.py 166-205: the
branches 185-205. -/
def interLeaf (hit : Tri F → Tri F → List (Vec F)) (b : Box F) (ss : List (Tri F)) : Cloud F → List (Tri F × List (Vec F))
  | .mk box tris subs =>
    if !(b.meetsBox box) then []
    else if !subs.isEmpty then interLeafSub hit b ss subs
    else pairs hit ss tris
/-- Line 186: the results for all subclouds of the argument. -/
def interLeafSub (hit : Tri F → Tri F → List (Vec F)) (b : Box F) (ss : List (Tri F)) :
    List (Cloud F) → List (Tri F × List (Vec F))
  | [] => []
  | c :: cs => interLeaf hit b ss c ++ interLeafSub hit b ss cs
end

mutual
/-- `intersection_with_triangles_cloud`, triangles_cloud.py 166-205. -/
def inter (hit : Tri F → Tri F → List (Vec F)) : Cloud F → Cloud F → List (Tri F × List (Vec F))
  | .mk box tris subs, tc =>
    if !(box.meetsBox tc.box) then []
    else if !subs.isEmpty then interSub hit subs tc
    else interLeaf hit box tris tc
/-- Line 183: the results for all subclouds of the cloud. -/
def interSub (hit : Tri F → Tri F → List (Vec F)) : List (Cloud F) → Cloud F → List (Tri F × List (Vec F))
  | [], _ => []
  | c :: cs, tc => inter hit c tc ++ interSub hit cs tc
end

end Cloud

/-- `TrianglesCloud(ts)` (triangles_cloud.py 52-71); depth `len(ts) + 1` is enough (theorem C42). -/
def Cloud.ofList [Field F] [LinearOrder F] (ts : List (Tri F)) : Res (Cloud F) := Cloud.build (ts.length + 1) ts

end Verif
