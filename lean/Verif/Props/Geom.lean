import Verif.Proofs.Geom
import Mathlib.Algebra.Order.Ring.Rat

/-! Properties C40-C45 and C61: boxes, clouds of triangles, intersections. -/

namespace Verif.Props
open Verif
variable {F : Type}

/-! ### C40: Box is the tight bounding box -/

/-- `Box(points)` is the smallest box with all the points. -/
theorem C40_box_tight [LinearOrder F] {ps : List (Vec F)} (h : ps ≠ []) : ∃ b, Box.ofPoints ps = .ok b ∧
    (∀ p ∈ ps, InBox b p) ∧ ∀ o : Box F, (∀ p ∈ ps, InBox o p) →
      o.minX ≤ b.minX ∧ o.minY ≤ b.minY ∧ o.minZ ≤ b.minZ ∧ b.maxX ≤ o.maxX ∧ b.maxY ≤ o.maxY ∧ b.maxZ ≤ o.maxZ := by
  obtain ⟨b, hb, hB, ⟨p1, q1, e1⟩, ⟨p2, q2, e2⟩, ⟨p3, q3, e3⟩, ⟨p4, q4, e4⟩, ⟨p5, q5, e5⟩, p6, q6, e6⟩ := ofPoints_ok h
  refine ⟨b, hb, hB.1, fun o ho => ?_⟩
  rw [e1, e2, e3, e4, e5, e6]
  exact ⟨(ho p1 q1).1.1, (ho p2 q2).2.1.1, (ho p3 q3).2.2.1, (ho p4 q4).1.2, (ho p5 q5).2.1.2, (ho p6 q6).2.2.2⟩

/-- `Box([])` raises `ValueError`. -/
theorem C40_box_empty [LinearOrder F] : Box.ofPoints ([] : List (Vec F)) = .error .value := rfl

/-- `Box.from_triangles` is the smallest box with the corners of all the triangles. -/
theorem C40_box_of_triangles [LinearOrder F] {ts : List (Tri F)} (h : ts ≠ []) : ∃ b, Box.ofTriangles ts = .ok b ∧
    (∀ t ∈ ts, InBox b t.a ∧ InBox b t.b ∧ InBox b t.c) ∧
    ∀ o : Box F, (∀ t ∈ ts, InBox o t.a ∧ InBox o t.b ∧ InBox o t.c) → ∀ p, InBox b p → InBox o p := by
  obtain ⟨b, hb, hB, -⟩ := ofPoints_ok (ps := ts.flatMap Tri.points) (by
    obtain ⟨t, l, rfl⟩ := List.exists_cons_of_ne_nil h
    simp [Tri.points])
  refine ⟨b, hb, fun t ht => ?_, fun o ho => hB.2 o ?_⟩
  · exact ⟨hB.1 _ (List.mem_flatMap.2 ⟨t, ht, by simp [Tri.points]⟩), hB.1 _ (List.mem_flatMap.2 ⟨t, ht, by simp [Tri.points]⟩),
      hB.1 _ (List.mem_flatMap.2 ⟨t, ht, by simp [Tri.points]⟩)⟩
  · intro p hp
    obtain ⟨t, ht, hpt⟩ := List.mem_flatMap.1 hp
    obtain ⟨h1, h2, h3⟩ := ho t ht
    simp only [Tri.points, List.mem_cons, List.not_mem_nil, or_false] at hpt
    rcases hpt with rfl | rfl | rfl <;> assumption

/-- `is_point_inside` answers whether the point lies in the box. -/
theorem C40_point_inside [LinearOrder F] (b : Box F) (p : Vec F) : b.isPointInside p = true ↔ InBox b p :=
  isPointInside_iff b p

example : Box.ofPoints [(⟨1, 5, 0⟩ : Vec ℚ), ⟨3, 2, 0⟩, ⟨2, 9, -1⟩] = .ok ⟨1, 2, -1, 3, 9, 0⟩ := by decide +kernel

/-! ### C41: box pre-checks never lose an intersection -/

/-- A segment with a point in the box passes the check of the box. -/
theorem C41_segment [Field F] [LinearOrder F] [IsStrictOrderedRing F] {b : Box F} {p q x : Vec F} (h1 : OnSegment p q x)
    (h2 : InBox b x) : b.meetsSegment p q = .ok true := meetsSegment_of h2 h1.inHull

/-- Two boxes (that are not empty) pass the check exactly if they have a common point. -/
theorem C41_boxes [LinearOrder F] {b o : Box F} (hb : ∃ x, InBox b x) (ho : ∃ x, InBox o x) :
    b.meetsBox o = true ↔ ∃ x, InBox b x ∧ InBox o x := by
  constructor
  · intro h
    obtain ⟨x, ⟨b1, b2⟩, ⟨b3, b4⟩, b5, b6⟩ := hb
    obtain ⟨y, ⟨o1, o2⟩, ⟨o3, o4⟩, o5, o6⟩ := ho
    simp only [Box.meetsBox, gt_iff_lt, Bool.or_eq_true, decide_eq_true_eq, Bool.if_false_left, Bool.and_true,
      Bool.not_eq_true', Bool.or_eq_false_iff, decide_eq_false_iff_not, not_lt] at h
    simp only [Bool.not_eq_eq_eq_not, imp_false, not_or, not_lt] at h
    obtain ⟨⟨⟨h1, h2⟩, h3, h4⟩, h5, h6⟩ := h
    refine ⟨⟨max b.minX o.minX, max b.minY o.minY, max b.minZ o.minZ⟩, ⟨⟨?_, ?_⟩, ⟨?_, ?_⟩, ?_, ?_⟩, ⟨?_, ?_⟩, ⟨?_, ?_⟩, ?_, ?_⟩
    · exact le_max_left _ _
    · exact max_le (b1.trans b2) h1
    · exact le_max_left _ _
    · exact max_le (b3.trans b4) h3
    · exact le_max_left _ _
    · exact max_le (b5.trans b6) h5
    · exact le_max_right _ _
    · exact max_le h2 (o1.trans o2)
    · exact le_max_right _ _
    · exact max_le h4 (o3.trans o4)
    · exact le_max_right _ _
    · exact max_le h6 (o5.trans o6)
  · rintro ⟨x, h1, h2⟩
    exact meetsBox_of h1 h2

/-- The check of a segment fails only if some coordinate separates both ends of the segment from the box. -/
theorem C41_segment_only [LinearOrder F] {b : Box F} {p q : Vec F} (hb : ∃ x, InBox b x)
    (h : b.meetsSegment p q = .ok true) : ∃ x, InBox b x ∧ ∀ o : Box F, InBox o p → InBox o q → InBox o x := by
  obtain ⟨sb, -, hB, e⟩ := meetsSegment_eq b p q
  rw [e] at h
  obtain ⟨x, h1, h2⟩ := (C41_boxes hb ⟨p, hB.1 p (by simp)⟩).1 (Except.ok.inj h)
  exact ⟨x, h1, fun o hp hq => hB.2 o (by simp [hp, hq]) x h2⟩

example : (⟨0, 0, 0, 1, 1, 1⟩ : Box ℚ).meetsSegment ⟨-1, 0, 0⟩ ⟨3, 2, 1⟩ = .ok true :=
  C41_segment (x := ⟨1, 1, 1 / 2⟩) ⟨1 / 2, by norm_num, by norm_num, by simp; norm_num⟩
    ⟨⟨by norm_num, by norm_num⟩, ⟨by norm_num, by norm_num⟩, by norm_num, by norm_num⟩

/-! ### C42: the cloud keeps all triangles and is well founded -/

section
variable [Field F] [LinearOrder F]

/-- `TrianglesCloud(ts)` terminates with a binary tree whose leaves hold exactly the triangles of the list; the box of every node
is the box of the triangles below it. -/
theorem C42_cloud {ts : List (Tri F)} (h : ts ≠ []) : ∃ c us, Cloud.ofList ts = .ok c ∧ TreeOf c us ∧ us.Perm ts :=
  build_ok ts.length ts h Nat.lt_two_pow_self.le

/-- The recursion is at most `n + 1` calls deep for `2 ^ n` triangles. -/
theorem C42_depth {ts : List (Tri F)} (h : ts ≠ []) {n : Nat} (hn : ts.length ≤ 2 ^ n) :
    ∃ c us, Cloud.build (n + 1) ts = .ok c ∧ TreeOf c us ∧ us.Perm ts := build_ok n ts h hn

/-- `TrianglesCloud([])` raises `ValueError`. -/
theorem C42_empty : Cloud.ofList ([] : List (Tri F)) = .error .value := rfl

/-! ### C61: the list given to TrianglesCloud is reordered -/

/-- `TrianglesCloud(ts)` reorders the list object it is given: afterwards it is a permutation of itself, sorted by the centroids
along an axis on which the box of the centroids is longest. -/
theorem C61_argument_sorted {ts : List (Tri F)} (h : 1 < ts.length) : ∃ us b i, Cloud.argAfter ts = .ok us ∧ us.Perm ts ∧
    Box.ofPoints (ts.map Tri.centroid) = .ok b ∧ (∀ j, b.side j ≤ b.side i) ∧
    us.Pairwise (fun s t => s.centroid.get i ≤ t.centroid.get i) := by
  obtain ⟨i, b, hb, hi, hs⟩ := sorted_ok h
  refine ⟨_, b, i, by simp [Cloud.argAfter, h, hs], sortByAxis_perm ts i, hb, fun j => hi ▸ longest_axis b j, ?_⟩
  haveI : IsTrans (Tri F) (fun s t => s.centroid.get i ≤ t.centroid.get i) := ⟨fun _ _ _ h1 h2 => le_trans h1 h2⟩
  haveI : Std.Total (fun s t : Tri F => s.centroid.get i ≤ t.centroid.get i) := ⟨fun _ _ => le_total _ _⟩
  exact List.pairwise_insertionSort _ _
end

/-- Two triangles in the "wrong" order along the longest axis. -/
def two : List (Tri ℚ) := [⟨0, ⟨5, 0, 0⟩, ⟨6, 0, 0⟩, ⟨5, 1, 0⟩, none⟩, ⟨1, ⟨0, 0, 0⟩, ⟨1, 0, 0⟩, ⟨0, 1, 0⟩, none⟩]

example : Cloud.argAfter two = .ok two.reverse := by decide +kernel

/-! ### C43: cloud search agrees with linear search -/

section
variable [Field F] [LinearOrder F] [IsStrictOrderedRing F]

/-- The search of the cloud never raises; a triangle it returns is in the list and is hit by the segment; if it returns `None`,
no triangle of the list that has a common point with the segment passes the test of the linear search. -/
theorem C43_search {round10 : F → F} {ts : List (Tri F)} {c : Cloud F} (hc : Cloud.ofList ts = .ok c) (p q : Vec F) :
    ∃ r, Cloud.first (fun t => t.intersectSegment round10 p q) p q c = .ok r ∧
      (∀ t, r = some t → t ∈ ts ∧ t.intersectSegment round10 p q ≠ []) ∧
      (r = none → ∀ t ∈ ts, Meets t p q → t.intersectSegment round10 p q = []) := by
  have hn : ts ≠ [] := by rintro rfl; rw [C42_empty] at hc; cases hc
  obtain ⟨c', us, e, hT, hp⟩ := C42_cloud hn
  rw [hc] at e
  obtain rfl := Except.ok.inj e
  obtain ⟨r, h1, h2, h3⟩ := first_ok (hit := fun t => t.intersectSegment round10 p q) (p := p) (q := q) hT
  exact ⟨r, h1, fun t ht => ⟨hp.mem_iff.1 (h2 t ht).1, (h2 t ht).2⟩,
    fun hr t ht hm => h3 hr t (hp.mem_iff.2 ht) hm.touches⟩

/-- Missing for C43: segments that lie in the plane of some triangle of the list, see `C43_coplanar_violation`. For all others
the search returns `None` iff the linear search finds no triangle. -/
theorem C43_agrees_partial {round10 : F → F} {ts : List (Tri F)} {c : Cloud F} (hc : Cloud.ofList ts = .ok c) {p q : Vec F}
    (hpl : ∀ t ∈ ts, ¬ (InPlane t p ∧ InPlane t q)) :
    ∃ r, Cloud.first (fun t => t.intersectSegment round10 p q) p q c = .ok r ∧
      (r = none ↔ ∀ t ∈ ts, t.intersectSegment round10 p q = []) := by
  obtain ⟨r, h1, h2, h3⟩ := C43_search (round10 := round10) hc p q
  refine ⟨r, h1, fun hr t ht => ?_, fun h => ?_⟩
  · by_contra hh
    exact hh (h3 hr t ht (hit_meets (hpl t ht) hh))
  · cases r with
    | none => rfl
    | some t => exact absurd (h t (h2 t rfl).1) (h2 t rfl).2

/-- For a segment that is well away from being parallel to the triangles, `None` means that it meets none of them. -/
theorem C43_none_iff_partial {round10 : F → F} {ts : List (Tri F)} {c : Cloud F} (hc : Cloud.ofList ts = .ok c) {p q : Vec F}
    (hv : ∀ t ∈ ts, 1 / 10 ^ 10 ≤ |volume t p q|) :
    ∃ r, Cloud.first (fun t => t.intersectSegment round10 p q) p q c = .ok r ∧ (r = none ↔ ∀ t ∈ ts, ¬ Meets t p q) ∧
      ∀ t, r = some t → t ∈ ts ∧ Meets t p q := by
  obtain ⟨r, h1, h2, h3⟩ := C43_search (round10 := round10) hc p q
  have key : ∀ t ∈ ts, t.intersectSegment round10 p q ≠ [] ↔ Meets t p q := by
    intro t ht
    constructor
    · intro h
      obtain ⟨x, hx⟩ := List.exists_mem_of_ne_nil _ h
      exact ⟨x, ((intersectSegment_general (hv t ht)).2 x).1 hx⟩
    · rintro ⟨x, hx⟩
      exact List.ne_nil_of_mem (((intersectSegment_general (r := round10) (hv t ht)).2 x).2 hx)
  refine ⟨r, h1, ⟨fun hr t ht hm => (key t ht).2 hm (h3 hr t ht hm), fun h => ?_⟩, fun t ht => ?_⟩
  · cases r with
    | none => rfl
    | some t => exact absurd ((key t (h2 t rfl).1).1 (h2 t rfl).2) (h t (h2 t rfl).1)
  · exact ⟨(h2 t ht).1, (key t (h2 t ht).1).1 (h2 t ht).2⟩
end

/-- The triangle with the corners (0, 0), (1, 0), (0, 1) of the plane z = 0. -/
def corner : Tri ℚ := ⟨0, ⟨0, 0, 0⟩, ⟨1, 0, 0⟩, ⟨0, 1, 0⟩, none⟩

/-- A segment in the plane of a triangle that ends 1e-11 before it: `intersection_with_segment` accepts it because of its
tolerances, but the check of the box rejects it, so the search of the cloud finds nothing. -/
theorem C43_coplanar_violation (round10 : ℚ → ℚ) (h1 : round10 1 = 1) :
    ∃ (c : Cloud ℚ) (p q : Vec ℚ), Cloud.ofList [corner] = .ok c ∧
      Cloud.first (fun t => t.intersectSegment round10 p q) p q c = .ok none ∧ corner.intersectSegment round10 p q ≠ [] := by
  refine ⟨.mk ⟨0, 0, 0, 1, 1, 0⟩ [corner] [], ⟨-1, 1 / 4, 0⟩, ⟨-1 / 10 ^ 11, 1 / 4, 0⟩, ?_, ?_, ?_⟩
  · have : Box.ofTriangles [corner] = .ok ⟨0, 0, 0, 1, 1, 0⟩ := by decide +kernel
    simp [Cloud.ofList, Cloud.build, this, res_bind_ok]
  · have : (⟨0, 0, 0, 1, 1, 0⟩ : Box ℚ).meetsSegment ⟨-1, 1 / 4, 0⟩ ⟨-1 / 10 ^ 11, 1 / 4, 0⟩ = .ok false := by decide +kernel
    rw [Cloud.first, this]; rfl
  · have e1 : Tri.det2 ((corner.b.sub corner.a).get 0) ((corner.c.sub corner.a).get 0) ((corner.b.sub corner.a).get 1)
        ((corner.c.sub corner.a).get 1) = 1 := by decide +kernel
    have e2 : corner.coplanar ⟨-1, 1 / 4, 0⟩ ⟨-1 / 10 ^ 11, 1 / 4, 0⟩ 0 1 1 ≠ [] := by decide +kernel
    simp only [Tri.intersectSegment, e1, h1]
    rw [if_pos (by decide +kernel), if_pos (by decide +kernel), if_pos (by decide)]
    exact e2

/-! ### C44: cloud-cloud intersection reports all pairs -/

section
variable [Field F] [LinearOrder F] [IsStrictOrderedRing F]

/-- The entries reported by the clouds are among those of the double loop, with multiplicity. -/
theorem C44_only_pairs {hit : Tri F → Tri F → List (Vec F)} {ss ts : List (Tri F)} {c d : Cloud F} (hc : Cloud.ofList ss = .ok c)
    (hd : Cloud.ofList ts = .ok d) : ∃ lost, (Cloud.inter hit c d ++ lost).Perm (doubleLoop hit ss ts) := by
  have hs : ss ≠ [] := by rintro rfl; rw [C42_empty] at hc; cases hc
  have ht : ts ≠ [] := by rintro rfl; rw [C42_empty] at hd; cases hd
  obtain ⟨c', us, e, hT, hp⟩ := C42_cloud hs
  rw [hc] at e
  obtain rfl := Except.ok.inj e
  obtain ⟨d', vs, e, hT', hp'⟩ := C42_cloud ht
  rw [hd] at e
  obtain rfl := Except.ok.inj e
  obtain ⟨lost, h, -⟩ := inter_between (hit := hit) hT hT'
  exact ⟨lost, by rw [← pairs_doubleLoop]; exact h.trans (pairs_perm hit hp hp')⟩

/-- If the test of two triangles succeeds only for triangles with a common point, the clouds report exactly the entries of the
double loop, each as often. -/
theorem C44_all_pairs {hit : Tri F → Tri F → List (Vec F)} {ss ts : List (Tri F)} {c d : Cloud F} (hc : Cloud.ofList ss = .ok c)
    (hd : Cloud.ofList ts = .ok d) (hh : ∀ s ∈ ss, ∀ t ∈ ts, hit s t ≠ [] → Share s t) :
    (Cloud.inter hit c d).Perm (doubleLoop hit ss ts) := by
  have hs : ss ≠ [] := by rintro rfl; rw [C42_empty] at hc; cases hc
  have ht : ts ≠ [] := by rintro rfl; rw [C42_empty] at hd; cases hd
  obtain ⟨c', us, e, hT, hp⟩ := C42_cloud hs
  rw [hc] at e
  obtain rfl := Except.ok.inj e
  obtain ⟨d', vs, e, hT', hp'⟩ := C42_cloud ht
  rw [hd] at e
  obtain rfl := Except.ok.inj e
  obtain ⟨lost, h, hl⟩ := inter_between (hit := hit) hT hT'
  rw [hl (fun s hs t ht h => (hh s (hp.mem_iff.1 hs) t (hp'.mem_iff.1 ht) h).boxesMeet), List.append_nil] at h
  rw [← pairs_doubleLoop]
  exact h.trans (pairs_perm hit hp hp')

/-- Missing for C44: triangles with a side in the plane of a triangle of the other cloud, see `C44_coplanar_violation`. For all
others the test of the code is as good as required by `C44_all_pairs`. -/
theorem C44_reports_partial {sqrt round10 : F → F} {sort : List (Vec F) → List (Vec F)} (hsort : ∀ l, (sort l).Perm l)
    {ss ts : List (Tri F)} {c d : Cloud F} (hc : Cloud.ofList ss = .ok c) (hd : Cloud.ofList ts = .ok d)
    (ha : ∀ s ∈ ss, ∀ t ∈ ts, Apart s t) :
    (Cloud.inter (Tri.intersectTriangle sqrt round10 sort) c d).Perm (doubleLoop (Tri.intersectTriangle sqrt round10 sort) ss ts) :=
  C44_all_pairs hc hd (fun s hs t ht h => hit_share hsort (ha s hs t ht) h)
end

/-- A triangle of the plane of `corner`, 1e-11 beside it. -/
def beside : Tri ℚ := ⟨1, ⟨-1, 1 / 4, 0⟩, ⟨-1 / 10 ^ 11, 1 / 4, 0⟩, ⟨-1, 1 / 2, 0⟩, none⟩

/-- Two triangles of one plane at a distance of 1e-11: the double loop reports the pair, the clouds do not. -/
theorem C44_coplanar_violation (sqrt round10 : ℚ → ℚ) (h1 : round10 1 = 1) (sort : List (Vec ℚ) → List (Vec ℚ))
    (hsort : ∀ l, (sort l).Perm l) : ∃ c d : Cloud ℚ, Cloud.ofList [corner] = .ok c ∧ Cloud.ofList [beside] = .ok d ∧
      Cloud.inter (Tri.intersectTriangle sqrt round10 sort) c d = [] ∧
      doubleLoop (Tri.intersectTriangle sqrt round10 sort) [corner] [beside] ≠ [] := by
  have b1 : Box.ofTriangles [corner] = .ok ⟨0, 0, 0, 1, 1, 0⟩ := by decide +kernel
  have b2 : Box.ofTriangles [beside] = .ok ⟨-1, 1 / 4, 0, -1 / 10 ^ 11, 1 / 2, 0⟩ := by decide +kernel
  refine ⟨.mk ⟨0, 0, 0, 1, 1, 0⟩ [corner] [], .mk ⟨-1, 1 / 4, 0, -1 / 10 ^ 11, 1 / 2, 0⟩ [beside] [], ?_, ?_, ?_, ?_⟩
  · simp [Cloud.ofList, Cloud.build, b1, res_bind_ok]
  · simp [Cloud.ofList, Cloud.build, b2, res_bind_ok]
  · have : (⟨0, 0, 0, 1, 1, 0⟩ : Box ℚ).meetsBox ⟨-1, 1 / 4, 0, -1 / 10 ^ 11, 1 / 2, 0⟩ = false := by decide +kernel
    rw [Cloud.inter, Cloud.box, this]; rfl
  · have hit : corner.intersectTriangle sqrt round10 sort beside ≠ [] := by
      rw [Ne, intersectTriangle_eq_nil hsort]
      rintro (h | ⟨h, -⟩)
      · exact absurd h (by decide)
      · have e1 : Tri.det2 ((corner.b.sub corner.a).get 0) ((corner.c.sub corner.a).get 0) ((corner.b.sub corner.a).get 1)
            ((corner.c.sub corner.a).get 1) = 1 := by decide +kernel
        have e2 : corner.coplanar beside.a beside.b 0 1 1 ≠ [] := by decide +kernel
        simp only [Tri.intersectSegment, e1, h1] at h
        rw [if_pos (by decide +kernel), if_pos (by decide +kernel), if_pos (by decide)] at h
        exact e2 h
    simp [doubleLoop, hit, List.product]

/-! ### C45: triangle-segment intersection -/

section
variable [Field F] [LinearOrder F] [IsStrictOrderedRing F]

/-- Missing for C45: determinants between 0 and 1e-10, see `C45_small_violation`. For all larger ones the result is exactly the
list of the common points, and there is at most one. -/
theorem C45_exact_partial {round10 : F → F} {t : Tri F} {p q : Vec F} (h : 1 / 10 ^ 10 ≤ |volume t p q|) :
    (t.intersectSegment round10 p q).length ≤ 1 ∧
      ∀ x, x ∈ t.intersectSegment round10 p q ↔ OnSegment p q x ∧ InTriangle t x := intersectSegment_general h

/-- Nothing is found if the determinant is less than 1e-10. -/
theorem C45_small {round10 : F → F} {t : Tri F} {p q : Vec F} (h0 : volume t p q ≠ 0) (h : |volume t p q| < 1 / 10 ^ 10) :
    t.intersectSegment round10 p q = [] := intersectSegment_small h0 h
end

/-- A triangle with sides of 0.1 mm (in metres) and a segment of 0.2 mm through it: the intersection is not found. -/
theorem C45_small_violation (round10 : ℚ → ℚ) : ∃ (t : Tri ℚ) (p q : Vec ℚ), volume t p q ≠ 0 ∧ Meets t p q ∧
    t.intersectSegment round10 p q = [] := by
  refine ⟨⟨0, ⟨0, 0, 0⟩, ⟨1 / 10 ^ 4, 0, 0⟩, ⟨0, 1 / 10 ^ 4, 0⟩, none⟩, ⟨1 / (3 * 10 ^ 4), 1 / (3 * 10 ^ 4), 1 / 10 ^ 4⟩,
    ⟨1 / (3 * 10 ^ 4), 1 / (3 * 10 ^ 4), -1 / 10 ^ 4⟩, by simp [volume]; norm_num, ?_, ?_⟩
  · refine ⟨⟨1 / (3 * 10 ^ 4), 1 / (3 * 10 ^ 4), 0⟩, ⟨1 / 2, by norm_num, by norm_num, by simp; norm_num⟩,
      ⟨1 / 3, 1 / 3, 1 / 3, by norm_num, by norm_num, by norm_num, by norm_num, by simp; norm_num⟩⟩
  · exact C45_small (by simp [volume]; norm_num) (by simp only [volume]; norm_num [abs_of_pos])

example : (corner.intersectSegment id ⟨1 / 4, 1 / 4, 1⟩ ⟨1 / 4, 1 / 4, -1⟩) = [⟨1 / 4, 1 / 4, 0⟩] := by decide +kernel
example : (1 : ℚ) / 10 ^ 10 ≤ |volume corner ⟨1 / 4, 1 / 4, 1⟩ ⟨1 / 4, 1 / 4, -1⟩| := by simp [volume, corner]; norm_num
example : ∀ t ∈ [corner], ¬ (InPlane t ⟨1 / 4, 1 / 4, 1⟩ ∧ InPlane t ⟨1 / 4, 1 / 4, -1⟩) := by
  simp [InPlane, volume, corner]

/-- A triangle that crosses `corner`. -/
def crossing : Tri ℚ := ⟨1, ⟨1 / 4, 1 / 4, -1⟩, ⟨1 / 4, 1 / 3, 1⟩, ⟨2, 2, 3⟩, none⟩

example : Apart corner crossing := by
  simp [Apart, InPlane, volume, corner, crossing]; norm_num

end Verif.Props
