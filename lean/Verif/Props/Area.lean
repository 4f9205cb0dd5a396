import Verif.Proofs.Area
import Verif.Proofs.AreaRefine
import Verif.Proofs.Drops
import Verif.Props.RefineMain
import Mathlib.Analysis.Real.Sqrt

/-! Property C109: sums over the surface.  `sqrt` is the square root; `surfaceSum` adds area times a quantity `q` that depends on the data
and the zone of a face: with `q = 1` it is the area of the surface, with `q` the height of ice it is the volume of ice. -/

namespace Verif.Props
open Verif Grid
variable {F R : Type} [Field F] [LinearOrder F] [IsStrictOrderedRing F] [DecidableEq R] {sqrt : F → F}

omit [IsStrictOrderedRing F] [DecidableEq R] in
/-- The area of the specification is the one of `face.get_triangle().area()`. -/
theorem C109_area {g : Grid F R} (m : Mesh g) {f : Nat} (hf : f ∈ g.faces) : Ice.area sqrt g f = .ok (faceArea sqrt g f) := by
  obtain ⟨a, b, c, hx⟩ := List.length_eq_three.1 (m.face_nodes f hf).1
  unfold Ice.area
  cases ht : g.triangle f with
  | error e => unfold Grid.triangle at ht; rw [hx] at ht; cases ht
  | ok t =>
    rw [res_bind_ok, triangle_area ht (by rw [hx]; rfl)]

/-- `divide_face` at a point of the face keeps all sums over the surface. -/
theorem C109_divide_face (hs : ∀ x, 0 ≤ x → 0 ≤ sqrt x ∧ sqrt x * sqrt x = x) {rc : Vec F → R} {g : Grid F R} (G : Good rc g) {f : Nat} {p : Vec F}
    (hf : f ∈ g.faces) (hi : InFace g f p) (hp : NewPlace rc g p) (q : List (Str × F) → Option Nat → F) :
    ∃ g', g.divideFace rc f p = .ok g' ∧ surfaceSum sqrt g' q = surfaceSum sqrt g q := by
  obtain ⟨a, b, c, s, t, u, hn, h1, h2, h3, h4, rfl⟩ := hi
  obtain ⟨g', hr, _, hq⟩ := divide_sum hs G hf hn h4 hp q
  refine ⟨g', hr, ?_⟩
  rw [hq, abs_of_nonneg h1, abs_of_nonneg h2, abs_of_nonneg h3, h4]
  ring

/-- `divide_face` at a point `s a + t b + u c` of the plane, in the face or not: how much the sums change. -/
theorem C109_divide_face_anywhere (hs : ∀ x, 0 ≤ x → 0 ≤ sqrt x ∧ sqrt x * sqrt x = x) {rc : Vec F → R} {g : Grid F R} (G : Good rc g) {f a b c : Nat}
    (hf : f ∈ g.faces) (hn : g.fNodes f = [a, b, c]) {s t u : F} (h1 : s + t + u = 1)
    (hp : NewPlace rc g (mix s (g.nP a) t (g.nP b) u (g.nP c))) (q : List (Str × F) → Option Nat → F) :
    ∃ g', g.divideFace rc f (mix s (g.nP a) t (g.nP b) u (g.nP c)) = .ok g' ∧
      surfaceSum sqrt g' q = surfaceSum sqrt g q + (|s| + |t| + |u| - 1) * (faceArea sqrt g f * q (g.fData f) (g.fZone f)) := by
  obtain ⟨g', hr, _, hq⟩ := divide_sum hs G hf hn h1 hp q
  exact ⟨g', hr, hq⟩

/-- `cut_single_edge` at a point of the edge keeps all sums over the surface. -/
theorem C109_cut_single_edge (hs : ∀ x, 0 ≤ x → 0 ≤ sqrt x ∧ sqrt x * sqrt x = x) {rc : Vec F → R} {g : Grid F R} (G : Good rc g) {e : Nat} {p : Vec F}
    (he : e ∈ g.edges) (h1 : (g.eFaces e).length = 1) (hi : OnEdge g e p) (hp : NewPlace rc g p) (q : List (Str × F) → Option Nat → F) :
    ∃ g', g.cutSingleEdge rc e p = .ok (g', true) ∧ surfaceSum sqrt g' q = surfaceSum sqrt g q := by
  obtain ⟨f, hf⟩ := List.length_eq_one_iff.1 h1
  obtain ⟨a, b, t, hn, t0, t1, rfl⟩ := hi
  obtain ⟨g', hr, _, hq⟩ := cutBorder_sum hs G he hf hn hp q
  refine ⟨g', ?_, ?_⟩
  · unfold cutSingleEdge
    rw [if_pos h1, hr]; rfl
  · rw [hq, abs_of_nonneg t0, abs_of_nonneg (by linarith)]
    ring

/-- `cut_edge` at a point of the edge keeps all sums over the surface; sums over single zones only if both faces of the edge are in one
zone. -/
theorem C109_cut_edge (hs : ∀ x, 0 ≤ x → 0 ≤ sqrt x ∧ sqrt x * sqrt x = x) {rc : Vec F → R} {g : Grid F R} (G : Good rc g) {e : Nat} {p : Vec F}
    (he : e ∈ g.edges) (h2 : (g.eFaces e).length = 2) (hi : OnEdge g e p) (hp : NewPlace rc g p) (q : List (Str × F) → Option Nat → F)
    (hq : OneZone g e ∨ ∀ d z z', q d z = q d z') :
    ∃ g', g.cutEdge rc e p = .ok (g', true) ∧ surfaceSum sqrt g' q = surfaceSum sqrt g q := by
  obtain ⟨f, h, hf⟩ := List.length_eq_two.1 h2
  obtain ⟨a, b, t, hn, t0, t1, rfl⟩ := hi
  obtain ⟨g', hr, _, hq⟩ := cutInner_sum hs G he hf hn hp q hq
  refine ⟨g', ?_, ?_⟩
  · unfold cutEdge
    rw [if_pos h2, hr]; rfl
  · rw [hq, abs_of_nonneg t0, abs_of_nonneg (by linarith)]
    ring

/-- `cut_edge_with_two_nodes` at two points of the line through the edge, at the parts `s` and `t` of the way from its first to its
second end: how much the sums change. -/
theorem C109_cut_two_anywhere (hs : ∀ x, 0 ≤ x → 0 ≤ sqrt x ∧ sqrt x * sqrt x = x) {rc : Vec F → R} {g : Grid F R} (G : Good rc g) {e a b : Nat}
    (he : e ∈ g.edges) (hn : g.eNodes e = [a, b]) {s t : F}
    (hp1 : NewPlace rc g (along (g.nP a) (g.nP b) s)) (hp2 : NewPlace rc g (along (g.nP a) (g.nP b) t))
    (hpp : rc (along (g.nP a) (g.nP b) t) ≠ rc (along (g.nP a) (g.nP b) s)) (q : List (Str × F) → Option Nat → F)
    (hq : OneZone g e ∨ ∀ d z z', q d z = q d z') :
    ∃ g', g.cutEdgeTwoNodes rc e (along (g.nP a) (g.nP b) s) (along (g.nP a) (g.nP b) t) = .ok (g', true) ∧
      surfaceSum sqrt g' q = surfaceSum sqrt g q + (|s| + |t - s| + |1 - t| - 1) *
        ((g.eFaces e).map (fun f => faceArea sqrt g f * q (g.fData f) (g.fZone f))).sum := by
  rcases (G.mesh.edge_faces e he).1 with h1 | h1
  · obtain ⟨f, hf⟩ := List.length_eq_one_iff.1 h1
    obtain ⟨g', hr, _, hq⟩ := cutBorder2_sum hs G he hf hn hp1 hp2 hpp q
    refine ⟨g', ?_, hq⟩
    unfold cutEdgeTwoNodes
    rw [if_pos h1, hr]; rfl
  · obtain ⟨f, h, hf⟩ := List.length_eq_two.1 h1
    obtain ⟨g', hr, _, hq⟩ := cutInner2_sum hs G he hf hn hp1 hp2 hpp q hq
    refine ⟨g', ?_, hq⟩
    unfold cutEdgeTwoNodes
    rw [if_neg (by omega), if_pos h1, hr]; rfl

/-- `cut_edge_with_two_nodes` at two points of the edge, in the order of its ends, keeps all sums over the surface. -/
theorem C109_cut_two_partial (hs : ∀ x, 0 ≤ x → 0 ≤ sqrt x ∧ sqrt x * sqrt x = x) {rc : Vec F → R} {g : Grid F R} (G : Good rc g) {e : Nat} {p1 p2 : Vec F}
    (he : e ∈ g.edges) (hi : OnEdge2 g e p1 p2) (hp1 : NewPlace rc g p1) (hp2 : NewPlace rc g p2) (hpp : rc p2 ≠ rc p1)
    (q : List (Str × F) → Option Nat → F) (hq : OneZone g e ∨ ∀ d z z', q d z = q d z') :
    ∃ g', g.cutEdgeTwoNodes rc e p1 p2 = .ok (g', true) ∧ surfaceSum sqrt g' q = surfaceSum sqrt g q := by
  obtain ⟨a, b, s, t, hn, s0, st, t1, rfl, rfl⟩ := hi
  obtain ⟨g', hr, hq⟩ := C109_cut_two_anywhere hs G he hn hp1 hp2 hpp q hq
  refine ⟨g', hr, ?_⟩
  rw [hq, abs_of_nonneg s0, abs_of_nonneg (sub_nonneg.2 st), abs_of_nonneg (sub_nonneg.2 t1)]
  ring

/-- With the points of the edge in the other order the new faces overlap, and the area of the surface grows. -/
theorem C109_order_violation (hs : ∀ x, 0 ≤ x → 0 ≤ sqrt x ∧ sqrt x * sqrt x = x) {rc : Vec F → R} {g : Grid F R} (G : Good rc g) {e : Nat} {p1 p2 : Vec F}
    (he : e ∈ g.edges) (hi : OnEdge2 g e p2 p1) (hp1 : NewPlace rc g p1) (hp2 : NewPlace rc g p2) (hpp : rc p2 ≠ rc p1)
    {f : Nat} (hf : f ∈ g.eFaces e) (ha : faceArea sqrt g f ≠ 0) :
    ∃ g', g.cutEdgeTwoNodes rc e p1 p2 = .ok (g', true) ∧ surfaceSum sqrt g (fun _ _ => 1) < surfaceSum sqrt g' (fun _ _ => 1) := by
  obtain ⟨a, b, s, t, hn, s0, st, t1, rfl, rfl⟩ := hi
  obtain ⟨g', hr, hq⟩ := C109_cut_two_anywhere hs G he hn hp1 hp2 hpp (fun _ _ => 1) (Or.inr (fun _ _ _ => rfl))
  refine ⟨g', hr, ?_⟩
  have hne : s ≠ t := by rintro rfl; exact hpp rfl
  have hst : s < t := lt_of_le_of_ne st hne
  have pos : ∀ k ∈ g.eFaces e, 0 ≤ faceArea sqrt g k := by
    intro k hk
    obtain ⟨x, y, z, hx⟩ := List.length_eq_three.1 (G.mesh.face_nodes k ((G.mesh.edge_face e he k).1 hk).1).1
    rw [faceArea_eq hx]
    exact triArea_nonneg hs _ _ _
  have hsum : 0 < ((g.eFaces e).map (fun k => faceArea sqrt g k * 1)).sum := by
    simp only [mul_one]
    refine lt_of_lt_of_le (lt_of_le_of_ne (pos f hf) (Ne.symm ha)) ?_
    exact List.single_le_sum (by simpa using pos) _ (List.mem_map_of_mem hf)
  rw [hq, abs_of_nonneg (by linarith : (0 : F) ≤ t), abs_of_neg (by linarith : s - t < 0), abs_of_nonneg (by linarith : (0 : F) ≤ 1 - s)]
  have : 0 < (t + -(s - t) + (1 - s) - 1) * ((g.eFaces e).map (fun k => faceArea sqrt g k * 1)).sum := mul_pos (by linarith) hsum
  linarith

/-- Any number of divisions and cuts at points of faces and edges: the grid is consistent and all sums over the surface are kept. -/
theorem C109_sequence (hs : ∀ x, 0 ≤ x → 0 ≤ sqrt x ∧ sqrt x * sqrt x = x) {rc : Vec F → R} {keep : Prop} {g g' : Grid F R} (G : Good rc g)
    (h : Parts rc keep g g') (q : List (Str × F) → Option Nat → F) (hq : keep ∨ ∀ d z z', q d z = q d z') :
    Good rc g' ∧ surfaceSum sqrt g' q = surfaceSum sqrt g q := by
  have oz : ∀ {h : Grid F R} {e : Nat}, (keep → OneZone h e) → (OneZone h e ∨ ∀ d z z', q d z = q d z') := fun k => hq.imp_left k
  induction h with
  | refl => exact ⟨G, rfl⟩
  | divide _ hf hi hp hr ih =>
    obtain ⟨G1, e1⟩ := ih
    obtain ⟨a, b, c, s, t, u, hn, h1, h2, h3, h4, rfl⟩ := hi
    obtain ⟨g2, hr2, G2, e2⟩ := divide_sum hs G1 hf hn h4 hp q
    rw [hr] at hr2
    cases hr2
    refine ⟨G2, ?_⟩
    rw [e2, e1, abs_of_nonneg h1, abs_of_nonneg h2, abs_of_nonneg h3, h4]
    ring
  | single _ he hi hp hr ih =>
    obtain ⟨G1, e1⟩ := ih
    obtain ⟨a, b, t, hn, t0, t1, rfl⟩ := hi
    unfold cutSingleEdge at hr
    split at hr
    · rename_i h1
      obtain ⟨f, hf⟩ := List.length_eq_one_iff.1 h1
      obtain ⟨g2, hr2, G2, e2⟩ := cutBorder_sum hs G1 he hf hn hp q
      rw [hr2] at hr
      cases hr
      refine ⟨G2, ?_⟩
      rw [e2, e1, abs_of_nonneg t0, abs_of_nonneg (sub_nonneg.2 t1)]
      ring
    · cases hr; exact ⟨G1, e1⟩
  | cut _ he hi hp hk hr ih =>
    obtain ⟨G1, e1⟩ := ih
    obtain ⟨a, b, t, hn, t0, t1, rfl⟩ := hi
    unfold cutEdge at hr
    split at hr
    · rename_i h1
      obtain ⟨f, k, hf⟩ := List.length_eq_two.1 h1
      obtain ⟨g2, hr2, G2, e2⟩ := cutInner_sum hs G1 he hf hn hp q (oz hk)
      rw [hr2] at hr
      cases hr
      refine ⟨G2, ?_⟩
      rw [e2, e1, abs_of_nonneg t0, abs_of_nonneg (sub_nonneg.2 t1)]
      ring
    · cases hr; exact ⟨G1, e1⟩
  | cut2 _ he hi hp1 hp2 hpp hk hr ih =>
    obtain ⟨G1, e1⟩ := ih
    obtain ⟨a, b, s, t, hn, s0, st, t1, rfl, rfl⟩ := hi
    have fin : ∀ {x y w : F}, x = y + (|s| + |t - s| + |1 - t| - 1) * w → x = y := by
      intro x y w h
      rw [h, abs_of_nonneg s0, abs_of_nonneg (sub_nonneg.2 st), abs_of_nonneg (sub_nonneg.2 t1)]
      ring
    unfold cutEdgeTwoNodes at hr
    split at hr
    · rename_i h1
      obtain ⟨f, hf⟩ := List.length_eq_one_iff.1 h1
      obtain ⟨g2, hr2, G2, e2⟩ := cutBorder2_sum hs G1 he hf hn hp1 hp2 hpp q
      rw [hr2] at hr
      cases hr
      exact ⟨G2, (fin e2).trans e1⟩
    · split at hr
      · rename_i h1
        obtain ⟨f, k, hf⟩ := List.length_eq_two.1 h1
        obtain ⟨g2, hr2, G2, e2⟩ := cutInner2_sum hs G1 he hf hn hp1 hp2 hpp q (oz hk)
        rw [hr2] at hr
        cases hr
        exact ⟨G2, (fin e2).trans e1⟩
      · cases hr; exact ⟨G1, e1⟩

/-- The water of secondary impingement on the surface is kept. -/
theorem C109_water (hs : ∀ x, 0 ≤ x → 0 ≤ sqrt x ∧ sqrt x * sqrt x = x) {rc : Vec F → R} {g g' : Grid F R} (G : Good rc g)
    (h : Parts rc False g g') : water sqrt g' = water sqrt g := by
  have e : ∀ g : Grid F R, water sqrt g = surfaceSum sqrt g (fun d _ => (Py.dictGet? d "MImp2".toList).getD 0) := by
    intro g
    unfold water surfaceSum Grid.getData
    congr 1
    apply List.map_congr_left
    intro f _
    ring
  rw [e, e]
  exact (C109_sequence hs G h _ (Or.inr fun _ _ _ => rfl)).2

/-- The refining program, when the points of the jobs are points of the faces and edges, two of them in order: it only divides faces and
cuts edges at points of them.  If no edge between zones is to be cut, none is. -/
theorem C109_refine_steps {root round10 : F → F} {rc : Vec F → R} {keep : Prop} {g g' : Grid F R} {l : List (Tri F × List (Vec F))} {jobs : List (Nat × Change F)}
    (G : Good rc g) (h0 : root 0 = 0) (hd : Distinct root g) (hj : Jobs root round10 g l jobs) (hsep : Separated rc g jobs) (hfit : FitsIn g jobs)
    (hz : keep → WithinZones g jobs) (hr : Refine.refine rc root round10 g l = .ok g') : Parts rc keep g g' :=
  refine_parts G h0 hd hsep hfit hz l [] jobs g g' rfl hj (Inv.start G) .refl (fun _ => Sides.refl g) hr

/-- Under these conditions the refining program keeps all sums over the surface. -/
theorem C109_refine_partial (hs : ∀ x, 0 ≤ x → 0 ≤ sqrt x ∧ sqrt x * sqrt x = x) {round10 : F → F} {rc : Vec F → R} {g g' : Grid F R}
    {l : List (Tri F × List (Vec F))} {jobs : List (Nat × Change F)} (G : Good rc g) (hd : Distinct sqrt g) (hj : Jobs sqrt round10 g l jobs)
    (hsep : Separated rc g jobs) (hfit : FitsIn g jobs) (hr : Refine.refine rc sqrt round10 g l = .ok g') (q : List (Str × F) → Option Nat → F)
    (hq : WithinZones g jobs ∨ ∀ d z z', q d z = q d z') : surfaceSum sqrt g' q = surfaceSum sqrt g q :=
  (C109_sequence hs G (C109_refine_steps G (mul_self_eq_zero.1 (hs 0 le_rfl).2) hd hj hsep hfit id hr) q hq).2

/-- The grid of `fin2` with the corners of the first face listed in another order. -/
def fin2r : List (ZoneBlock ℚ) :=
  [{ name := "a".toList, pts := finPts.take 6, faces := [([("T".toList, 5)], [2, 1, 3]), ([("T".toList, 6)], [4, 5, 6])] }]

/-- The refining program cuts an edge at two points without looking at their order: depending on the order in which the file lists the
corners of a face the area of the surface grows. -/
theorem C109_refine_violation : Good ratKey (refineSample fin2r) ∧ ∃ g', Refine.refineGrid ratKey ratSqrt id sortVec id (refineSample fin2r) = .ok g' ∧
    surfaceSum ratSqrt (refineSample fin2r) (fun _ _ => 1) = 10 ∧ surfaceSum ratSqrt g' (fun _ _ => 1) = 14 := by
  refine ⟨refineSample_good (by unfold ZoneBlock.Valid; decide +kernel) (by unfold NonDegenerate; decide +kernel) (by decide +kernel) (by decide +kernel), ?_⟩
  have h : (match Refine.refineGrid ratKey ratSqrt id sortVec id (refineSample fin2r) with
    | .ok g' => decide (surfaceSum ratSqrt (refineSample fin2r) (fun _ _ => 1) = 10 ∧ surfaceSum ratSqrt g' (fun _ _ => 1) = 14)
    | .error _ => false) = true := by decide +kernel
  split at h
  · rename_i g' hg
    exact ⟨g', hg, of_decide_eq_true h⟩
  · cases h

/-- The grid with its coordinates and data as real numbers. -/
noncomputable def toReal (g : Grid ℚ (ℚ × ℚ × ℚ)) : Grid ℝ (ℚ × ℚ × ℚ) :=
  { name := g.name, nodes := g.nodes, edges := g.edges, faces := g.faces, zones := g.zones, bag := g.bag, borderCnt := g.borderCnt
    nGlo := g.nGlo, nP := fun n => ⟨(g.nP n).x, (g.nP n).y, (g.nP n).z⟩, nKey := g.nKey, nEdges := g.nEdges, nFaces := g.nFaces
    nBorder := g.nBorder, eGlo := g.eGlo, eNodes := g.eNodes, eFaces := g.eFaces, fGlo := g.fGlo
    fData := fun f => (g.fData f).map (fun d => (d.1, (d.2 : ℝ))), fNodes := g.fNodes, fEdges := g.fEdges, fZone := g.fZone
    fMark := g.fMark, zId := g.zId, zName := g.zName, zNodes := g.zNodes, zEdges := g.zEdges, zFaces := g.zFaces, zFixed := g.zFixed
    nNext := g.nNext, eNext := g.eNext, fNext := g.fNext, zNext := g.zNext }

/-- Coordinates rounded to hundredths. -/
noncomputable def realKey (v : Vec ℝ) : ℚ × ℚ × ℚ := (⌊v.x * 100⌋ / 100, ⌊v.y * 100⌋ / 100, ⌊v.z * 100⌋ / 100)

theorem toReal_good {g : Grid ℚ (ℚ × ℚ × ℚ)} (G : Good ratKey g) (h : ∀ n ∈ g.nodes, realKey ((toReal g).nP n) = ratKey (g.nP n)) : Good realKey (toReal g) := by
  obtain ⟨⟨a1, a2, a3, a4, a5, a6, a7, a8, a9, a10, a11, a12, a13, a14, a15⟩, ⟨b1, b2, b3⟩, c, ⟨d1, d2, d3⟩, ⟨e1, e2, e3⟩, f, ⟨g1, g2, g3⟩⟩ := G
  exact ⟨⟨a1, a2, a3, a4, a5, a6, a7, a8, a9, a10, a11, a12, a13, a14, a15⟩, ⟨b1, b2, b3⟩, c, ⟨d1, d2, d3⟩,
    ⟨fun n hn => (e1 n hn).trans (h n hn).symm, e2, e3⟩, f, ⟨g1, g2, g3⟩⟩

theorem flatBlocks_good : Good ratKey (refineSample Sample.flat) :=
  refineSample_good (by unfold ZoneBlock.Valid; decide +kernel) (by unfold NonDegenerate; decide +kernel) (by decide +kernel) (by decide +kernel)

theorem flat_nodes : (refineSample Sample.flat).nodes = [0, 1, 2, 3] ∧ (refineSample Sample.flat).nP 0 = ⟨0, 0, 0⟩ ∧
    (refineSample Sample.flat).nP 1 = ⟨1, 0, 0⟩ ∧ (refineSample Sample.flat).nP 2 = ⟨0, 1, 0⟩ ∧ (refineSample Sample.flat).nP 3 = ⟨1, 1, 0⟩ := by
  decide +kernel

theorem flat_real : Good realKey (toReal (refineSample Sample.flat)) := by
  refine toReal_good flatBlocks_good ?_
  obtain ⟨h, h0, h1, h2, h3⟩ := flat_nodes
  rw [h]
  intro n hn
  fin_cases hn <;> simp [realKey, toReal, ratKey, h0, h1, h2, h3]

theorem flat_new {x y : ℝ} (hx : 1 / 100 ≤ x ∧ x < 99 / 100) : NewPlace realKey (toReal (refineSample Sample.flat)) ⟨x, y, 0⟩ := by
  obtain ⟨h, h0, h1, h2, h3⟩ := flat_nodes
  have k1 : (1 : ℤ) ≤ ⌊x * 100⌋ := Int.le_floor.2 (by push_cast; linarith)
  have k2 : ⌊x * 100⌋ < (99 : ℤ) := Int.floor_lt.2 (by push_cast; linarith)
  have k3 : (0 : ℚ) ≠ (⌊x * 100⌋ : ℚ) / 100 := by
    intro h
    have : (⌊x * 100⌋ : ℚ) = 0 := by linarith
    have : ⌊x * 100⌋ = 0 := by exact_mod_cast this
    omega
  have k4 : (1 : ℚ) ≠ (⌊x * 100⌋ : ℚ) / 100 := by
    intro h
    have : (⌊x * 100⌋ : ℚ) = 100 := by linarith
    have : ⌊x * 100⌋ = 100 := by exact_mod_cast this
    omega
  intro n hn
  have hn : n ∈ [0, 1, 2, 3] := h ▸ hn
  fin_cases hn <;> simp [realKey, toReal, h0, h1, h2, h3, k3, k4]

theorem real_sqrt : ∀ x : ℝ, 0 ≤ x → 0 ≤ Real.sqrt x ∧ Real.sqrt x * Real.sqrt x = x := fun x hx => ⟨Real.sqrt_nonneg x, Real.mul_self_sqrt hx⟩

theorem flat_links : (refineSample Sample.flat).edges = [0, 1, 2, 3, 4] ∧ (refineSample Sample.flat).faces = [0, 1] ∧ (refineSample Sample.flat).eNodes 2 = [1, 2] ∧
    (refineSample Sample.flat).eNodes 4 = [3, 2] ∧ (refineSample Sample.flat).eFaces 2 = [0, 1] ∧ (refineSample Sample.flat).eFaces 4 = [1] ∧ (refineSample Sample.flat).fNodes 0 = [0, 1, 2] ∧
    (refineSample Sample.flat).fNodes 1 = [1, 3, 2] ∧ (refineSample Sample.flat).fZone 0 = some 0 ∧ (refineSample Sample.flat).fZone 1 = some 0 := by
  decide +kernel

/-- The hypotheses of `C109_divide_face`, with a point inside the face. -/
example : (∀ x : ℝ, 0 ≤ x → 0 ≤ Real.sqrt x ∧ Real.sqrt x * Real.sqrt x = x) ∧ Good realKey (toReal (refineSample Sample.flat)) ∧
    0 ∈ (toReal (refineSample Sample.flat)).faces ∧ InFace (toReal (refineSample Sample.flat)) 0 ⟨1 / 4, 1 / 4, 0⟩ ∧
    NewPlace realKey (toReal (refineSample Sample.flat)) ⟨1 / 4, 1 / 4, 0⟩ := by
  obtain ⟨h, h0, h1, h2, h3⟩ := flat_nodes
  obtain ⟨l1, l2, l3, l4, l5, l6, l7, l8, l9, l10⟩ := flat_links
  refine ⟨real_sqrt, flat_real, ?_, ⟨0, 1, 2, 1 / 2, 1 / 4, 1 / 4, l7, by norm_num, by norm_num, by norm_num, by norm_num, ?_⟩, flat_new (by norm_num)⟩
  · show 0 ∈ (refineSample Sample.flat).faces
    rw [l2]; decide
  · simp [mix, toReal, h0, h1, h2]

/-- The hypotheses of `C109_cut_edge`, `C109_cut_two_anywhere`, `C109_cut_two_partial` and, with the points swapped, `C109_order_violation`. -/
example : ∃ g : Grid ℝ (ℚ × ℚ × ℚ), Good realKey g ∧ 2 ∈ g.edges ∧ g.eFaces 2 = [0, 1] ∧ OnEdge g 2 ⟨3 / 4, 1 / 4, 0⟩ ∧ NewPlace realKey g ⟨3 / 4, 1 / 4, 0⟩ ∧ NewPlace realKey g ⟨1 / 4, 3 / 4, 0⟩ ∧
    realKey ⟨1 / 4, 3 / 4, 0⟩ ≠ realKey ⟨3 / 4, 1 / 4, 0⟩ ∧ OnEdge2 g 2 ⟨3 / 4, 1 / 4, 0⟩ ⟨1 / 4, 3 / 4, 0⟩ ∧ OneZone g 2 ∧ faceArea Real.sqrt g 0 ≠ 0 := by
  obtain ⟨h, h0, h1, h2, h3⟩ := flat_nodes
  obtain ⟨l1, l2, l3, l4, l5, l6, l7, l8, l9, l10⟩ := flat_links
  refine ⟨toReal (refineSample Sample.flat), flat_real, ?_, l5, ⟨1, 2, 1 / 4, l3, by norm_num, by norm_num, ?_⟩, flat_new (by norm_num),
    flat_new (by norm_num), ?_, ⟨1, 2, 1 / 4, 3 / 4, l3, by norm_num, by norm_num, by norm_num, ?_, ?_⟩, ⟨0, ?_⟩, ?_⟩
  · show 2 ∈ (refineSample Sample.flat).edges
    rw [l1]; decide
  · norm_num [along, toReal, h1, h2]
  · norm_num [realKey]
  · norm_num [along, toReal, h1, h2]
  · norm_num [along, toReal, h1, h2]
  · show ∀ f ∈ (refineSample Sample.flat).eFaces 2, (refineSample Sample.flat).fZone f = some 0
    rw [l5]
    intro f hf
    fin_cases hf
    · exact l9
    · exact l10
  · rw [faceArea_eq (g := toReal (refineSample Sample.flat)) (a := 0) (b := 1) (c := 2) l7]
    norm_num [triArea, normal, toReal, h0, h1, h2]

/-- The hypotheses of `C109_cut_single_edge`. -/
example : ∃ g : Grid ℝ (ℚ × ℚ × ℚ), Good realKey g ∧ 4 ∈ g.edges ∧ (g.eFaces 4).length = 1 ∧ OnEdge g 4 ⟨1 / 2, 1, 0⟩ ∧ NewPlace realKey g ⟨1 / 2, 1, 0⟩ := by
  obtain ⟨h, h0, h1, h2, h3⟩ := flat_nodes
  obtain ⟨l1, l2, l3, l4, l5, l6, l7, l8, l9, l10⟩ := flat_links
  refine ⟨toReal (refineSample Sample.flat), flat_real, ?_, ?_, ⟨3, 2, 1 / 2, l4, by norm_num, by norm_num, ?_⟩, flat_new (by norm_num)⟩
  · show 4 ∈ (refineSample Sample.flat).edges
    rw [l1]; decide
  · show ((refineSample Sample.flat).eFaces 4).length = 1
    rw [l6]; rfl
  · norm_num [along, toReal, h2, h3]

/-- The hypotheses of `C109_refine_steps`: two points on a side. -/
example : Good ratKey (refineSample fin2) ∧ ratSqrt 0 = 0 ∧ Distinct ratSqrt (refineSample fin2) ∧ Jobs ratSqrt id (refineSample fin2) finFound finJobs ∧
    Separated ratKey (refineSample fin2) finJobs ∧ FitsIn (refineSample fin2) finJobs ∧ WithinZones (refineSample fin2) finJobs ∧
    ∃ g', Refine.refine ratKey ratSqrt id (refineSample fin2) finFound = .ok g' := by
  refine ⟨fin2_good, by decide +kernel, by unfold Distinct; decide +kernel, finJobs_jobs, finJobs_separated, ?_, finJobs_within, ?_⟩
  · intro j hj
    simp only [finJobs, List.mem_cons, List.not_mem_nil, or_false] at hj
    rcases hj with rfl | rfl
    · exact ⟨0, 1, 3 / 8, 5 / 8, by decide +kernel, by norm_num, by norm_num, by norm_num, by decide +kernel, by decide +kernel⟩
    · trivial
  · have h : (Refine.refine ratKey ratSqrt id (refineSample fin2) finFound).isOk = true := by decide +kernel
    cases hr : Refine.refine ratKey ratSqrt id (refineSample fin2) finFound with
    | error e => rw [hr] at h; cases h
    | ok g' => exact ⟨g', rfl⟩

theorem real_dist {u v : Vec ℝ} (h : 1 ≤ (u.x - v.x) * (u.x - v.x) + (u.y - v.y) * (u.y - v.y) + (u.z - v.z) * (u.z - v.z)) : u.eq Real.sqrt v = false := by
  unfold Vec.eq Vec.isNear
  rw [decide_eq_false_iff_not, not_lt]
  have : 1 ≤ u.distTo Real.sqrt v := by
    unfold Vec.distTo Vec.mod Vec.mod2 Vec.dot Vec.sub
    rw [Real.le_sqrt' (by norm_num)]
    simpa using h
  linarith

/-- The hypotheses of `C109_refine_partial`: a point inside a face. -/
example : ∃ (g g' : Grid ℝ (ℚ × ℚ × ℚ)) (l : List (Tri ℝ × List (Vec ℝ))), Good realKey g ∧ Distinct Real.sqrt g ∧ Jobs Real.sqrt id g l [(0, .inside ⟨1 / 3, 1 / 3, 0⟩)] ∧
    Separated realKey g [(0, .inside ⟨1 / 3, 1 / 3, 0⟩)] ∧ FitsIn g [(0, .inside ⟨1 / 3, 1 / 3, 0⟩)] ∧ Refine.refine realKey Real.sqrt id g l = .ok g' ∧ g.zones = [0] := by
  obtain ⟨h, h0, h1, h2, h3⟩ := flat_nodes
  obtain ⟨l1, l2, l3, l4, l5, l6, l7, l8, l9, l10⟩ := flat_links
  have hnew : NewPlace realKey (toReal (refineSample Sample.flat)) ⟨1 / 3, 1 / 3, 0⟩ := flat_new (by norm_num)
  have hdist : Distinct Real.sqrt (toReal (refineSample Sample.flat)) := by
    intro n hn m hm hnm
    have hn : n ∈ [0, 1, 2, 3] := h ▸ hn
    have hm : m ∈ [0, 1, 2, 3] := h ▸ hm
    apply real_dist
    fin_cases hn <;> fin_cases hm <;> first | exact absurd rfl hnm | (norm_num [toReal, h0, h1, h2, h3])
  have hfit : FitsIn (toReal (refineSample Sample.flat)) [(0, .inside ⟨1 / 3, 1 / 3, 0⟩)] := by
    intro j hj
    rw [List.mem_singleton] at hj
    subst hj
    exact ⟨0, 1, 2, 1 / 3, 1 / 3, 1 / 3, l7, by norm_num, by norm_num, by norm_num, by norm_num, by norm_num [mix, toReal, h0, h1, h2]⟩
  have hsep : Separated realKey (toReal (refineSample Sample.flat)) [(0, .inside ⟨1 / 3, 1 / 3, 0⟩)] := by
    refine ⟨by decide, ?_, ?_, ?_⟩
    · intro j hj p hp
      rw [List.mem_singleton] at hj
      subst hj
      rw [show p = ⟨1 / 3, 1 / 3, 0⟩ by simpa [Change.points] using hp]
      exact hnew
    · intro i hi j hj hij
      rw [List.mem_singleton] at hi hj
      exact absurd (hi.trans hj.symm) hij
    · intro j hj e p q hh
      rw [List.mem_singleton] at hj
      subst hj
      cases hh
  have hjobs : Jobs Real.sqrt id (toReal (refineSample Sample.flat)) [(⟨0, ⟨0, 0, 0⟩, ⟨1, 0, 0⟩, ⟨0, 1, 0⟩, some 0⟩, [⟨1 / 3, 1 / 3, 0⟩])] [(0, .inside ⟨1 / 3, 1 / 3, 0⟩)] := by
    have hp : Tri.pointInTriangle Real.sqrt id ⟨0, ⟨0, 0, 0⟩, ⟨1, 0, 0⟩, ⟨0, 1, 0⟩, some 0⟩ ⟨1 / 3, 1 / 3, 0⟩ = 3 := by
      rw [C88_exact (.inl (by norm_num)) (k := 1 / 3) (l := 1 / 3) (m := 1 / 3) ⟨by norm_num, by norm_num, by norm_num, by norm_num⟩ (by norm_num) (by norm_num) (by norm_num)]
      norm_num
    refine .cons ⟨?_, ?_, ?_, hp⟩ .nil
    · show 0 ∈ (refineSample Sample.flat).faces
      rw [l2]; decide
    · rw [triangle_eq (g := toReal (refineSample Sample.flat)) (f := 0) (a := 0) (b := 1) (c := 2) l7]
      norm_num [toReal, h0, h1, h2]
    · exact List.filter_eq_self.2 (fun p hq => by rw [List.mem_singleton] at hq; subst hq; show decide (Tri.pointInTriangle Real.sqrt id _ _ ≠ 0 ∧ Tri.pointInTriangle Real.sqrt id _ _ ≠ 1) = true; rw [hp]; decide)
  have hlate : ¬ ∃ pre j post, [((0 : Nat), Change.inside (⟨1 / 3, 1 / 3, 0⟩ : Vec ℝ))] = pre ++ j :: post ∧ TooLate (toReal (refineSample Sample.flat)) pre j := by
    rintro ⟨pre, j, post, he, hl⟩
    cases pre with
    | nil =>
      obtain ⟨rfl, -⟩ := List.cons.inj he
      obtain ⟨e, -, pre, j, post, hx, -⟩ := hl
      simp at hx
    | cons a pre => simp at he
  have ho := (C93_outcome_partial flat_real Real.sqrt_zero hdist hjobs hsep).1
  cases hr : Refine.refine realKey Real.sqrt id (toReal (refineSample Sample.flat)) [(⟨0, ⟨0, 0, 0⟩, ⟨1, 0, 0⟩, ⟨0, 1, 0⟩, some 0⟩, [⟨1 / 3, 1 / 3, 0⟩])] with
  | error e => exact absurd (ho.1 ⟨e, hr⟩) hlate
  | ok g' => exact ⟨_, g', _, flat_real, hdist, hjobs, hsep, hfit, hr, (by decide +kernel : (refineSample Sample.flat).zones = [0])⟩

end Verif.Props
