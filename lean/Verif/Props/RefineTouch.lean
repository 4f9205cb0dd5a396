import Verif.Props.RefineMain
import Verif.Props.AgainTwo
import Verif.Props.Again

/-! C93 for points at the places of nodes: one triangle touches another one with a corner. -/

namespace Verif.Props
open Verif Grid

section
variable {F R : Type} [Field F] [LinearOrder F] [IsStrictOrderedRing F] [DecidableEq R]

/-- A job which asks for nothing does nothing, whatever was done to the grid before. -/
theorem refineFace_idle {rc : Vec F → R} {sqrt round10 : F → F} {g : Grid F R} {f : Nat} {x : Tri F × List (Vec F)}
    (G : Good rc g) (h0 : sqrt 0 = 0) (hd : Distinct sqrt g) (hf : f ∈ g.faces) (ht : g.triangle f = .ok x.1) (ha : Asks sqrt round10 g f x.1 x.2 .keep)
    (g1 : Grid F R) : Refine.refineFace rc sqrt round10 g1 x = .ok g1 := by
  obtain ⟨t, pts⟩ := x
  simp only at ht ha
  obtain ⟨a, b, c, hn⟩ := List.length_eq_three.1 (G.mesh.face_nodes f hf).1
  have hback : t.back = some f := by
    have := triangle_eq hn
    rw [ht] at this
    rw [Except.ok.inj this]
  have hrun : Refine.refineFace rc sqrt round10 g1 (t, pts) = Refine.rebuild rc sqrt g1 t f (Refine.rebuilding sqrt round10 t pts) := by
    unfold Refine.refineFace; simp only [hback]
  rw [hrun, rebuilding_eq]
  unfold Asks at ha
  simp only at ha
  rcases ha with ha | ha | ⟨p, q, ha, hh⟩
  · rw [ha]; rfl
  · match hm : pts.filter (fun p => decide (t.pointInTriangle sqrt round10 p ≠ 0 ∧ t.pointInTriangle sqrt round10 p ≠ 1)), ha with
    | _ :: _ :: _ :: _, _ => rfl
  · rw [ha]
    simp only [List.map_cons, List.map_nil, Refine.rebuild]
    split
    · rename_i h2
      rcases hh with hh | hh | ⟨e, e', hne, he, he'⟩
      · omega
      · omega
      · unfold Refine.cutSide2
        obtain ⟨s, hs, hse⟩ := sideOf_mem (sqrt := sqrt) hn ht p
        obtain ⟨s', hs', hse'⟩ := sideOf_mem (sqrt := sqrt) hn ht q
        rw [hse] at he; rw [hse'] at he'
        rw [hse, hse']
        simp only [side_eq G h0 hd hf hn hs hs' he he', hne, decide_false, Bool.false_eq_true, if_false]
    · rfl

theorem refine_idle {rc : Vec F → R} {sqrt round10 : F → F} {g : Grid F R} (G : Good rc g) (h0 : sqrt 0 = 0) (hd : Distinct sqrt g)
    {l : List (Tri F × List (Vec F))} {jobs : List (Nat × Change F)} (hj : Jobs sqrt round10 g l jobs) (hk : ∀ j ∈ jobs, j.2 = .keep) (g1 : Grid F R) :
    Refine.refine rc sqrt round10 g1 l = .ok g1 := by
  induction hj with
  | nil => rfl
  | @cons x j l js h _ ih =>
    show (Refine.refineFace rc sqrt round10 g1 x >>= fun g => Refine.refine rc sqrt round10 g l) = _
    rw [refineFace_idle G h0 hd h.1 h.2.1 (by have := h.2.2; rwa [hk j (by simp)] at this), res_bind_ok]
    exact ih (fun i hi => hk i (by simp [hi]))

/-- With one job only `refine` does this job. -/
theorem refine_single {rc : Vec F → R} {sqrt round10 : F → F} {g : Grid F R} (G : Good rc g) (h0 : sqrt 0 = 0) (hd : Distinct sqrt g)
    {l : List (Tri F × List (Vec F))} {pre post : List (Nat × Change F)} {j : Nat × Change F} (hj : Jobs sqrt round10 g l (pre ++ j :: post))
    (hk : ∀ i ∈ pre ++ post, i.2 = .keep) :
    ∃ x, (j.1 ∈ g.faces ∧ g.triangle j.1 = .ok x.1 ∧ Asks sqrt round10 g j.1 x.1 x.2 j.2) ∧
      Refine.refine rc sqrt round10 g l = Refine.refineFace rc sqrt round10 g x := by
  unfold Jobs at hj
  obtain ⟨l1, l2, rfl, h1, h2⟩ : ∃ l1 l2, l = l1 ++ l2 ∧ Jobs sqrt round10 g l1 pre ∧ Jobs sqrt round10 g l2 (j :: post) :=
    ⟨_, _, (List.take_append_drop pre.length l).symm, List.forall₂_take_append _ _ _ hj, List.forall₂_drop_append _ _ _ hj⟩
  cases h2 with
  | @cons x _ l2 _ hx h2 =>
    refine ⟨x, hx, ?_⟩
    have e : Refine.refine rc sqrt round10 g (l1 ++ x :: l2) =
        (Refine.refine rc sqrt round10 g l1 >>= fun g1 => Refine.refineFace rc sqrt round10 g1 x >>= fun g2 => Refine.refine rc sqrt round10 g2 l2) := by
      unfold Refine.refine
      rw [List.foldlM_append]
      rfl
    rw [e, refine_idle G h0 hd h1 (fun i hi => hk i (by simp [hi])), res_bind_ok]
    cases hr : Refine.refineFace rc sqrt round10 g x with
    | error e => rfl
    | ok g2 => exact refine_idle G h0 hd h2 (fun i hi => hk i (by simp [hi])) g2

theorem refineFace_inside {rc : Vec F → R} {sqrt round10 : F → F} {g : Grid F R} (G : Good rc g) 
    {x : Tri F × List (Vec F)} {f : Nat} {p : Vec F} (hf : f ∈ g.faces) (ht : g.triangle f = .ok x.1) (ha : Asks sqrt round10 g f x.1 x.2 (.inside p)) :
    Refine.refineFace rc sqrt round10 g x = g.divideFace rc f p := by
  obtain ⟨t, pts⟩ := x
  simp only at ht ha
  obtain ⟨a, b, c, hn⟩ := List.length_eq_three.1 (G.mesh.face_nodes f hf).1
  have hback : t.back = some f := by
    have := triangle_eq hn
    rw [ht] at this
    rw [Except.ok.inj this]
  have hrun : Refine.refineFace rc sqrt round10 g (t, pts) = Refine.rebuild rc sqrt g t f (Refine.rebuilding sqrt round10 t pts) := by
    unfold Refine.refineFace; simp only [hback]
  unfold Asks at ha
  simp only at ha
  rw [hrun, rebuilding_eq, ha.1]
  simp only [List.map_cons, List.map_nil, Refine.rebuild, ha.2, show ¬ (3 = 2) by omega, if_false]

theorem refineFace_side {rc : Vec F → R} {sqrt round10 : F → F} {g : Grid F R} (G : Good rc g) (h0 : sqrt 0 = 0) (hd : Distinct sqrt g)
    {x : Tri F × List (Vec F)} {f : Nat} {e : Nat} {p : Vec F} (hf : f ∈ g.faces) (ht : g.triangle f = .ok x.1) (ha : Asks sqrt round10 g f x.1 x.2 (.side e p)) :
    Refine.refineFace rc sqrt round10 g x = if (g.eFaces e).length = 2 then (do let r ← g.cutEdge rc e p; .ok r.1)
      else (do let r ← g.cutSingleEdge rc e p; .ok r.1) := by
  obtain ⟨t, pts⟩ := x
  simp only at ht ha
  obtain ⟨a, b, c, hn⟩ := List.length_eq_three.1 (G.mesh.face_nodes f hf).1
  have hback : t.back = some f := by
    have := triangle_eq hn
    rw [ht] at this
    rw [Except.ok.inj this]
  have hrun : Refine.refineFace rc sqrt round10 g (t, pts) = Refine.rebuild rc sqrt g t f (Refine.rebuilding sqrt round10 t pts) := by
    unfold Refine.refineFace; simp only [hback]
  unfold Asks at ha
  simp only at ha
  rw [hrun, rebuilding_eq, ha.1]
  simp only [List.map_cons, List.map_nil, Refine.rebuild, ha.2.1, if_true]
  unfold Refine.cutSide
  rw [findSide_eq G h0 hd hf (fun _ h => h) (fun _ _ => rfl) (fun _ _ => rfl) ha.2.2, if_pos ha.2.2.1, res_bind_ok]

theorem refineFace_two {rc : Vec F → R} {sqrt round10 : F → F} {g : Grid F R} (G : Good rc g) (h0 : sqrt 0 = 0) (hd : Distinct sqrt g)
    {x : Tri F × List (Vec F)} {f : Nat} {e : Nat} {p q : Vec F} (hf : f ∈ g.faces) (ht : g.triangle f = .ok x.1) (ha : Asks sqrt round10 g f x.1 x.2 (.side2 e p q)) :
    Refine.refineFace rc sqrt round10 g x = (do let r ← g.cutEdgeTwoNodes rc e p q; .ok r.1) := by
  obtain ⟨t, pts⟩ := x
  simp only at ht ha
  obtain ⟨a, b, c, hn⟩ := List.length_eq_three.1 (G.mesh.face_nodes f hf).1
  have hback : t.back = some f := by
    have := triangle_eq hn
    rw [ht] at this
    rw [Except.ok.inj this]
  have hrun : Refine.refineFace rc sqrt round10 g (t, pts) = Refine.rebuild rc sqrt g t f (Refine.rebuilding sqrt round10 t pts) := by
    unfold Refine.refineFace; simp only [hback]
  unfold Asks at ha
  simp only at ha
  obtain ⟨h1, h2, h3, h4, h5⟩ := ha
  rw [hrun, rebuilding_eq, h1]
  simp only [List.map_cons, List.map_nil, Refine.rebuild, h2, h3, and_self, if_true]
  unfold Refine.cutSide2
  obtain ⟨s, hs, hse⟩ := sideOf_mem (sqrt := sqrt) hn ht p
  obtain ⟨s', hs', hse'⟩ := sideOf_mem (sqrt := sqrt) hn ht q
  have h4' := h4; have h5' := h5
  rw [hse] at h4'; rw [hse'] at h5'
  rw [findSide_eq G h0 hd hf (fun _ h => h) (fun _ _ => rfl) (fun _ _ => rfl) h4, if_pos h4.1, hse, hse']
  simp only [side_eq G h0 hd hf hn hs hs' h4' h5', decide_true, if_true, res_bind_ok]

/-- The only point which asks for something is inside of a face, at the place of the node `k`; so a corner of another triangle touches the face. No
node is added: `k` becomes a corner of the three parts of the face, and the Euler characteristic changes. The new grid is consistent exactly if `k` is
not joined to the face. -/
theorem C93_touch_inside {rc : Vec F → R} {sqrt round10 : F → F} {g : Grid F R} {l : List (Tri F × List (Vec F))} {pre post : List (Nat × Change F)}
    {f k : Nat} {p : Vec F} (G : Good rc g) (h0 : sqrt 0 = 0) (hd : Distinct sqrt g) (hj : Jobs sqrt round10 g l (pre ++ (f, .inside p) :: post))
    (hk : ∀ i ∈ pre ++ post, i.2 = .keep) (hn : k ∈ g.nodes) (hp : rc (g.nP k) = rc p) :
    ∃ g' e1 e2 e3 f1 f2 f3 z, Refine.refine rc sqrt round10 g l = .ok g' ∧ Reuses rc k [f] [] [e1, e2, e3] [f1, f2, f3] z g g' := by
  obtain ⟨x, ⟨h1, h2, h3⟩, hr⟩ := refine_single (rc := rc) G h0 hd hj hk
  obtain ⟨a, b, c, hc⟩ := List.length_eq_three.1 (G.mesh.face_nodes f h1).1
  obtain ⟨z, -, -, hz⟩ := zone_of G.zones h1
  obtain ⟨g', e1, e2, e3, f1, f2, f3, h, hR, -⟩ := C101_divide_face G h1 hc hz hn hp
  exact ⟨g', e1, e2, e3, f1, f2, f3, z, by rw [hr, refineFace_inside G h1 h2 h3, h], hR⟩

/-- The same for a corner which touches a side. -/
theorem C93_touch_side {rc : Vec F → R} {sqrt round10 : F → F} {g : Grid F R} {l : List (Tri F × List (Vec F))} {pre post : List (Nat × Change F)}
    {f e k : Nat} {p : Vec F} (G : Good rc g) (h0 : sqrt 0 = 0) (hd : Distinct sqrt g) (hj : Jobs sqrt round10 g l (pre ++ (f, .side e p) :: post))
    (hk : ∀ i ∈ pre ++ post, i.2 = .keep) (hn : k ∈ g.nodes) (hp : rc (g.nP k) = rc p) :
    ∃ g' en fn z, Refine.refine rc sqrt round10 g l = .ok g' ∧ Reuses rc k (g.eFaces e) [e] en fn z g g' := by
  obtain ⟨x, ⟨h1, h2, h3⟩, hr⟩ := refine_single (rc := rc) G h0 hd hj hk
  have he : e ∈ g.edges := (G.mesh.face_edges f h1).2.2 e h3.2.2.1
  obtain ⟨a, b, hab⟩ := eNodes_pair G.mesh he
  rw [hr, refineFace_side G h0 hd h1 h2 h3]
  rcases (G.mesh.edge_faces e he).1 with hl | hl
  · obtain ⟨u, hu⟩ := List.length_eq_one_iff.1 hl
    obtain ⟨z, -, -, hz⟩ := zone_of G.zones ((G.mesh.edge_face e he u).1 (by simp [hu])).1
    obtain ⟨g', c, e1, e2, e3, f1, f2, h, hR, -⟩ := C101_cut_single_edge G he hu hab hz hn hp
    rw [hu, if_neg (by simp), h]
    exact ⟨g', _, _, z, rfl, hR⟩
  · obtain ⟨u, v, hu⟩ := List.length_eq_two.1 hl
    obtain ⟨z, -, -, hz⟩ := zone_of G.zones ((G.mesh.edge_face e he u).1 (by simp [hu])).1
    obtain ⟨g', c, c', e1, e2, e3, e4, f1, f2, f3, f4, h, hR, -⟩ := C101_cut_edge G he hu hab hz hn hp
    rw [hu, if_pos (by simp), h]
    exact ⟨g', _, _, z, rfl, hR⟩

/-- Two points on one side, wherever they are: at nodes, at the same place, or at new places. -/
theorem C93_touch_two {rc : Vec F → R} {sqrt round10 : F → F} {g : Grid F R} {l : List (Tri F × List (Vec F))} {pre post : List (Nat × Change F)}
    {f e : Nat} {p q : Vec F} (G : Good rc g) (h0 : sqrt 0 = 0) (hd : Distinct sqrt g) (hj : Jobs sqrt round10 g l (pre ++ (f, .side2 e p q) :: post))
    (hk : ∀ i ∈ pre ++ post, i.2 = .keep) :
    ∃ g' k1 k2 nn en fn a b cs z, Refine.refine rc sqrt round10 g l = .ok g' ∧ g.eNodes e = [a, b] ∧
      CutsTwo rc p q k1 k2 (g.eFaces e) [e] nn en fn a b cs z g g' := by
  obtain ⟨x, ⟨h1, h2, h3⟩, hr⟩ := refine_single (rc := rc) G h0 hd hj hk
  have he : e ∈ g.edges := (G.mesh.face_edges f h1).2.2 e h3.2.2.2.1.1
  obtain ⟨a, b, hab⟩ := eNodes_pair G.mesh he
  rw [hr, refineFace_two G h0 hd h1 h2 h3]
  rcases (G.mesh.edge_faces e he).1 with hl | hl
  · obtain ⟨u, hu⟩ := List.length_eq_one_iff.1 hl
    obtain ⟨z, -, -, hz⟩ := zone_of G.zones ((G.mesh.edge_face e he u).1 (by simp [hu])).1
    obtain ⟨g', k1, k2, nn, c, e1, e2, e3, e4, e5, f1, f2, f3, h, hC, -⟩ := C106_one_face G p q he hu hab hz
    rw [h, hu]
    exact ⟨g', k1, k2, nn, _, _, a, b, _, z, rfl, hab, hC⟩
  · obtain ⟨u, v, hu⟩ := List.length_eq_two.1 hl
    obtain ⟨z, -, -, hz⟩ := zone_of G.zones ((G.mesh.edge_face e he u).1 (by simp [hu])).1
    obtain ⟨g', k1, k2, nn, c, c', e1, e2, e3, e4, e5, e6, e7, f1, f2, f3, f4, f5, f6, h, hC, -⟩ := C106_two_faces G p q he hu hab hz
    rw [h, hu]
    exact ⟨g', k1, k2, nn, _, _, a, b, _, z, rfl, hab, hC⟩

end

/-- A triangle which stands with one corner inside of another triangle. -/
def touch2 : List (ZoneBlock ℚ) :=
  [ { name := "a".toList
      pts := [⟨0, 0, 0⟩, ⟨4, 0, 0⟩, ⟨2, 4, 0⟩, ⟨2, 1, 0⟩, ⟨3, 1, 2⟩, ⟨1, 1, 2⟩]
      faces := [([], [1, 2, 3]), ([], [4, 5, 6])] } ]

theorem touch2_good : Good ratKey (refineSample touch2) :=
  refineSample_good (by unfold ZoneBlock.Valid; decide +kernel) (by unfold NonDegenerate; decide +kernel) (by decide +kernel) (by decide +kernel)

/-- What is found for them. -/
def touchFound : List (Tri ℚ × List (Vec ℚ)) :=
  [(⟨0, ⟨0, 0, 0⟩, ⟨4, 0, 0⟩, ⟨2, 4, 0⟩, some 0⟩, [⟨2, 1, 0⟩]), (⟨1, ⟨2, 1, 0⟩, ⟨3, 1, 2⟩, ⟨1, 1, 2⟩, some 1⟩, [⟨2, 1, 0⟩])]

theorem touch_jobs : Jobs ratSqrt id (refineSample touch2) touchFound ([] ++ (0, .inside ⟨2, 1, 0⟩) :: [(1, .keep)]) := by
  refine .cons ⟨by decide +kernel, by decide +kernel, ?_⟩ (.cons ⟨by decide +kernel, by decide +kernel, ?_⟩ .nil)
  · exact ⟨by decide +kernel, by decide +kernel⟩
  · exact Or.inl (by decide +kernel)

example : Good ratKey (refineSample touch2) ∧ ratSqrt 0 = 0 ∧ Distinct ratSqrt (refineSample touch2) ∧
    Jobs ratSqrt id (refineSample touch2) touchFound ([] ++ (0, .inside ⟨2, 1, 0⟩) :: [(1, .keep)]) ∧
    3 ∈ (refineSample touch2).nodes ∧ ratKey ((refineSample touch2).nP 3) = ratKey ⟨2, 1, 0⟩ :=
  ⟨touch2_good, by decide +kernel, by unfold Distinct; decide +kernel, touch_jobs, by decide +kernel, by decide +kernel⟩

/-- A triangle which stands with one corner on a side of another triangle. -/
def touchS : List (ZoneBlock ℚ) :=
  [ { name := "a".toList
      pts := [⟨0, 0, 0⟩, ⟨4, 0, 0⟩, ⟨2, 4, 0⟩, ⟨2, 0, 0⟩, ⟨3, 0, 2⟩, ⟨1, 0, 2⟩]
      faces := [([], [1, 2, 3]), ([], [4, 5, 6])] } ]

example : Good ratKey (refineSample touchS) ∧ Distinct ratSqrt (refineSample touchS) ∧ (∃ x1 x2, Jobs ratSqrt id (refineSample touchS)
      [(x1, [⟨2, 0, 0⟩]), (x2, [⟨2, 0, 0⟩])] ([] ++ (0, .side 0 ⟨2, 0, 0⟩) :: [(1, .keep)])) ∧
    3 ∈ (refineSample touchS).nodes ∧ ratKey ((refineSample touchS).nP 3) = ratKey ⟨2, 0, 0⟩ := by
  refine ⟨refineSample_good (by unfold ZoneBlock.Valid; decide +kernel) (by unfold NonDegenerate; decide +kernel) (by decide +kernel) (by decide +kernel),
    by unfold Distinct; decide +kernel, ⟨⟨0, ⟨0, 0, 0⟩, ⟨4, 0, 0⟩, ⟨2, 4, 0⟩, some 0⟩, ⟨1, ⟨2, 0, 0⟩, ⟨3, 0, 2⟩, ⟨1, 0, 2⟩, some 1⟩,
      .cons ⟨by decide +kernel, by decide +kernel, ?_⟩ (.cons ⟨by decide +kernel, by decide +kernel, ?_⟩ .nil)⟩, by decide +kernel, by decide +kernel⟩
  · refine ⟨by decide +kernel, by decide +kernel, sideAt_of (a := 0) (b := 1) ?_ ?_ ?_⟩ <;> decide +kernel
  · exact Or.inl (by decide +kernel)

example : Jobs ratSqrt id (refineSample fin2) finFound ([] ++ (0, .side2 0 ⟨3 / 2, 0, 0⟩ ⟨5 / 2, 0, 0⟩) :: [(1, .keep)]) := finJobs_jobs

/-- The whole program on the two triangles: the corner becomes a corner of the parts of the other triangle, which hang together now, and the Euler
characteristic is not that of the old grid. -/
theorem C93_touch_violation : Good ratKey (refineSample touch2) ∧
    ∃ g', Refine.refineGrid ratKey ratSqrt id sortVec id (refineSample touch2) = .ok g' ∧ Good ratKey g' ∧
      g'.nodes = (refineSample touch2).nodes ∧ g'.faces.length = 4 ∧ euler (refineSample touch2) = 2 ∧ euler g' = 1 := by
  refine ⟨touch2_good, ?_⟩
  have e : Refine.refineGrid ratKey ratSqrt id sortVec id (refineSample touch2) = Refine.refine ratKey ratSqrt id (refineSample touch2) touchFound := by
    have h : ((refineSample touch2).faces.mapM (refineSample touch2).triangle >>= fun ts => Cloud.ofList ts >>= fun cloud =>
      Refine.collect sortVec id (Cloud.inter (Tri.intersectTriangle ratSqrt id sortVec) cloud cloud)) = .ok touchFound := by decide +kernel
    unfold Refine.refineGrid
    rw [← bind_assoc, ← bind_assoc]
    rw [← bind_assoc] at h
    rw [h, res_bind_ok]
  obtain ⟨g', e1, e2, e3, f1, f2, f3, z, h1, h2⟩ := C93_touch_inside (k := 3) touch2_good (by decide +kernel) (by unfold Distinct; decide +kernel) touch_jobs (by simp)
    (by decide +kernel) (by decide +kernel)
  have h3 : euler (refineSample touch2) = 2 := by decide +kernel
  refine ⟨g', by rw [e, h1], h2.good (unjoined_of (by decide +kernel)), h2.nodes.1, ?_, h3, by rw [h2.euler, h3]; rfl⟩
  have h : (match Refine.refine ratKey ratSqrt id (refineSample touch2) touchFound with
    | .ok g' => decide (g'.faces.length = 4)
    | .error _ => false) = true := by decide +kernel
  rw [h1] at h
  exact of_decide_eq_true h

end Verif.Props
