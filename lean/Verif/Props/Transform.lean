import Verif.Proofs.Transform
import Verif.Proofs.LoadGood
import Verif.Proofs.Steps

/-! Properties C32 - C38: grid transformations. -/

namespace Verif.Props
open Verif Grid
variable {F R : Type} [DecidableEq R]

/-- Grids loaded with merging from a file without degenerate and without repeated faces are consistent, which is what the
theorems below assume. -/
theorem C32_loaded_good (rc : Vec F → R) (g g' : Grid F R) (blocks : List (ZoneBlock F)) (hd : NonDegenerate rc true blocks)
    (ht : NoTwins rc blocks) (h : loadBlocks rc true g blocks = .ok g') : Good rc g' ∧ ZoneLists g' := by
  rcases load_spec rc true g blocks (load_valid rc true g g' blocks h) hd (by intro h; cases h) with ⟨_, h2⟩ | ⟨_, g2, h2, h3⟩
  · rw [h] at h2; cases h2
  · rw [h] at h2; obtain rfl := Except.ok.inj h2; exact ⟨h3.good ht, h3.lists⟩

/-! ## C32 divide_face -/

/-- `divide_face` replaces a face by three faces around a new node at the given point. The grid stays consistent, everything
else keeps its attributes and links, the new faces have the data and the zone of the face, and zone lists stay exact. -/
theorem C32_divide_face {rc : Vec F → R} {g : Grid F R} (G : Good rc g) {f a b c z : Nat} {p : Vec F} (hf : f ∈ g.faces)
    (hn : g.fNodes f = [a, b, c]) (hz : g.fZone f = some z) (hp : NewPlace rc g p) :
    ∃ g' n e1 e2 e3 f1 f2 f3, g.divideFace rc f p = .ok g' ∧ Good rc g' ∧ Keeps [f] [] g g' ∧
      Swaps [f] [] [n] [e1, e2, e3] [f1, f2, f3] g g' ∧ g'.nP n = p ∧
      IsFace g' f1 a b n (g.fData f) z ∧ IsFace g' f2 b c n (g.fData f) z ∧ IsFace g' f3 a c n (g.fData f) z ∧
      (ZoneLists g → ZoneLists g') := by
  obtain ⟨P, g', h1, h2, h3, h4, h5, hr, o, hpn, i1, i2, i3, -⟩ := divideFace_outcome G hf hn hz hp
  have k := o.keeps
  have s := o.swaps
  have zl := o.zoneLists
  rw [h1, h2] at k
  rw [h1, h2, h3, h4, h5] at s
  rw [h1] at zl
  exact ⟨g', _, _, _, _, _, _, _, hr, o.good, k, s, hpn, i1, i2, i3, fun L => zl L (by simpa using hz)⟩

/-! ## C33 cut_single_edge -/

/-- `cut_single_edge` on a border edge replaces the face by two faces, on both sides of the new node. -/
theorem C33_cut_single_edge {rc : Vec F → R} {g : Grid F R} (G : Good rc g) {e f a b z : Nat} {p : Vec F} (he : e ∈ g.edges)
    (hf : g.eFaces e = [f]) (hn : g.eNodes e = [a, b]) (hz : g.fZone f = some z) (hp : NewPlace rc g p) :
    ∃ g' c n e1 e2 e3 f1 f2, g.cutSingleEdge rc e p = .ok (g', true) ∧ Good rc g' ∧ Keeps [f] [e] g g' ∧
      Swaps [f] [e] [n] [e1, e2, e3] [f1, f2] g g' ∧ g'.nP n = p ∧
      (∀ m, m ∈ g.fNodes f ↔ m = a ∨ m = b ∨ m = c) ∧
      IsFace g' f1 a n c (g.fData f) z ∧ IsFace g' f2 b n c (g.fData f) z ∧
      (ZoneLists g → ZoneLists g') := by
  obtain ⟨P, g', c, h1, h2, h3, h4, h5, hr, o, hpn, hc, -, i1, i2, -⟩ := cutBorder_outcome G he hf hn hz hp
  have k := o.keeps
  have s := o.swaps
  have zl := o.zoneLists
  rw [h1, h2] at k
  rw [h1, h2, h3, h4, h5] at s
  rw [h1] at zl
  refine ⟨g', c, _, _, _, _, _, _, ?_, o.good, k, s, hpn, hc, i1, i2, fun L => zl L (by simpa using hz)⟩
  unfold cutSingleEdge
  rw [hf, if_pos (by simp), hr]; rfl

/-- On an edge that has not exactly one face it changes nothing and returns `False`. -/
theorem C33_not_border (rc : Vec F → R) (g : Grid F R) (e : Nat) (p : Vec F) (h : (g.eFaces e).length ≠ 1) :
    g.cutSingleEdge rc e p = .ok (g, false) := by unfold cutSingleEdge; rw [if_neg h]

/-! ## C34 cut_edge -/

/-- `cut_edge` on an inner edge replaces both faces by four faces around the new node; each new face has the data of the face it
is part of. -/
theorem C34_cut_edge {rc : Vec F → R} {g : Grid F R} (G : Good rc g) {e f h a b z : Nat} {p : Vec F} (he : e ∈ g.edges)
    (hf : g.eFaces e = [f, h]) (hn : g.eNodes e = [a, b]) (hz : g.fZone f = some z) (hp : NewPlace rc g p) :
    ∃ g' c c' n e1 e2 e3 e4 f1 f2 f3 f4, g.cutEdge rc e p = .ok (g', true) ∧ Good rc g' ∧ Keeps [f, h] [e] g g' ∧
      Swaps [f, h] [e] [n] [e1, e2, e3, e4] [f1, f3, f2, f4] g g' ∧ g'.nP n = p ∧
      (∀ m, m ∈ g.fNodes f ↔ m = a ∨ m = b ∨ m = c) ∧ (∀ m, m ∈ g.fNodes h ↔ m = a ∨ m = b ∨ m = c') ∧
      IsFace g' f1 b n c (g.fData f) z ∧ IsFace g' f2 a n c (g.fData f) z ∧
      IsFace g' f3 a n c' (g.fData h) z ∧ IsFace g' f4 b n c' (g.fData h) z ∧
      (ZoneLists g → g.fZone h = some z → ZoneLists g') := by
  obtain ⟨P, g', c, c', h1, h2, h3, h4, h5, hr, o, hpn, hc, hc', -, i1, i2, i3, i4, -⟩ := cutInner_outcome G he hf hn hz hp
  have k := o.keeps
  have s := o.swaps
  have zl := o.zoneLists
  rw [h1, h2] at k
  rw [h1, h2, h3, h4, h5] at s
  rw [h1] at zl
  refine ⟨g', c, c', _, _, _, _, _, _, _, _, _, ?_, o.good, k, s, hpn, hc, hc', i1, i2, i3, i4, fun L hz' => zl L (by simp [hz, hz'])⟩
  unfold cutEdge
  rw [hf, if_pos (by simp), hr]; rfl

/-- On an edge that has not two faces it changes nothing and returns `False`. -/
theorem C34_border (rc : Vec F → R) (g : Grid F R) (e : Nat) (p : Vec F) (h : (g.eFaces e).length ≠ 2) :
    g.cutEdge rc e p = .ok (g, false) := by unfold cutEdge; rw [if_neg h]

/-- `cut_edge_with_two_nodes` on a border edge: three faces. -/
theorem C34_two_nodes_border {rc : Vec F → R} {g : Grid F R} (G : Good rc g) {e f a b z : Nat} {p1 p2 : Vec F} (he : e ∈ g.edges)
    (hf : g.eFaces e = [f]) (hn : g.eNodes e = [a, b]) (hz : g.fZone f = some z) (hp1 : NewPlace rc g p1)
    (hp2 : NewPlace rc g p2) (hpp : rc p2 ≠ rc p1) :
    ∃ g' c n m e1 e2 e3 e4 e5 f1 f2 f3, g.cutEdgeTwoNodes rc e p1 p2 = .ok (g', true) ∧ Good rc g' ∧ Keeps [f] [e] g g' ∧
      Swaps [f] [e] [n, m] [e1, e2, e3, e4, e5] [f1, f2, f3] g g' ∧ g'.nP n = p1 ∧ g'.nP m = p2 ∧
      (∀ m, m ∈ g.fNodes f ↔ m = a ∨ m = b ∨ m = c) ∧
      IsFace g' f1 a n c (g.fData f) z ∧ IsFace g' f2 n m c (g.fData f) z ∧ IsFace g' f3 b m c (g.fData f) z ∧
      (ZoneLists g → ZoneLists g') := by
  obtain ⟨P, g', c, h1, h2, h3, h4, h5, hr, o, q1, q2, hc, -, i1, i2, i3⟩ := cutBorder2_outcome G he hf hn hz hp1 hp2 hpp
  have k := o.keeps
  have s := o.swaps
  have zl := o.zoneLists
  rw [h1, h2] at k
  rw [h1, h2, h3, h4, h5] at s
  rw [h1] at zl
  refine ⟨g', c, _, _, _, _, _, _, _, _, _, _, ?_, o.good, k, s, q1, q2, hc, i1, i2, i3, fun L => zl L (by simpa using hz)⟩
  unfold cutEdgeTwoNodes
  rw [hf, if_pos (by simp), hr]; rfl

/-- `cut_edge_with_two_nodes` on an inner edge: six faces, each with the data of the face it is part of. -/
theorem C34_two_nodes_inner {rc : Vec F → R} {g : Grid F R} (G : Good rc g) {e f h a b z : Nat} {p1 p2 : Vec F} (he : e ∈ g.edges)
    (hf : g.eFaces e = [f, h]) (hn : g.eNodes e = [a, b]) (hz : g.fZone f = some z) (hp1 : NewPlace rc g p1)
    (hp2 : NewPlace rc g p2) (hpp : rc p2 ≠ rc p1) :
    ∃ g' c c' n m e1 e2 e3 e4 e5 e6 e7 f1 f2 f3 f4 f5 f6, g.cutEdgeTwoNodes rc e p1 p2 = .ok (g', true) ∧ Good rc g' ∧
      Keeps [f, h] [e] g g' ∧
      Swaps [f, h] [e] [n, m] [e1, e2, e3, e4, e5, e6, e7] [f1, f2, f3, f4, f5, f6] g g' ∧ g'.nP n = p1 ∧ g'.nP m = p2 ∧
      (∀ m, m ∈ g.fNodes f ↔ m = a ∨ m = b ∨ m = c) ∧ (∀ m, m ∈ g.fNodes h ↔ m = a ∨ m = b ∨ m = c') ∧
      IsFace g' f1 a n c (g.fData f) z ∧ IsFace g' f2 n m c (g.fData f) z ∧ IsFace g' f3 b m c (g.fData f) z ∧
      IsFace g' f4 a n c' (g.fData h) z ∧ IsFace g' f5 n m c' (g.fData h) z ∧ IsFace g' f6 b m c' (g.fData h) z ∧
      (ZoneLists g → g.fZone h = some z → ZoneLists g') := by
  obtain ⟨P, g', c, c', h1, h2, h3, h4, h5, hr, o, q1, q2, hc, hc', -, i1, i2, i3, i4, i5, i6⟩ :=
    cutInner2_outcome G he hf hn hz hp1 hp2 hpp
  have k := o.keeps
  have s := o.swaps
  have zl := o.zoneLists
  rw [h1, h2] at k
  rw [h1, h2, h3, h4, h5] at s
  rw [h1] at zl
  refine ⟨g', c, c', _, _, _, _, _, _, _, _, _, _, _, _, _, _, _, ?_, o.good, k, s, q1, q2, hc, hc', i1, i2, i3, i4, i5, i6,
    fun L hz' => zl L (by simp [hz, hz'])⟩
  unfold cutEdgeTwoNodes
  rw [hf, if_neg (by simp), if_pos (by simp), hr]; rfl

/-! ## C35 Zones of the parts -/

/-- If both faces at the edge are in one zone, each part of a face lies in the zone of that face. -/
theorem C35_same_zone_partial {rc : Vec F → R} {g : Grid F R} (G : Good rc g) {e f h a b : Nat} {p : Vec F} (he : e ∈ g.edges)
    (hf : g.eFaces e = [f, h]) (hn : g.eNodes e = [a, b]) (hz : g.fZone f = g.fZone h) (hp : NewPlace rc g p) :
    ∃ g' c c' n f1 f2 f3 f4 z, g.cutEdge rc e p = .ok (g', true) ∧ g.fZone f = some z ∧ g.fZone h = some z ∧
      c ∈ g.fNodes f ∧ c' ∈ g.fNodes h ∧
      IsFace g' f1 b n c (g.fData f) z ∧ IsFace g' f2 a n c (g.fData f) z ∧
      IsFace g' f3 a n c' (g.fData h) z ∧ IsFace g' f4 b n c' (g.fData h) z := by
  obtain ⟨z, _, _, hzf⟩ := zone_of G.zones ((G.mesh.edge_face e he f).1 (by simp [hf])).1
  obtain ⟨g', c, c', n, _, _, _, _, f1, f2, f3, f4, h1, -, -, -, -, h6, h7, h8, h9, h10, h11, -⟩ := C34_cut_edge G he hf hn hzf hp
  exact ⟨g', c, c', n, f1, f2, f3, f4, z, h1, hzf, by rw [← hz, hzf], (h6 c).2 (by simp), (h7 c').2 (by simp), h8, h9, h10, h11⟩

/-- Whenever the faces at an inner edge are in different zones, both parts of the second face are put into the zone of the first
face. -/
theorem C35_cross_zone_violation {rc : Vec F → R} {g : Grid F R} (G : Good rc g) {e f h a b z z' : Nat} {p : Vec F} (he : e ∈ g.edges)
    (hf : g.eFaces e = [f, h]) (hn : g.eNodes e = [a, b]) (hz : g.fZone f = some z) (hz' : g.fZone h = some z') (hne : z ≠ z')
    (hp : NewPlace rc g p) :
    ∃ g' c' n f3 f4, g.cutEdge rc e p = .ok (g', true) ∧ (∀ m, m ∈ g.fNodes h ↔ m = a ∨ m = b ∨ m = c') ∧
      (∀ m, m ∈ g'.fNodes f3 ↔ m = a ∨ m = n ∨ m = c') ∧ (∀ m, m ∈ g'.fNodes f4 ↔ m = b ∨ m = n ∨ m = c') ∧
      f3 ∈ g'.faces ∧ f4 ∈ g'.faces ∧ g'.fZone f3 ≠ some z' ∧ g'.fZone f4 ≠ some z' := by
  obtain ⟨g', c, c', n, _, _, _, _, f1, f2, f3, f4, h1, -, -, -, -, h6, h7, h8, h9, h10, h11, -⟩ := C34_cut_edge G he hf hn hz hp
  exact ⟨g', c', n, f3, f4, h1, h7, h10.corners, h11.corners, h10.face, h11.face, by rw [h10.zone]; simpa using hne,
    by rw [h11.zone]; simpa using hne⟩

/-- This happens for the two-zone sample: the result has a zone without faces, whose list of nodes is not that of the nodes of its
faces any more. -/
theorem C35_sample_violation : ∃ g' z, Sample.grid.cutEdge Sample.rc 3 ⟨9, 9, 9⟩ = .ok (g', true) ∧ z ∈ g'.zones ∧
    g'.zFaces z = [] ∧ g'.zNodes z ≠ [] ∧ ZoneLists Sample.grid ∧ ¬ ZoneLists g' := by
  have h : ∃ r, Sample.grid.cutEdge Sample.rc 3 ⟨9, 9, 9⟩ = .ok r ∧ r.2 = true ∧ 1 ∈ r.1.zones ∧ r.1.zFaces 1 = [] ∧ r.1.zNodes 1 ≠ [] := by
    have h' : (match Sample.grid.cutEdge Sample.rc 3 ⟨9, 9, 9⟩ with
      | .ok r => decide (r.2 = true ∧ 1 ∈ r.1.zones ∧ r.1.zFaces 1 = [] ∧ r.1.zNodes 1 ≠ [])
      | .error _ => false) = true := by decide +kernel
    revert h'
    cases Sample.grid.cutEdge Sample.rc 3 ⟨9, 9, 9⟩ with
    | ok r => intro h'; exact ⟨r, rfl, of_decide_eq_true h'⟩
    | error _ => intro h'; cases h'
  obtain ⟨⟨g', b⟩, h1, h2, h3, h4, h5⟩ := h
  simp only at h2 h3 h4 h5
  subst h2
  refine ⟨g', 1, h1, h3, h4, h5, Sample.loaded.2.lists, fun L => h5 ?_⟩
  rw [List.eq_nil_iff_forall_not_mem]
  intro n hn
  rw [L.nodes 1 h3] at hn
  simp [h4] at hn

/-! ## C36 collapse_face -/

/-- `max_edge_from_face` gives a longest edge of the face (the first one). -/
theorem C36_longest {F : Type} [LinearOrder F] (dist : Vec F → Vec F → F) {rc : Vec F → R} {g : Grid F R} (G : Good rc g) {f : Nat}
    (hf : f ∈ g.faces) :
    ∃ e ∈ g.fEdges f, g.maxEdge dist (fun x y => decide (y < x)) f = .ok e ∧
      (∀ e' ∈ g.fEdges f, ∀ a b a' b', g.eNodes e = [a, b] → g.eNodes e' = [a', b'] →
        dist (g.nP a') (g.nP b') ≤ dist (g.nP a) (g.nP b)) ∧
      ∃ l1 l2, g.fEdges f = l1 ++ e :: l2 ∧ ∀ e' ∈ l1, ∀ a b a' b', g.eNodes e = [a, b] → g.eNodes e' = [a', b'] →
        dist (g.nP a') (g.nP b') < dist (g.nP a) (g.nP b) := maxEdge_longest dist G.mesh hf

/-- If the chosen edge has two faces, and its opposite corners are not joined by an edge, `collapse_face` replaces the edge by
an edge joining the opposite corners. -/
theorem C36_collapse_face {rc : Vec F → R} (dist : Vec F → Vec F → F) (gt : F → F → Bool) {g : Grid F R} (G : Good rc g)
    {f h e a b c c' z : Nat} (he : e ∈ g.edges) (hm : g.maxEdge dist gt f = .ok e)
    (hf : ∀ x, x ∈ g.eFaces e ↔ x = f ∨ x = h) (hfh : f ≠ h) (hn : g.eNodes e = [a, b])
    (hcf : ∀ n, n ∈ g.fNodes f ↔ n = a ∨ n = b ∨ n = c) (hch : ∀ n, n ∈ g.fNodes h ↔ n = a ∨ n = b ∨ n = c')
    (hz : g.fZone f = some z) (hj : ∀ x ∈ g.edges, ¬ Joins g x c c') :
    ∃ g' e' f1 f2, g.collapseFace dist gt f = .ok (g', true) ∧ Good rc g' ∧ Keeps [f, h] [e] g g' ∧
      Swaps [f, h] [e] [] [e'] [f1, f2] g g' ∧ Joins g' e' c c' ∧
      IsFace g' f1 a c c' (g.fData f) z ∧ IsFace g' f2 b c c' (g.fData f) z ∧
      (ZoneLists g → g.fZone h = some z → ZoneLists g') := by
  obtain ⟨P, g', h1, h2, h3, h4, h5, hr, o, i1, i2, j⟩ := flip_outcome G he hf hfh hn hcf hch hz hj
  have k := o.keeps
  have s := o.swaps
  have zl := o.zoneLists
  rw [h1, h2] at k
  rw [h1, h2, h3, h4, h5] at s
  rw [h1] at zl
  refine ⟨g', _, _, _, ?_, o.good, k, s, j, i1, i2, fun L hz' => zl L (by simp [hz, hz'])⟩
  have hl : (g.eFaces e).length = 2 := by
    have hp : [f, h].Perm (g.eFaces e) :=
      (List.perm_ext_iff_of_nodup (by simp [hfh]) (G.mesh.edge_faces e he).2).2 fun x => by rw [hf]; simp
    rw [← hp.length_eq]; rfl
  unfold collapseFace
  rw [hm, res_bind_ok, if_pos hl, hr]; rfl

/-- If the chosen edge has not two faces nothing changes and the result is `False`. -/
theorem C36_border {rc : Vec F → R} (dist : Vec F → Vec F → F) (gt : F → F → Bool) {g : Grid F R} {f e : Nat}
    (hm : g.maxEdge dist gt f = .ok e) (h : (g.eFaces e).length ≠ 2) : g.collapseFace dist gt f = .ok (g, false) := by
  unfold collapseFace
  rw [hm, res_bind_ok, if_neg h]

/-- The condition on the opposite corners is needed: flipping an edge of a tetrahedron gives two edges between the same nodes. -/
theorem C36_tetrahedron_violation : Good Sample.rc Sample.tetraGrid ∧
    ∃ g', Sample.tetraGrid.collapseFace Sample.dist (fun x y => decide (y < x)) 0 = .ok (g', true) ∧
      ∃ e ∈ g'.edges, ∃ e' ∈ g'.edges, e ≠ e' ∧ ∀ n, n ∈ g'.eNodes e ↔ n ∈ g'.eNodes e' := by
  refine ⟨Sample.tetra_good.1, ?_⟩
  have h' : (match Sample.tetraGrid.collapseFace Sample.dist (fun x y => decide (y < x)) 0 with
    | .ok r => decide (r.2 = true ∧ ∃ e ∈ r.1.edges, ∃ e' ∈ r.1.edges, e ≠ e' ∧ r.1.eNodes e = r.1.eNodes e')
    | .error _ => false) = true := by decide +kernel
  revert h'
  cases Sample.tetraGrid.collapseFace Sample.dist (fun x y => decide (y < x)) 0 with
  | ok r =>
    intro h'
    obtain ⟨g', b⟩ := r
    obtain ⟨h2, e, h3, e', h4, h5, h6⟩ := of_decide_eq_true h'
    simp only at h2 h3 h4 h6
    subst h2
    exact ⟨g', rfl, e, h3, e', h4, h5, fun n => by rw [h6]⟩
  | error _ => intro h'; cases h'

/-! ## C38 Numbers of objects -/

/-- `divide_face`: one node, three edges and two faces more. -/
theorem C38_divide_face {rc : Vec F → R} {g g' : Grid F R} (G : Good rc g) {f : Nat} {p : Vec F} (hf : f ∈ g.faces)
    (hp : NewPlace rc g p) (h : g.divideFace rc f p = .ok g') :
    counts g' = (g.nodes.length + 1, g.edges.length + 3, g.faces.length + 2) ∧ euler g' = euler g := by
  obtain ⟨a, b, c, hn⟩ := List.length_eq_three.1 (G.mesh.face_nodes f hf).1
  obtain ⟨z, _, _, hz⟩ := zone_of G.zones hf
  obtain ⟨P, g2, h1, h2, h3, h4, h5, hr, o, -⟩ := divideFace_outcome G hf hn hz hp
  rw [h] at hr
  obtain rfl := Except.ok.inj hr
  have := o.lf; have := o.le; have := o.ln
  simp only [h1, h2, h3, h4, h5, List.length_cons, List.length_nil] at *
  unfold counts euler
  refine ⟨?_, ?_⟩
  · simp only [Prod.mk.injEq]; omega
  · omega

/-- `cut_single_edge` on a border edge: one node, two edges and one face more. -/
theorem C38_cut_single_edge {rc : Vec F → R} {g g' : Grid F R} (G : Good rc g) {e : Nat} {p : Vec F} (he : e ∈ g.edges)
    (hp : NewPlace rc g p) (h : g.cutSingleEdge rc e p = .ok (g', true)) :
    counts g' = (g.nodes.length + 1, g.edges.length + 2, g.faces.length + 1) ∧ euler g' = euler g := by
  unfold cutSingleEdge at h
  split at h
  · rename_i hl
    obtain ⟨f, hf⟩ := List.length_eq_one_iff.1 hl
    obtain ⟨a, b, hn⟩ := eNodes_pair G.mesh he
    obtain ⟨z, _, _, hz⟩ := zone_of G.zones ((G.mesh.edge_face e he f).1 (by simp [hf])).1
    obtain ⟨P, g2, c, h1, h2, h3, h4, h5, hr, o, -⟩ := cutBorder_outcome G he hf hn hz hp
    rw [hr] at h
    obtain rfl := (Prod.ext_iff.1 (Except.ok.inj h)).1
    have := o.lf; have := o.le; have := o.ln
    simp only [h1, h2, h3, h4, h5, List.length_cons, List.length_nil] at *
    unfold counts euler
    refine ⟨?_, ?_⟩
    · simp only [Prod.mk.injEq]; omega
    · omega
  · cases h

/-- `cut_edge` on an inner edge: one node, three edges and two faces more. -/
theorem C38_cut_edge {rc : Vec F → R} {g g' : Grid F R} (G : Good rc g) {e : Nat} {p : Vec F} (he : e ∈ g.edges)
    (hp : NewPlace rc g p) (h : g.cutEdge rc e p = .ok (g', true)) :
    counts g' = (g.nodes.length + 1, g.edges.length + 3, g.faces.length + 2) ∧ euler g' = euler g := by
  unfold cutEdge at h
  split at h
  · rename_i hl
    obtain ⟨f, k, hf⟩ := List.length_eq_two.1 hl
    obtain ⟨a, b, hn⟩ := eNodes_pair G.mesh he
    obtain ⟨z, _, _, hz⟩ := zone_of G.zones ((G.mesh.edge_face e he f).1 (by simp [hf])).1
    obtain ⟨P, g2, c, c', h1, h2, h3, h4, h5, hr, o, -⟩ := cutInner_outcome G he hf hn hz hp
    rw [hr] at h
    obtain rfl := (Prod.ext_iff.1 (Except.ok.inj h)).1
    have := o.lf; have := o.le; have := o.ln
    simp only [h1, h2, h3, h4, h5, List.length_cons, List.length_nil] at *
    unfold counts euler
    refine ⟨?_, ?_⟩
    · simp only [Prod.mk.injEq]; omega
    · omega
  · cases h

/-- `cut_edge_with_two_nodes`: two nodes, four edges and two faces more at a border edge; two nodes, six edges and four faces
more at an inner edge. -/
theorem C38_two_nodes {rc : Vec F → R} {g g' : Grid F R} (G : Good rc g) {e : Nat} {p1 p2 : Vec F} (he : e ∈ g.edges)
    (hp1 : NewPlace rc g p1) (hp2 : NewPlace rc g p2) (hpp : rc p2 ≠ rc p1) (h : g.cutEdgeTwoNodes rc e p1 p2 = .ok (g', true)) :
    ((g.eFaces e).length = 1 → counts g' = (g.nodes.length + 2, g.edges.length + 4, g.faces.length + 2)) ∧
    ((g.eFaces e).length = 2 → counts g' = (g.nodes.length + 2, g.edges.length + 6, g.faces.length + 4)) ∧ euler g' = euler g := by
  unfold cutEdgeTwoNodes at h
  obtain ⟨a, b, hn⟩ := eNodes_pair G.mesh he
  split at h
  · rename_i hl
    obtain ⟨f, hf⟩ := List.length_eq_one_iff.1 hl
    obtain ⟨z, _, _, hz⟩ := zone_of G.zones ((G.mesh.edge_face e he f).1 (by simp [hf])).1
    obtain ⟨P, g2, c, h1, h2, h3, h4, h5, hr, o, -⟩ := cutBorder2_outcome G he hf hn hz hp1 hp2 hpp
    rw [hr] at h
    obtain rfl := (Prod.ext_iff.1 (Except.ok.inj h)).1
    have := o.lf; have := o.le; have := o.ln
    simp only [h1, h2, h3, h4, h5, List.length_cons, List.length_nil] at *
    unfold counts euler
    refine ⟨fun _ => ?_, fun h2 => ?_, ?_⟩
    · simp only [Prod.mk.injEq]; omega
    · omega
    · omega
  · split at h
    · rename_i hl
      obtain ⟨f, k, hf⟩ := List.length_eq_two.1 hl
      obtain ⟨z, _, _, hz⟩ := zone_of G.zones ((G.mesh.edge_face e he f).1 (by simp [hf])).1
      obtain ⟨P, g2, c, c', h1, h2, h3, h4, h5, hr, o, -⟩ := cutInner2_outcome G he hf hn hz hp1 hp2 hpp
      rw [hr] at h
      obtain rfl := (Prod.ext_iff.1 (Except.ok.inj h)).1
      have := o.lf; have := o.le; have := o.ln
      simp only [h1, h2, h3, h4, h5, List.length_cons, List.length_nil] at *
      unfold counts euler
      refine ⟨fun _ => ?_, fun h2 => ?_, ?_⟩
      · omega
      · simp only [Prod.mk.injEq]; omega
      · omega
    · cases h

/-- `collapse_face` keeps all three numbers. -/
theorem C38_collapse_face {rc : Vec F → R} (dist : Vec F → Vec F → F) (gt : F → F → Bool) {g g' : Grid F R} (G : Good rc g)
    {f : Nat} {r : Bool} (hf : f ∈ g.faces) (hj : ∀ e, g.maxEdge dist gt f = .ok e → Flippable g f e)
    (h : g.collapseFace dist gt f = .ok (g', r)) : counts g' = counts g ∧ euler g' = euler g := by
  rcases collapse_cases dist gt G hf hj with h1 | ⟨P, g2, h1, hdf, hde, hnn, hen, hfn, _, o, -⟩
  · rw [h] at h1
    obtain rfl := (Prod.ext_iff.1 (Except.ok.inj h1)).1
    exact ⟨rfl, rfl⟩
  · rw [h] at h1
    obtain rfl := (Prod.ext_iff.1 (Except.ok.inj h1)).1
    have := o.lf; have := o.le; have := o.ln
    simp only [hdf, hde, hnn, hen, hfn] at *
    unfold counts euler
    refine ⟨?_, ?_⟩
    · simp only [Prod.mk.injEq]; omega
    · omega

/-! ## C37 Sequences of transformations -/

/-- An applicable transformation of a consistent grid is carried out without error; the result is consistent, in particular
identifiers are `0 .. count - 1`, and the Euler characteristic is the same. -/
theorem C37_step {rc : Vec F → R} (mid : Vec F → Vec F → Vec F) (dist : Vec F → Vec F → F) (gt : F → F → Bool) {g : Grid F R} (G : Good rc g)
    (o : Op F) (ha : o.Applicable rc mid dist gt g) : ∃ g', o.run rc mid dist gt g = .ok g' ∧ Good rc g' ∧ GloPerm g' ∧ euler g' = euler g := by
  obtain ⟨g', h1, h2, h3⟩ := step_ok mid dist gt G o ha
  exact ⟨g', h1, h2, h2.glo, h3⟩

/-- After any sequence of applicable transformations the grid is consistent, in particular the identifiers of nodes, edges and
faces are `0 .. count - 1` without repetition. (For `collapse_edge` this is the case exactly if `LastIds`, see C76.) -/
theorem C37_sequences_partial {rc : Vec F → R} (mid : Vec F → Vec F → Vec F) (dist : Vec F → Vec F → F) (gt : F → F → Bool) {g g' : Grid F R} (G : Good rc g)
    (h : Steps rc mid dist gt g g') : Good rc g' ∧ GloPerm g' := by
  induction h with
  | refl => exact ⟨G, G.glo⟩
  | step o _ ha hr ih =>
    obtain ⟨g2, h1, h2, _⟩ := step_ok mid dist gt ih.1 o ha
    rw [hr] at h1
    obtain rfl := Except.ok.inj h1
    exact ⟨h2, h2.glo⟩

/-- With `collapse_edge` this fails: on a consistent grid the identifiers of faces become `0, 1, 2, 4, 6, 3`. -/
theorem C37_collapse_edge_violation : Good Sample.rc Sample.squareGrid ∧
    ∃ g', Sample.squareGrid.collapseEdge Sample.rc Sample.mid 8 = .ok (g', true) ∧ ¬ GloPerm g' := by
  refine ⟨Sample.square_good.1, ?_⟩
  have h' : (match Sample.squareGrid.collapseEdge Sample.rc Sample.mid 8 with
    | .ok r => decide (r.2 = true ∧ r.1.faces.map r.1.fGlo = [0, 1, 2, 4, 6, 3])
    | .error _ => false) = true := by decide +kernel
  revert h'
  cases Sample.squareGrid.collapseEdge Sample.rc Sample.mid 8 with
  | ok r =>
    intro h'
    obtain ⟨g', b⟩ := r
    obtain ⟨h2, h3⟩ := of_decide_eq_true h'
    simp only at h2 h3
    subst h2
    refine ⟨g', rfl, fun p => ?_⟩
    have hp := p.faces
    have hl : g'.faces.length = 6 := by rw [← List.length_map (f := g'.fGlo), h3]; rfl
    rw [h3, hl] at hp
    exact absurd (hp.mem_iff.2 (by decide : 5 ∈ List.range 6)) (by decide)
  | error _ => intro h'; cases h'

/-- And on an edge whose second end belongs to no other faces it raises `IndexError`. -/
theorem C37_collapse_edge_error : Sample.squareGrid.collapseEdge Sample.rc Sample.mid 10 = .error .index := by
  have h' : (match Sample.squareGrid.collapseEdge Sample.rc Sample.mid 10 with
    | .ok _ => false
    | .error e => decide (e = .index)) = true := by decide +kernel
  revert h'
  cases Sample.squareGrid.collapseEdge Sample.rc Sample.mid 10 with
  | ok r => intro h'; cases h'
  | error e => intro h'; rw [of_decide_eq_true h']

/-- The Euler characteristic is the same after any sequence of applicable transformations. -/
theorem C38_sequences {rc : Vec F → R} (mid : Vec F → Vec F → Vec F) (dist : Vec F → Vec F → F) (gt : F → F → Bool) {g g' : Grid F R} (G : Good rc g)
    (h : Steps rc mid dist gt g g') : euler g' = euler g := by
  induction h with
  | refl => rfl
  | step o hs ha hr ih =>
    obtain ⟨g2, h1, _, h3⟩ := step_ok mid dist gt (C37_sequences_partial mid dist gt G hs).1 o ha
    rw [hr] at h1
    obtain rfl := Except.ok.inj h1
    rw [h3, ih]

/-! ## The hypotheses can be met -/

/-- `C32`: face 0 of the two-zone sample can be divided at a new point. -/
example : Good Sample.rc Sample.grid ∧ ZoneLists Sample.grid ∧ 0 ∈ Sample.grid.faces ∧ Sample.grid.fNodes 0 = [0, 1, 2] ∧
    Sample.grid.fZone 0 = some 0 ∧ NewPlace Sample.rc Sample.grid ⟨9, 9, 9⟩ := by
  refine ⟨Sample.good, Sample.loaded.2.lists, by decide +kernel, by decide +kernel, by decide +kernel, ?_⟩
  unfold NewPlace; decide +kernel

/-- `C32_loaded_good`: for the same file. -/
example : NonDegenerate Sample.rc true Sample.square ∧ NoTwins Sample.rc Sample.square ∧
    loadBlocks Sample.rc true Sample.new Sample.square = .ok Sample.squareGrid := by
  refine ⟨by decide +kernel, ?_, Sample.square_load⟩
  have h : (Verif.fileFaces Sample.rc true Sample.square).Pairwise (fun s t => ∃ c ∈ s, c ∉ t) := by decide +kernel
  refine h.imp ?_
  rintro s t ⟨c, h1, h2⟩ h3
  exact h2 ((h3 c).1 h1)

/-- `C33`, `C34`: it has border edges and inner edges, also between different zones (`C35`). -/
example : 0 ∈ Sample.grid.edges ∧ Sample.grid.eFaces 0 = [0] ∧ 2 ∈ Sample.grid.edges ∧ Sample.grid.eFaces 2 = [0, 1] ∧
    Sample.grid.fZone 0 = some 0 ∧ Sample.grid.fZone 1 = some 0 ∧
    3 ∈ Sample.grid.edges ∧ Sample.grid.eFaces 3 = [1, 2] ∧ Sample.grid.fZone 2 = some 1 := by decide +kernel

/-- `C34_two_nodes`: two different new points. -/
example : NewPlace Sample.rc Sample.grid ⟨9, 9, 9⟩ ∧ NewPlace Sample.rc Sample.grid ⟨8, 8, 8⟩ ∧
    Sample.rc ⟨8, 8, 8⟩ ≠ Sample.rc ⟨9, 9, 9⟩ := by unfold NewPlace; decide +kernel

/-- `C36`: the longest edge of face 1 of the square is flippable. -/
example : Sample.squareGrid.maxEdge Sample.dist (fun x y => decide (y < x)) 1 = .ok 2 ∧
    (∀ x, x ∈ Sample.squareGrid.eFaces 2 ↔ x = 1 ∨ x = 0) ∧ Sample.squareGrid.eNodes 2 = [1, 3] ∧
    (∀ n, n ∈ Sample.squareGrid.fNodes 1 ↔ n = 1 ∨ n = 3 ∨ n = 4) ∧ (∀ n, n ∈ Sample.squareGrid.fNodes 0 ↔ n = 1 ∨ n = 3 ∨ n = 0) ∧
    ∀ x ∈ Sample.squareGrid.edges, ¬ Joins Sample.squareGrid x 4 0 := by
  have h1 : (match Sample.squareGrid.maxEdge Sample.dist (fun x y => decide (y < x)) 1 with
    | .ok e => decide (e = 2)
    | .error _ => false) = true := by decide +kernel
  have h2 : Sample.squareGrid.eFaces 2 = [0, 1] := by decide +kernel
  have h3 : Sample.squareGrid.fNodes 1 = [1, 4, 3] := by decide +kernel
  have h4 : Sample.squareGrid.fNodes 0 = [0, 1, 3] := by decide +kernel
  have h5 : ∀ x ∈ Sample.squareGrid.edges, ¬ (4 ∈ Sample.squareGrid.eNodes x ∧ 0 ∈ Sample.squareGrid.eNodes x) := by decide +kernel
  refine ⟨?_, ?_, by decide +kernel, ?_, ?_, fun x hx hj => h5 x hx ⟨(hj 4).2 (Or.inl rfl), (hj 0).2 (Or.inr rfl)⟩⟩
  · revert h1
    cases Sample.squareGrid.maxEdge Sample.dist (fun x y => decide (y < x)) 1 with
    | ok e => intro h; rw [of_decide_eq_true h]
    | error _ => intro h; cases h
  · intro x; rw [h2]; simp; tauto
  · intro n; rw [h3]; simp; tauto
  · intro n; rw [h4]; simp; tauto

/-- `C37`, `C38`: a sequence of two applicable transformations. -/
example : ∃ g', Steps Sample.rc Sample.mid Sample.dist (fun x y => decide (y < x)) Sample.grid g' ∧ g'.nodes.length = 7 := by
  have a1 : (Op.divide 0 ⟨9, 9, 9⟩ : Op Int).Applicable Sample.rc Sample.mid Sample.dist (fun x y => decide (y < x)) Sample.grid := by
    refine ⟨by decide +kernel, ?_⟩
    unfold NewPlace; decide +kernel
  obtain ⟨g1, r1, G1, -, -⟩ := C37_step Sample.mid Sample.dist (fun x y => decide (y < x)) Sample.good _ a1
  have k1 : (match (Op.divide 0 ⟨9, 9, 9⟩ : Op Int).run Sample.rc Sample.mid Sample.dist (fun x y => decide (y < x)) Sample.grid with
    | .ok g => decide (g.nodes.length = 6 ∧ 2 ∈ g.edges ∧ (g.eFaces 2).length = 2 ∧ ∀ n ∈ g.nodes, Sample.rc (g.nP n) ≠ Sample.rc ⟨8, 8, 8⟩)
    | .error _ => false) = true := by decide +kernel
  rw [r1] at k1
  obtain ⟨k2, k3, k4, k5⟩ := of_decide_eq_true k1
  have a2 : (Op.cut 2 ⟨8, 8, 8⟩ : Op Int).Applicable Sample.rc Sample.mid Sample.dist (fun x y => decide (y < x)) g1 := ⟨k3, k5⟩
  obtain ⟨g2, r2, G2, -, -⟩ := C37_step Sample.mid Sample.dist (fun x y => decide (y < x)) G1 _ a2
  refine ⟨g2, .step _ (.step _ .refl a1 r1) a2 r2, ?_⟩
  have hc : g1.cutEdge Sample.rc 2 ⟨8, 8, 8⟩ = .ok (g2, true) := by
    have : ((fun r => r.1) <$> g1.cutEdge Sample.rc 2 ⟨8, 8, 8⟩ : Res (Grid Int (Int × Int × Int))) = .ok g2 := r2
    unfold cutEdge at this ⊢
    rw [if_pos k4] at this ⊢
    cases hr : g1.cutInner Sample.rc 2 ⟨8, 8, 8⟩ with
    | ok g =>
      rw [hr] at this
      have : g = g2 := Except.ok.inj this
      rw [this]; rfl
    | error _ => rw [hr] at this; cases this
  have := (C38_cut_edge G1 k3 k5 hc).1
  unfold counts at this
  simp only [Prod.mk.injEq] at this
  omega

end Verif.Props
