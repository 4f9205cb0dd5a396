import Verif.Proofs.UnitTest
import Verif.Props.Transform
import Verif.Props.Collapse
import Verif.Props.Again

/-! C104: what the unit test of transformations asserts for one grid, for all grids. -/

namespace Verif.Props
open Verif Grid

section
variable {F R : Type}

/-- The check of the test: the number of items has changed by `d`, and the new identifiers are `0 .. count - 1` in some order. -/
theorem C104_check (old new : List Nat) (d : Int) : UnitTest.checkGloId old new d = true ↔
    (new.length : Int) = old.length + d ∧ new.Perm (List.range new.length) := check_iff old new d

/-- The search ends at the first face whose first edge has `k` faces, or with `IndexError` if there is none. -/
theorem C104_search {rc : Vec F → R} {g : Grid F R} (G : Good rc g) (k : Nat) :
    (∀ f e, UnitTest.findFace g k g.faces = .ok (f, e) ↔ FirstWith g k f e) ∧
    (UnitTest.findFace g k g.faces = .error .index ↔ ∀ f ∈ g.faces, ∀ e es, g.fEdges f = e :: es → (g.eFaces e).length ≠ k) := by
  refine ⟨fun f e => findFace_ok G.mesh, ?_⟩
  rcases findFace_spec (k := k) g.faces (fEdges_ne G.mesh) with ⟨h1, h2⟩ | ⟨f', e', l1, l2, es, h1, h2, h3, h4, h5⟩
  · exact ⟨fun _ => h2, fun _ => h1⟩
  · rw [h1]
    exact ⟨fun h => (nomatch h), fun h => absurd h4 (h f' (by rw [h2]; simp) e' es h3)⟩

/-- Part `collapse_face` passes on every consistent grid for every face whose longest edge can be flipped. -/
theorem C104_collapse_face {rc : Vec F → R} (dist : Vec F → Vec F → F) (gt : F → F → Bool) {g : Grid F R} (G : Good rc g) {i f : Nat}
    (hf : g.faces[i]? = some f) (hj : ∀ e, g.maxEdge dist gt f = .ok e → Flippable g f e) [DecidableEq R] :
    ∃ g', UnitTest.collapseFace dist gt i g = .ok g' ∧ Passes g g' 0 0 0 := by
  have hi := List.mem_of_getElem? hf
  have hg : Py.get g.faces (i : Int) = .ok f := by
    unfold Py.get
    simp only [Int.toNat_natCast, hf]
    rw [if_neg (by omega), if_neg (by omega)]
    simp [hf]
  obtain ⟨g', h1, h2, h3, -⟩ := C37_step (rc := rc) (fun a _ => a) dist gt G (.collapse f) ⟨hi, hj⟩
  have h4 : ∃ r, g.collapseFace dist gt f = .ok (g', r) := by
    simp only [Op.run] at h1
    cases h : g.collapseFace dist gt f with
    | error e => rw [h] at h1; cases h1
    | ok r => rw [h] at h1; obtain rfl := Except.ok.inj h1; exact ⟨r.2, rfl⟩
  obtain ⟨r, h4⟩ := h4
  refine ⟨g', ?_, passes_iff.2 ⟨h3, ?_⟩⟩
  · unfold UnitTest.collapseFace
    rw [hg, res_bind_ok, h4]; rfl
  · have := (C38_collapse_face dist gt G hi hj h4).1
    unfold counts at this
    simp only [Prod.mk.injEq] at this
    omega

variable [DecidableEq R]

/-- Part `collapse_edge` passes if and only if the greatest identifiers belong to the last objects that remain. -/
theorem C104_collapse_edge_partial {rc : Vec F → R} {mid : Vec F → Vec F → Vec F} {g : Grid F R} (G : Good rc g) {f e n1 n2 : Nat}
    (hw : FirstWith g 2 f e) (C : Collapsible rc mid g e n1 n2) :
    ∃ g', UnitTest.collapseEdge rc mid g = .ok g' ∧ (Passes g g' (-1) (-3) (-2) ↔ LastIds g e n2) := by
  obtain ⟨g', h1, s, -⟩ := C76_collapse_edge G C
  refine ⟨g', ?_, ?_⟩
  · unfold UnitTest.collapseEdge
    rw [(findFace_ok G.mesh).2 hw, res_bind_ok, h1]; rfl
  · rw [passes_iff, C76_identifiers G C h1]
    have := s.counts
    exact ⟨fun h => h.1, fun h => ⟨h, by omega⟩⟩

/-- Without an edge that has two faces the part ends with `IndexError`. -/
theorem C104_collapse_edge_none {rc : Vec F → R} (mid : Vec F → Vec F → Vec F) {g : Grid F R} (G : Good rc g)
    (h : ∀ e ∈ g.edges, (g.eFaces e).length ≠ 2) : UnitTest.collapseEdge rc mid g = .error .index := by
  unfold UnitTest.collapseEdge
  rw [(C104_search G 2).2.2 fun f hf e es he => h e ((G.mesh.face_edges f hf).2.2 e (by rw [he]; simp))]
  rfl

end

section
variable {F R : Type} [Field F] [LinearOrder F] [DecidableEq R]

/-- Part `divide_face` passes on every consistent grid with a face, if no node lies at the centre of the first face. -/
theorem C104_divide_face {rc : Vec F → R} {g : Grid F R} (G : Good rc g) {f : Nat} {fs : List Nat} (hf : g.faces = f :: fs)
    (hp : ∀ p, IsCentroid g f p → NewPlace rc g p) : ∃ g', UnitTest.divideFace rc g = .ok g' ∧ Good rc g' ∧ Passes g g' 1 3 2 := by
  have hm : f ∈ g.faces := by rw [hf]; simp
  obtain ⟨p, h1, h2⟩ := centre_ok G.mesh hm
  obtain ⟨a, b, c, hn⟩ := List.length_eq_three.1 (G.mesh.face_nodes f hm).1
  obtain ⟨z, _, _, hz⟩ := zone_of G.zones hm
  obtain ⟨g', _, _, _, _, _, _, _, h3, h4, -⟩ := C32_divide_face G hm hn hz (hp p h2)
  refine ⟨g', ?_, h4, passes_iff.2 ⟨h4.glo, ?_⟩⟩
  · have hg : Py.get g.faces 0 = .ok f := by rw [hf]; rfl
    unfold UnitTest.divideFace
    rw [hg, res_bind_ok, h1, res_bind_ok, h3]
  · have := (C38_divide_face G hm (hp p h2) h3).1
    unfold counts at this
    simp only [Prod.mk.injEq] at this
    omega

/-- If a node lies there, the node is used instead of a new one, and the part fails. -/
theorem C104_divide_face_violation {rc : Vec F → R} {g : Grid F R} (G : Good rc g) {f k : Nat} {fs : List Nat} (hf : g.faces = f :: fs)
    {p : Vec F} (hp : IsCentroid g f p) (hk : k ∈ g.nodes) (hkp : rc (g.nP k) = rc p) :
    ∃ g', UnitTest.divideFace rc g = .ok g' ∧ ¬ Passes g g' 1 3 2 := by
  have hm : f ∈ g.faces := by rw [hf]; simp
  obtain ⟨q, h1, a, b, c, hn, q1, q2, q3⟩ := centre_ok G.mesh hm
  obtain ⟨a', b', c', hn', p1, p2, p3⟩ := hp
  rw [hn] at hn'
  obtain ⟨rfl, rfl, rfl⟩ : a = a' ∧ b = b' ∧ c = c' := by simpa using hn'
  have hpq : q = p := by
    cases p; cases q
    simp only at p1 p2 p3 q1 q2 q3
    rw [p1, p2, p3, q1, q2, q3]
  subst hpq
  obtain ⟨z, _, _, hz⟩ := zone_of G.zones hm
  obtain ⟨g', _, _, _, _, _, _, h3, h4, -⟩ := C101_divide_face G hm hn hz hk hkp
  refine ⟨g', ?_, fun h => ?_⟩
  · have hg : Py.get g.faces 0 = .ok f := by rw [hf]; rfl
    unfold UnitTest.divideFace
    rw [hg, res_bind_ok, h1, res_bind_ok, h3]
  · have := (passes_iff.1 h).2.1
    rw [h4.nodes.1] at this
    omega

/-- Part `cut_edge` passes on every consistent grid on which the search finds an edge, if the point is at a new place. -/
theorem C104_cut_edge {rc : Vec F → R} {g : Grid F R} (G : Good rc g) {f e : Nat} (hw : FirstWith g 2 f e)
    (hp : ∀ p, IsCentroid g f p → NewPlace rc g p) : ∃ g', UnitTest.cutEdge rc g = .ok g' ∧ Good rc g' ∧ Passes g g' 1 3 2 := by
  have he := hw.edge G.mesh
  obtain ⟨p, h1, h2⟩ := centre_ok G.mesh hw.face
  obtain ⟨f1, f2, hf⟩ := List.length_eq_two.1 hw.count
  obtain ⟨a, b, hn⟩ := eNodes_pair G.mesh he
  obtain ⟨z, _, _, hz⟩ := zone_of G.zones ((G.mesh.edge_face e he f1).1 (by simp [hf])).1
  obtain ⟨g', _, _, _, _, _, _, _, _, _, _, _, h3, h4, -⟩ := C34_cut_edge G he hf hn hz (hp p h2)
  refine ⟨g', ?_, h4, passes_iff.2 ⟨h4.glo, ?_⟩⟩
  · unfold UnitTest.cutEdge
    rw [(findFace_ok G.mesh).2 hw, res_bind_ok, h1, res_bind_ok, h3]; rfl
  · have := (C38_cut_edge G he (hp p h2) h3).1
    unfold counts at this
    simp only [Prod.mk.injEq] at this
    omega

/-- Part `cut_single_edge`. -/
theorem C104_cut_single_edge {rc : Vec F → R} {g : Grid F R} (G : Good rc g) {f e : Nat} (hw : FirstWith g 1 f e)
    (hp : ∀ p, IsCentroid g f p → NewPlace rc g p) : ∃ g', UnitTest.cutSingleEdge rc g = .ok g' ∧ Good rc g' ∧ Passes g g' 1 2 1 := by
  have he := hw.edge G.mesh
  obtain ⟨p, h1, h2⟩ := centre_ok G.mesh hw.face
  obtain ⟨f1, hf⟩ := List.length_eq_one_iff.1 hw.count
  obtain ⟨a, b, hn⟩ := eNodes_pair G.mesh he
  obtain ⟨z, _, _, hz⟩ := zone_of G.zones ((G.mesh.edge_face e he f1).1 (by simp [hf])).1
  obtain ⟨g', _, _, _, _, _, _, _, h3, h4, -⟩ := C33_cut_single_edge G he hf hn hz (hp p h2)
  refine ⟨g', ?_, h4, passes_iff.2 ⟨h4.glo, ?_⟩⟩
  · unfold UnitTest.cutSingleEdge
    rw [(findFace_ok G.mesh).2 hw, res_bind_ok, h1, res_bind_ok, h3]; rfl
  · have := (C38_cut_single_edge G he (hp p h2) h3).1
    unfold counts at this
    simp only [Prod.mk.injEq] at this
    omega

/-- Parts `cut_edge_with_two_nodes`: an edge with one face and an edge with two faces. -/
theorem C104_two_nodes {rc : Vec F → R} {g : Grid F R} (G : Good rc g) {k f e : Nat} (hw : FirstWith g k f e) (hk : k = 1 ∨ k = 2)
    (hp : ∀ p, IsCentroid g f p → NewPlace rc g ⟨p.x - 1 / 100, p.y - 1 / 100, p.z - 1 / 100⟩ ∧
      NewPlace rc g ⟨p.x + 1 / 100, p.y + 1 / 100, p.z + 1 / 100⟩ ∧
      rc ⟨p.x + 1 / 100, p.y + 1 / 100, p.z + 1 / 100⟩ ≠ rc ⟨p.x - 1 / 100, p.y - 1 / 100, p.z - 1 / 100⟩) :
    ∃ g', UnitTest.cutTwo rc k g = .ok g' ∧ Good rc g' ∧ (k = 1 → Passes g g' 2 4 2) ∧ (k = 2 → Passes g g' 2 6 4) := by
  have he := hw.edge G.mesh
  obtain ⟨p, h1, h2⟩ := centre_ok G.mesh hw.face
  obtain ⟨p1, p2, p3⟩ := hp p h2
  obtain ⟨a, b, hn⟩ := eNodes_pair G.mesh he
  have hc := hw.count
  have key : ∃ g', g.cutEdgeTwoNodes rc e (p.sub UnitTest.shift) (p.add UnitTest.shift) = .ok (g', true) ∧ Good rc g' := by
    rcases hk with rfl | rfl
    · obtain ⟨f1, hf⟩ := List.length_eq_one_iff.1 hc
      obtain ⟨z, _, _, hz⟩ := zone_of G.zones ((G.mesh.edge_face e he f1).1 (by simp [hf])).1
      obtain ⟨g', _, _, _, _, _, _, _, _, _, _, _, h3, h4, -⟩ := C34_two_nodes_border G he hf hn hz p1 p2 p3
      exact ⟨g', h3, h4⟩
    · obtain ⟨f1, f2, hf⟩ := List.length_eq_two.1 hc
      obtain ⟨z, _, _, hz⟩ := zone_of G.zones ((G.mesh.edge_face e he f1).1 (by simp [hf])).1
      obtain ⟨g', _, _, _, _, _, _, _, _, _, _, _, _, _, _, _, _, _, h3, h4, -⟩ := C34_two_nodes_inner G he hf hn hz p1 p2 p3
      exact ⟨g', h3, h4⟩
  obtain ⟨g', h3, h4⟩ := key
  obtain ⟨c1, c2, -⟩ := C38_two_nodes G he p1 p2 p3 h3
  refine ⟨g', ?_, h4, fun h => passes_iff.2 ⟨h4.glo, ?_⟩, fun h => passes_iff.2 ⟨h4.glo, ?_⟩⟩
  · unfold UnitTest.cutTwo
    rw [(findFace_ok G.mesh).2 hw, res_bind_ok, h1, res_bind_ok, h3]; rfl
  · have := c1 (by rw [hc, h])
    unfold counts at this
    simp only [Prod.mk.injEq] at this
    omega
  · have := c2 (by rw [hc, h])
    unfold counts at this
    simp only [Prod.mk.injEq] at this
    omega

/-- On a closed surface the parts which look for an edge with one face end with `IndexError`, and so does case 020. -/
theorem C104_closed_violation {rc : Vec F → R} {g : Grid F R} (G : Good rc g) (hc : ClosedSurface g) :
    UnitTest.cutSingleEdge rc g = .error .index ∧ UnitTest.cutTwo rc 1 g = .error .index ∧ UnitTest.case020 rc g = .error .index := by
  have h := (C104_search G 1).2.2 fun f hf e es he => by
    rw [hc e ((G.mesh.face_edges f hf).2.2 e (by rw [he]; simp))]; omega
  have h2 : UnitTest.cutTwo rc 1 g = .error .index := by unfold UnitTest.cutTwo; rw [h]; rfl
  refine ⟨?_, h2, ?_⟩
  · unfold UnitTest.cutSingleEdge; rw [h]; rfl
  · unfold UnitTest.case020; rw [h2]; rfl

end

/-! ## Samples -/

namespace UnitTestSample

/-- The square of eight triangles with other places of faces in the file: the first face and the last face have an edge in
common. -/
def swapped : List (ZoneBlock Int) :=
  [ { name := "a".toList
      pts := [⟨0, 0, 0⟩, ⟨10, 0, 0⟩, ⟨20, 0, 0⟩, ⟨0, 10, 0⟩, ⟨10, 10, 0⟩, ⟨20, 10, 0⟩, ⟨0, 20, 0⟩, ⟨10, 20, 0⟩, ⟨20, 20, 0⟩]
      faces := [([], [2, 5, 4]), ([], [1, 2, 4]), ([], [3, 6, 5]), ([], [4, 5, 7]), ([], [5, 8, 7]),
        ([], [5, 6, 8]), ([], [6, 9, 8]), ([], [2, 3, 5])] } ]

/-- The grid loaded from `swapped`. -/
@[irreducible] def swappedGrid : Grid Int (Int × Int × Int) :=
  match Grid.loadBlocks Sample.rc true Sample.new swapped with
  | .ok g => g
  | .error _ => Sample.new

theorem swapped_load : loadBlocks Sample.rc true Sample.new swapped = .ok swappedGrid := by
  have h : (loadBlocks Sample.rc true Sample.new swapped).isOk = true := by decide +kernel
  unfold swappedGrid
  split
  · assumption
  · rename_i e he; rw [he] at h; cases h

/-- A tetrahedron, and a triangle with a vertex of another one at its centre. -/
def tetra : List (ZoneBlock ℚ) :=
  [ { name := "a".toList
      pts := [⟨0, 0, 0⟩, ⟨1, 0, 0⟩, ⟨0, 1, 0⟩, ⟨0, 0, 1⟩]
      faces := [([], [1, 2, 3]), ([], [1, 2, 4]), ([], [1, 3, 4]), ([], [2, 3, 4])] } ]

@[inherit_doc tetra] def pierced : List (ZoneBlock ℚ) :=
  [ { name := "a".toList
      pts := [⟨0, 0, 0⟩, ⟨3, 0, 0⟩, ⟨0, 3, 0⟩, ⟨1, 1, 0⟩, ⟨5, 0, 1⟩, ⟨0, 5, 1⟩]
      faces := [([], [1, 2, 3]), ([], [4, 5, 6])] } ]

/-- What is loaded from rational blocks. -/
@[irreducible] def gridOf (b : List (ZoneBlock ℚ)) : Grid ℚ (ℚ × ℚ × ℚ) :=
  match Grid.loadBlocks Sample.rcq true Grid.empty b with
  | .ok g => g
  | .error _ => Grid.empty

theorem gridOf_good {b : List (ZoneBlock ℚ)} (h : (loadBlocks Sample.rcq true Grid.empty b).isOk = true)
    (hd : NonDegenerate Sample.rcq true b) (ht : NoTwins Sample.rcq b) : Good Sample.rcq (gridOf b) := by
  have hl : loadBlocks Sample.rcq true Grid.empty b = .ok (gridOf b) := by
    unfold gridOf
    split
    · assumption
    · rename_i e he; rw [he] at h; cases h
  exact (C32_loaded_good Sample.rcq _ _ b hd ht hl).1

theorem tetra_good : Good Sample.rcq (gridOf tetra) :=
  gridOf_good (by decide +kernel) (by unfold NonDegenerate; decide +kernel) (List.Pairwise.imp (fun ⟨c, h1, h2⟩ h => h2 ((h c).1 h1)) (show List.Pairwise (fun s t => ∃ c ∈ s, c ∉ t) _ by decide +kernel))

theorem pierced_good : Good Sample.rcq (gridOf pierced) :=
  gridOf_good (by decide +kernel) (by unfold NonDegenerate; decide +kernel) (List.Pairwise.imp (fun ⟨c, h1, h2⟩ h => h2 ((h c).1 h1)) (show List.Pairwise (fun s t => ∃ c ∈ s, c ∉ t) _ by decide +kernel))

theorem flat_good : Good Sample.rcq (gridOf Sample.flat) :=
  gridOf_good (by decide +kernel) (by unfold NonDegenerate; decide +kernel) (List.Pairwise.imp (fun ⟨c, h1, h2⟩ h => h2 ((h c).1 h1)) (show List.Pairwise (fun s t => ∃ c ∈ s, c ∉ t) _ by decide +kernel))

end UnitTestSample

open UnitTestSample

/-- On this grid part `collapse_edge` fails: there are gaps in the identifiers of faces. -/
theorem C104_collapse_edge_violation : Good Sample.rc swappedGrid ∧ ∃ g', UnitTest.collapseEdge Sample.rc Sample.mid swappedGrid = .ok g' ∧
    Mesh g' ∧ ¬ Passes swappedGrid g' (-1) (-3) (-2) := by
  have G := (Sample.good_of (by decide +kernel) (by decide +kernel) (by decide +kernel) swapped_load).1
  have C : Collapsible Sample.rc Sample.mid swappedGrid 0 1 4 :=
    collapsible_of (by decide +kernel) (by decide +kernel) (by decide +kernel) (by decide +kernel) (by decide +kernel)
      (by decide +kernel) (by decide +kernel) (by decide +kernel) (by decide +kernel) (by decide +kernel) (by decide +kernel)
  have hw : FirstWith swappedGrid 2 0 0 := ⟨[], swappedGrid.faces.tail, (swappedGrid.fEdges 0).tail, by decide +kernel, by decide +kernel,
    by decide +kernel, fun h hh => by cases hh⟩
  obtain ⟨g', h1, _, h2, _⟩ := C76_collapse_edge G C
  have h3 : UnitTest.collapseEdge Sample.rc Sample.mid swappedGrid = .ok g' := by
    unfold UnitTest.collapseEdge
    rw [(findFace_ok G.mesh).2 hw, res_bind_ok, h1]; rfl
  obtain ⟨g2, h4, h5⟩ := C104_collapse_edge_partial G hw C
  rw [h3] at h4
  obtain rfl := Except.ok.inj h4
  refine ⟨G, g', h3, h2, fun h => ?_⟩
  have := h5.1 h
  revert this
  unfold LastIds
  decide +kernel

/-- The hypotheses can be met: the centres of the faces of a flat square are at new places, ... -/
example : Good Sample.rcq (gridOf Sample.flat) ∧ (gridOf Sample.flat).faces = [0, 1] ∧ FirstWith (gridOf Sample.flat) 1 0 0 ∧
    (∀ p, IsCentroid (gridOf Sample.flat) 0 p → NewPlace Sample.rcq (gridOf Sample.flat) p) := by
  refine ⟨flat_good, by decide +kernel, ⟨[], [1], [1, 2], by decide +kernel, by decide +kernel, by decide +kernel, fun h hh => by cases hh⟩, ?_⟩
  rintro p ⟨a, b, c, hn, hx, -⟩ n hm he
  have hn' : (gridOf Sample.flat).fNodes 0 = [0, 1, 2] := by decide +kernel
  rw [hn'] at hn
  obtain ⟨rfl, rfl, rfl⟩ : 0 = a ∧ 1 = b ∧ 2 = c := by simpa using hn
  have h0 : ∀ n ∈ (gridOf Sample.flat).nodes, ((gridOf Sample.flat).nP n).x ≠
    (((gridOf Sample.flat).nP 0).x + ((gridOf Sample.flat).nP 1).x + ((gridOf Sample.flat).nP 2).x) / 3 := by decide +kernel
  exact h0 n hm ((congrArg Prod.fst he).trans hx)

/-- ... also when they are moved by 0.01 along the diagonal, ... -/
example : ∀ p, IsCentroid (gridOf Sample.flat) 0 p →
    NewPlace Sample.rcq (gridOf Sample.flat) ⟨p.x - 1 / 100, p.y - 1 / 100, p.z - 1 / 100⟩ ∧
    NewPlace Sample.rcq (gridOf Sample.flat) ⟨p.x + 1 / 100, p.y + 1 / 100, p.z + 1 / 100⟩ ∧
    Sample.rcq ⟨p.x + 1 / 100, p.y + 1 / 100, p.z + 1 / 100⟩ ≠ Sample.rcq ⟨p.x - 1 / 100, p.y - 1 / 100, p.z - 1 / 100⟩ := by
  rintro p ⟨a, b, c, hn, hx, -⟩
  have hn' : (gridOf Sample.flat).fNodes 0 = [0, 1, 2] := by decide +kernel
  rw [hn'] at hn
  obtain ⟨rfl, rfl, rfl⟩ : 0 = a ∧ 1 = b ∧ 2 = c := by simpa using hn
  have h0 : (((gridOf Sample.flat).nP 0).x + ((gridOf Sample.flat).nP 1).x + ((gridOf Sample.flat).nP 2).x) / 3 = 1 / 3 := by decide +kernel
  rw [h0] at hx
  have h1 : ∀ n ∈ (gridOf Sample.flat).nodes, ((gridOf Sample.flat).nP n).x ≠ 1 / 3 - 1 / 100 ∧
    ((gridOf Sample.flat).nP n).x ≠ 1 / 3 + 1 / 100 := by decide +kernel
  rw [hx]
  refine ⟨fun n hn he => (h1 n hn).1 (congrArg Prod.fst he), fun n hn he => (h1 n hn).2 (congrArg Prod.fst he), fun he => ?_⟩
  have := congrArg Prod.fst he
  simp only [Sample.rcq] at this
  revert this
  decide +kernel

/-- ... a tetrahedron is closed, and its first face has an edge with two faces, ... -/
example : Good Sample.rcq (gridOf tetra) ∧ ClosedSurface (gridOf tetra) ∧ FirstWith (gridOf tetra) 2 0 0 := by
  refine ⟨tetra_good, ?_, [], [1, 2, 3], [1, 2], by decide +kernel, by decide +kernel, by decide +kernel, fun h hh => by cases hh⟩
  unfold ClosedSurface
  decide +kernel

/-- ... and there are consistent grids with a node at the centre of the first face. -/
example : Good Sample.rcq (gridOf pierced) ∧ (gridOf pierced).faces = [0, 1] ∧ (3 ∈ (gridOf pierced).nodes) ∧
    ∃ p, IsCentroid (gridOf pierced) 0 p ∧ Sample.rcq ((gridOf pierced).nP 3) = Sample.rcq p := by
  refine ⟨pierced_good, by decide +kernel, by decide +kernel, ⟨1, 1, 0⟩, ⟨0, 1, 2, by decide +kernel, by decide +kernel, by decide +kernel,
    by decide +kernel⟩, by decide +kernel⟩

/-- The longest edge of the first face of the square can be flipped. -/
example : Good Sample.rc Sample.squareGrid ∧ Sample.squareGrid.faces[0]? = some 0 ∧
    ∀ e, Sample.squareGrid.maxEdge Sample.dist (fun x y => decide (y < x)) 0 = .ok e →
      (Sample.squareGrid.eFaces e).length = 2 ∧ Flippable Sample.squareGrid 0 e := by
  refine ⟨Sample.square_good.1, by decide +kernel, fun e h => ?_⟩
  have h' : (match Sample.squareGrid.maxEdge Sample.dist (fun x y => decide (y < x)) 0 with
    | .ok e => decide (e = 2)
    | .error _ => false) = true := by decide +kernel
  rw [h] at h'
  obtain rfl := of_decide_eq_true h'
  refine ⟨by decide +kernel, fun k c c' hk hke hc hce hc' hce' x hx j => ?_⟩
  have h0 : ∀ k ∈ Sample.squareGrid.eFaces 2, k ≠ 0 → ∀ c ∈ Sample.squareGrid.fNodes 0, c ∉ Sample.squareGrid.eNodes 2 →
    ∀ c' ∈ Sample.squareGrid.fNodes k, c' ∉ Sample.squareGrid.eNodes 2 → ∀ x ∈ Sample.squareGrid.edges,
      ¬ (c ∈ Sample.squareGrid.eNodes x ∧ c' ∈ Sample.squareGrid.eNodes x) := by decide +kernel
  exact h0 k hke hk c hc hce c' hc' hce' x hx ⟨(j c).2 (Or.inl rfl), (j c').2 (Or.inr rfl)⟩

end Verif.Props
