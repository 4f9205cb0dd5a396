import Verif.Proofs.AgainOutcome
import Verif.Proofs.LoadGood

/-! C101: transformations at a point which is an existing node. -/

namespace Verif.Props
open Verif Grid
variable {F R : Type} [DecidableEq R]

/-- `divide_face` at a point which rounds to the place of the existing node `k` takes `k` as the new node: the face is replaced
by three faces with corner `k`. It never fails. The result is a consistent grid exactly when `k` is not a corner of the face and not
joined to a corner; `k` is not put into the node list of the zone. -/
theorem C101_divide_face {rc : Vec F → R} {g : Grid F R} (G : Good rc g) {f a b c z k : Nat} {p : Vec F} (hf : f ∈ g.faces)
    (hn : g.fNodes f = [a, b, c]) (hz : g.fZone f = some z) (hk : k ∈ g.nodes) (hp : rc (g.nP k) = rc p) :
    ∃ g' e1 e2 e3 f1 f2 f3, g.divideFace rc f p = .ok g' ∧ Reuses rc k [f] [] [e1, e2, e3] [f1, f2, f3] z g g' ∧
      IsFace g' f1 a b k (g.fData f) z ∧ IsFace g' f2 b c k (g.fData f) z ∧ IsFace g' f3 a c k (g.fData f) z := by
  obtain ⟨g', h⟩ := divideFace_reuses G hf hn hz hk hp
  exact ⟨g', _, _, _, _, _, _, h⟩

/-- The same for `cut_single_edge` at an edge with one face. -/
theorem C101_cut_single_edge {rc : Vec F → R} {g : Grid F R} (G : Good rc g) {e f a b z k : Nat} {p : Vec F} (he : e ∈ g.edges)
    (hf : g.eFaces e = [f]) (hn : g.eNodes e = [a, b]) (hz : g.fZone f = some z) (hk : k ∈ g.nodes) (hp : rc (g.nP k) = rc p) :
    ∃ g' c e1 e2 e3 f1 f2, g.cutSingleEdge rc e p = .ok (g', true) ∧ Reuses rc k [f] [e] [e1, e2, e3] [f1, f2] z g g' ∧
      (∀ m, m ∈ g.fNodes f ↔ m = a ∨ m = b ∨ m = c) ∧
      IsFace g' f1 c k a (g.fData f) z ∧ IsFace g' f2 c k b (g.fData f) z := by
  obtain ⟨g', c, hr, h⟩ := cutBorder_reuses G he hf hn hz hk hp
  refine ⟨g', c, _, _, _, _, _, ?_, h⟩
  unfold cutSingleEdge
  rw [hf, if_pos (by simp), hr]; rfl

/-- The same for `cut_edge` at an edge with two faces. -/
theorem C101_cut_edge {rc : Vec F → R} {g : Grid F R} (G : Good rc g) {e f h a b z k : Nat} {p : Vec F} (he : e ∈ g.edges)
    (hf : g.eFaces e = [f, h]) (hn : g.eNodes e = [a, b]) (hz : g.fZone f = some z) (hk : k ∈ g.nodes) (hp : rc (g.nP k) = rc p) :
    ∃ g' c c' e1 e2 e3 e4 f1 f2 f3 f4, g.cutEdge rc e p = .ok (g', true) ∧
      Reuses rc k [f, h] [e] [e1, e2, e3, e4] [f1, f3, f2, f4] z g g' ∧
      (∀ m, m ∈ g.fNodes f ↔ m = a ∨ m = b ∨ m = c) ∧ (∀ m, m ∈ g.fNodes h ↔ m = a ∨ m = b ∨ m = c') ∧
      IsFace g' f1 k b c (g.fData f) z ∧ IsFace g' f2 k a c (g.fData f) z ∧
      IsFace g' f3 k a c' (g.fData h) z ∧ IsFace g' f4 k b c' (g.fData h) z := by
  obtain ⟨g', c, c', hr, h'⟩ := cutInner_reuses G he hf hn hz hk hp
  refine ⟨g', c, c', _, _, _, _, _, _, _, _, ?_, h'⟩
  unfold cutEdge
  rw [hf, if_pos (by simp), hr]; rfl

/-- A transformation at a point which rounds to a corner of a replaced face never gives a consistent grid: the point is not refused,
and an edge from the corner to itself appears. -/
theorem C101_corner_violation {rc : Vec F → R} {g : Grid F R} (G : Good rc g) {f k : Nat} {p : Vec F} (hf : f ∈ g.faces)
    (hk : k ∈ g.fNodes f) (hp : rc (g.nP k) = rc p) : ∃ g', g.divideFace rc f p = .ok g' ∧ ¬ Mesh g' := by
  obtain ⟨hl, _, hin⟩ := G.mesh.face_nodes f hf
  obtain ⟨a, b, c, hn⟩ := List.length_eq_three.1 hl
  obtain ⟨z, _, _, hz⟩ := zone_of G.zones hf
  obtain ⟨g', _, _, _, _, _, _, h, hr, _⟩ := C101_divide_face G hf hn hz (hin k hk) hp
  exact ⟨g', h, fun m => (hr.mesh.1 m f (by simp)).1 hk⟩

/-- How to check that a node is apart from some faces. -/
theorem unjoined_of {g : Grid F R} {k : Nat} {fs : List Nat}
    (h : ∀ f ∈ fs, k ∉ g.fNodes f ∧ ∀ c ∈ g.fNodes f, ∀ x ∈ g.edges, k ∉ g.eNodes x ∨ c ∉ g.eNodes x) : Unjoined g k fs := by
  intro f hf
  refine ⟨(h f hf).1, fun c hc x hx hj => ?_⟩
  rcases (h f hf).2 c hc x hx with h | h
  · exact h ((hj k).2 (Or.inl rfl))
  · exact h ((hj c).2 (Or.inr rfl))

/-- A node at the far end of a square of eight faces is apart from the first face: dividing this face there keeps the grid
consistent, while a corner of the face or its neighbour gives an inconsistent grid. -/
example : Good Sample.rc Sample.squareGrid ∧ (0 ∈ Sample.squareGrid.faces) ∧ Sample.squareGrid.fNodes 0 = [0, 1, 3] ∧
    (8 ∈ Sample.squareGrid.nodes) ∧ Sample.rc (Sample.squareGrid.nP 8) = Sample.rc ⟨20, 20, 0⟩ ∧ Unjoined Sample.squareGrid 8 [0] ∧
    Sample.rc (Sample.squareGrid.nP 4) = Sample.rc ⟨10, 10, 0⟩ ∧ ¬ Unjoined Sample.squareGrid 4 [0] ∧ ¬ Unjoined Sample.squareGrid 1 [0] := by
  refine ⟨Sample.square_good.1, by decide +kernel, by decide +kernel, by decide +kernel, by decide +kernel,
    unjoined_of (by decide +kernel), by decide +kernel, fun h => ?_, fun h => (h 0 (by simp)).1 (by decide +kernel)⟩
  obtain ⟨x, hx, h1, h2⟩ : ∃ x ∈ Sample.squareGrid.edges, 4 ∈ Sample.squareGrid.eNodes x ∧ 1 ∈ Sample.squareGrid.eNodes x := by
    decide +kernel
  exact (h 0 (by simp)).2 1 (by decide +kernel) x hx (joins_of Sample.square_good.1.mesh hx h1 h2 (by decide))

/-- The hypotheses of the theorems on edges can be met. -/
example : ∃ e x f h i, e ∈ Sample.squareGrid.edges ∧ Sample.squareGrid.eFaces e = [f] ∧ x ∈ Sample.squareGrid.edges ∧
    Sample.squareGrid.eFaces x = [h, i] ∧ Unjoined Sample.squareGrid 8 [f] ∧ Unjoined Sample.squareGrid 8 [h, i] := by
  refine ⟨0, 2, 0, 0, 1, by decide +kernel, by decide +kernel, by decide +kernel, by decide +kernel, unjoined_of (by decide +kernel),
    unjoined_of (by decide +kernel)⟩

end Verif.Props
