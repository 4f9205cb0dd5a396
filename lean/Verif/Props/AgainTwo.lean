import Verif.Proofs.AnyOutcome
import Verif.Proofs.LoadGood

/-! C106: `cut_edge_with_two_nodes` at any two points. -/

namespace Verif.Props
open Verif Grid
variable {F R : Type} [DecidableEq R]

/-- `cut_edge_with_two_nodes` at an edge with one face never fails, whatever the two points are: nodes which are there are taken, and
one node is taken twice when the points are rounded to the same place. The result is a consistent grid exactly when the two nodes
fit (`CutsTwo.mesh`). -/
theorem C106_one_face {rc : Vec F → R} {g : Grid F R} (G : Good rc g) {e f a b z : Nat} (p1 p2 : Vec F) (he : e ∈ g.edges)
    (hf : g.eFaces e = [f]) (hn : g.eNodes e = [a, b]) (hz : g.fZone f = some z) :
    ∃ g' k1 k2 nn c e1 e2 e3 e4 e5 f1 f2 f3, g.cutEdgeTwoNodes rc e p1 p2 = .ok (g', true) ∧
      CutsTwo rc p1 p2 k1 k2 [f] [e] nn [e1, e2, e3, e4, e5] [f1, f2, f3] a b [c] z g g' ∧
      (∀ n, n ∈ g.fNodes f ↔ n = a ∨ n = b ∨ n = c) ∧
      IsFace g' f1 a k1 c (g.fData f) z ∧ IsFace g' f2 k1 k2 c (g.fData f) z ∧ IsFace g' f3 k2 b c (g.fData f) z := by
  obtain ⟨g', k1, k2, nn, c, hr, h⟩ := cutBorder2_two G p1 p2 he hf hn hz
  refine ⟨g', k1, k2, nn, c, _, _, _, _, _, _, _, _, ?_, h⟩
  unfold cutEdgeTwoNodes
  rw [hf, if_pos (by simp), hr]; rfl

/-- The same for an edge with two faces. -/
theorem C106_two_faces {rc : Vec F → R} {g : Grid F R} (G : Good rc g) {e f h a b z : Nat} (p1 p2 : Vec F) (he : e ∈ g.edges)
    (hf : g.eFaces e = [f, h]) (hn : g.eNodes e = [a, b]) (hz : g.fZone f = some z) :
    ∃ g' k1 k2 nn c c' e1 e2 e3 e4 e5 e6 e7 f1 f2 f3 f4 f5 f6, g.cutEdgeTwoNodes rc e p1 p2 = .ok (g', true) ∧
      CutsTwo rc p1 p2 k1 k2 [f, h] [e] nn [e1, e2, e3, e4, e5, e6, e7] [f1, f2, f3, f4, f5, f6] a b [c, c'] z g g' ∧
      (∀ n, n ∈ g.fNodes f ↔ n = a ∨ n = b ∨ n = c) ∧ (∀ n, n ∈ g.fNodes h ↔ n = a ∨ n = b ∨ n = c') ∧
      IsFace g' f1 a k1 c (g.fData f) z ∧ IsFace g' f2 k1 k2 c (g.fData f) z ∧ IsFace g' f3 k2 b c (g.fData f) z ∧
      IsFace g' f4 a k1 c' (g.fData h) z ∧ IsFace g' f5 k1 k2 c' (g.fData h) z ∧ IsFace g' f6 k2 b c' (g.fData h) z := by
  obtain ⟨g', k1, k2, nn, c, c', hr, h'⟩ := cutInner2_two G p1 p2 he hf hn hz
  refine ⟨g', k1, k2, nn, c, c', _, _, _, _, _, _, _, _, _, _, _, _, _, ?_, h'⟩
  unfold cutEdgeTwoNodes
  rw [hf, if_neg (by simp), if_pos (by simp), hr]; rfl

/-- Two points which are rounded to the same place are not refused, and the result is never a consistent grid: a face with only two
different corners and an edge from a node to itself appear. -/
theorem C106_same_place_violation {rc : Vec F → R} {g : Grid F R} (G : Good rc g) {e : Nat} {p1 p2 : Vec F} (he : e ∈ g.edges)
    (hp : rc p1 = rc p2) :
    ∃ g' f x k c, g.cutEdgeTwoNodes rc e p1 p2 = .ok (g', true) ∧ ¬ Mesh g' ∧ (f ∈ g'.faces ∧ ∀ n, n ∈ g'.fNodes f ↔ n = k ∨ n = c) ∧
      (x ∈ g'.edges ∧ ∀ n, n ∈ g'.eNodes x ↔ n = k) := by
  obtain ⟨hl, _, _⟩ := G.mesh.edge_nodes e he
  obtain ⟨a, b, hn⟩ := List.length_eq_two.1 hl
  rcases (G.mesh.edge_faces e he).1 with h1 | h2
  · obtain ⟨f, hf⟩ := List.length_eq_one_iff.1 h1
    obtain ⟨hfm, _⟩ := (G.mesh.edge_face e he f).1 (by simp [hf])
    obtain ⟨z, _, _, hz⟩ := zone_of G.zones hfm
    obtain ⟨g', k1, k2, nn, c, e1, e2, e3, e4, e5, f1, f2, f3, hr, ct, _, _, t, _⟩ := C106_one_face G p1 p2 he hf hn hz
    obtain rfl := ct.place.2.2.2 hp
    have he3 := ct.ends
    simp only [cutJoins, List.forall₂_cons] at he3
    refine ⟨g', f2, e3, k1, c, hr, fun m => (ct.mesh.1 m).differ rfl, ⟨t.face, ?_⟩, (ct.swaps.edges e3).2 (Or.inr (by simp)), ?_⟩
    · intro n; rw [t.corners]; tauto
    · intro n; rw [he3.2.2.1, or_self]
  · obtain ⟨f, h, hf⟩ := List.length_eq_two.1 h2
    obtain ⟨hfm, _⟩ := (G.mesh.edge_face e he f).1 (by simp [hf])
    obtain ⟨z, _, _, hz⟩ := zone_of G.zones hfm
    obtain ⟨g', k1, k2, nn, c, c', e1, e2, e3, e4, e5, e6, e7, f1, f2, f3, f4, f5, f6, hr, ct, _, _, _, t, _⟩ :=
      C106_two_faces G p1 p2 he hf hn hz
    obtain rfl := ct.place.2.2.2 hp
    have he3 := ct.ends
    simp only [cutJoins, List.forall₂_cons] at he3
    refine ⟨g', f2, e3, k1, c, hr, fun m => (ct.mesh.1 m).differ rfl, ⟨t.face, ?_⟩, (ct.swaps.edges e3).2 (Or.inr (by simp)), ?_⟩
    · intro n; rw [t.corners]; tauto
    · intro n; rw [he3.2.2.1, or_self]

/-- How to check that two nodes fit. -/
theorem fits_of {g : Grid F R} {fs : List Nat} {a b k1 k2 : Nat} {cs : List Nat} (h1 : k1 ≠ k2)
    (h2 : ∀ f ∈ fs, k1 ∉ g.fNodes f ∧ k2 ∉ g.fNodes f)
    (h3 : ∀ j ∈ cutJoins a b k1 k2 cs, ∀ x ∈ g.edges, j.1 ∉ g.eNodes x ∨ j.2 ∉ g.eNodes x) : CutFits g fs a b k1 k2 cs := by
  refine ⟨h1, h2, fun j hj x hx h => ?_⟩
  rcases h3 j hj x hx with h' | h'
  · exact h' ((h j.1).2 (Or.inl rfl))
  · exact h' ((h j.2).2 (Or.inr rfl))

/-- The first edge of a square of eight faces has one face; the node at the far end of the square and a new node fit, in both orders;
two far nodes which are joined to each other do not, and neither does the neighbour across the face. -/
example : Good Sample.rc Sample.squareGrid ∧ 0 ∈ Sample.squareGrid.edges ∧ Sample.squareGrid.eFaces 0 = [0] ∧
    Sample.squareGrid.eNodes 0 = [0, 1] ∧ Sample.squareGrid.fNodes 0 = [0, 1, 3] ∧ 8 ∈ Sample.squareGrid.nodes ∧
    9 ∉ Sample.squareGrid.nodes ∧ CutFits Sample.squareGrid [0] 0 1 8 9 [3] ∧ CutFits Sample.squareGrid [0] 0 1 9 8 [3] ∧
    ¬ CutFits Sample.squareGrid [0] 0 1 8 7 [3] ∧ ¬ CutFits Sample.squareGrid [0] 0 1 9 4 [3] := by
  have no : ∀ k1 k2 j x, j ∈ cutJoins 0 1 k1 k2 [3] → x ∈ Sample.squareGrid.edges → j.1 ∈ Sample.squareGrid.eNodes x →
      j.2 ∈ Sample.squareGrid.eNodes x → j.1 ≠ j.2 → ¬ CutFits Sample.squareGrid [0] 0 1 k1 k2 [3] := by
    intro k1 k2 j x hj hx h1 h2 h3 h
    exact h.unjoined j hj x hx (joins_of Sample.square_good.1.mesh hx h1 h2 h3)
  refine ⟨Sample.square_good.1, by decide +kernel, by decide +kernel, by decide +kernel, by decide +kernel, by decide +kernel,
    by decide +kernel, fits_of (by decide) (by decide +kernel) (by decide +kernel),
    fits_of (by decide) (by decide +kernel) (by decide +kernel), ?_, ?_⟩
  · obtain ⟨x, hx, h1, h2⟩ : ∃ x ∈ Sample.squareGrid.edges, 8 ∈ Sample.squareGrid.eNodes x ∧ 7 ∈ Sample.squareGrid.eNodes x := by
      decide +kernel
    exact no 8 7 (8, 7) x (by decide) hx h1 h2 (by decide)
  · obtain ⟨x, hx, h1, h2⟩ : ∃ x ∈ Sample.squareGrid.edges, 1 ∈ Sample.squareGrid.eNodes x ∧ 4 ∈ Sample.squareGrid.eNodes x := by
      decide +kernel
    exact no 9 4 (1, 4) x (by decide) hx h1 h2 (by decide)

/-- An edge with two faces can be cut at a far node as well. -/
example : 2 ∈ Sample.squareGrid.edges ∧ Sample.squareGrid.eFaces 2 = [0, 1] ∧ Sample.squareGrid.eNodes 2 = [1, 3] ∧
    (0 ∈ Sample.squareGrid.fNodes 0 ∧ 4 ∈ Sample.squareGrid.fNodes 1) ∧ CutFits Sample.squareGrid [0, 1] 1 3 8 9 [0, 4] :=
  ⟨by decide +kernel, by decide +kernel, by decide +kernel, by decide +kernel,
    fits_of (by decide) (by decide +kernel) (by decide +kernel)⟩

end Verif.Props
