import Verif.Props.Transform

/-! C35: when the parts of the faces stay in their zones. -/

namespace Verif.Props
open Verif Grid
variable {F R : Type} [DecidableEq R]

/-- The parts of the first face always stay in its zone. The parts of the second face stay in its zone exactly if both faces are in the same zone. -/
theorem C35_exactly {rc : Vec F → R} {g : Grid F R} (G : Good rc g) {e f h a b : Nat} {p : Vec F} (he : e ∈ g.edges) (hf : g.eFaces e = [f, h])
    (hn : g.eNodes e = [a, b]) (hp : NewPlace rc g p) :
    ∃ g' n c c' f1 f2 f3 f4, g.cutEdge rc e p = .ok (g', true) ∧ n ∉ g.nodes ∧
      (∀ m, m ∈ g.fNodes f ↔ m = a ∨ m = b ∨ m = c) ∧ (∀ m, m ∈ g.fNodes h ↔ m = a ∨ m = b ∨ m = c') ∧
      (f1 ∈ g'.faces ∧ ∀ m, m ∈ g'.fNodes f1 ↔ m = b ∨ m = n ∨ m = c) ∧ (f2 ∈ g'.faces ∧ ∀ m, m ∈ g'.fNodes f2 ↔ m = a ∨ m = n ∨ m = c) ∧
      (f3 ∈ g'.faces ∧ ∀ m, m ∈ g'.fNodes f3 ↔ m = a ∨ m = n ∨ m = c') ∧ (f4 ∈ g'.faces ∧ ∀ m, m ∈ g'.fNodes f4 ↔ m = b ∨ m = n ∨ m = c') ∧
      g'.fZone f1 = g.fZone f ∧ g'.fZone f2 = g.fZone f ∧
      (g'.fZone f3 = g.fZone h ↔ g.fZone f = g.fZone h) ∧ (g'.fZone f4 = g.fZone h ↔ g.fZone f = g.fZone h) := by
  obtain ⟨z, _, _, hz⟩ := zone_of G.zones ((G.mesh.edge_face e he f).1 (by simp [hf])).1
  obtain ⟨g', c, c', n, _, _, _, _, f1, f2, f3, f4, h1, h2, h3, s, h5, h6, h7, h8, h9, h10, h11, -⟩ := C34_cut_edge G he hf hn hz hp
  refine ⟨g', n, c, c', f1, f2, f3, f4, h1, s.fresh.1 n (by simp), h6, h7, ⟨h8.face, h8.corners⟩, ⟨h9.face, h9.corners⟩, ⟨h10.face, h10.corners⟩, ⟨h11.face, h11.corners⟩,
    by rw [h8.zone, hz], by rw [h9.zone, hz], by rw [h10.zone, hz], by rw [h11.zone, hz]⟩

/-- `C35_exactly`: edge 2 of the sample is between faces of one zone, edge 3 between faces of two zones. -/
example : Good Sample.rc Sample.grid ∧ NewPlace Sample.rc Sample.grid ⟨9, 9, 9⟩ ∧
    (2 ∈ Sample.grid.edges ∧ Sample.grid.eFaces 2 = [0, 1] ∧ Sample.grid.fZone 0 = Sample.grid.fZone 1) ∧
    3 ∈ Sample.grid.edges ∧ Sample.grid.eFaces 3 = [1, 2] ∧ Sample.grid.fZone 1 ≠ Sample.grid.fZone 2 :=
  ⟨Sample.good, by unfold NewPlace; decide +kernel, by decide +kernel, by decide +kernel⟩

end Verif.Props
