import Verif.Proofs.Transform
import Verif.Proofs.Longest
import Verif.Proofs.Collapse5

/-! Single transformations and their sequences. -/

namespace Verif
namespace Grid
variable {F R : Type}

/-- The two outcomes of `collapse_face`. -/
theorem collapse_cases {rc : Vec F → R} (dist : Vec F → Vec F → F) (gt : F → F → Bool) {g : Grid F R} (G : Good rc g) {f : Nat}
    (hf : f ∈ g.faces) (hj : ∀ e, g.maxEdge dist gt f = .ok e → Flippable g f e) :
    g.collapseFace dist gt f = .ok (g, false) ∨
    ∃ P g', g.collapseFace dist gt f = .ok (g', true) ∧ P.df.length = 2 ∧ P.de.length = 1 ∧ P.nn.length = 0 ∧ P.en.length = 1 ∧
      P.fn.length = 2 ∧ ∃ z, Outcome P rc z g g' ∧ g.fZone f = some z ∧
        (∃ e, g.maxEdge dist gt f = .ok e ∧ ∀ k ∈ P.df, k ∈ g.eFaces e) ∧ ∀ k ∈ P.fn, g'.fData k = g.fData f := by
  obtain ⟨e, hef, hm⟩ := maxEdge_ok dist gt G.mesh hf
  have he := (G.mesh.face_edges f hf).2.2 e hef
  obtain ⟨a, b, hn⟩ := eNodes_pair G.mesh he
  obtain ⟨z, _, _, hz⟩ := zone_of G.zones hf
  by_cases hl : (g.eFaces e).length = 2
  · right
    obtain ⟨u, v, huv⟩ := List.length_eq_two.1 hl
    have hmem : f ∈ g.eFaces e := (G.mesh.edge_face e he f).2 ⟨hf, hef⟩
    have hnd := (G.mesh.edge_faces e he).2
    obtain ⟨h, hfh, hiff⟩ : ∃ h, f ≠ h ∧ ∀ x, x ∈ g.eFaces e ↔ x = f ∨ x = h := by
      rw [huv] at hmem hnd ⊢
      simp only [List.mem_cons, List.not_mem_nil, or_false, List.nodup_cons, not_false_eq_true, List.nodup_nil, and_true] at hmem hnd ⊢
      rcases hmem with rfl | rfl
      · exact ⟨v, hnd, fun _ => Iff.rfl⟩
      · exact ⟨u, fun h => hnd h.symm, fun _ => Or.comm⟩
    obtain ⟨c, c', e13, e23, e14, e24, t⟩ := corner2_any G.mesh G.simple he hiff hfh hn
    have hx := hj e hm h c c' hfh.symm ((hiff h).2 (Or.inr rfl)) ((t.c.corners c).2 (Or.inr (Or.inr rfl)))
      (by rw [hn]; simp [t.c.n13.symm, t.c.n23.symm]) ((t.d.corners c').2 (Or.inr (Or.inr rfl)))
      (by rw [hn]; simp [t.d.n13.symm, t.d.n23.symm])
    obtain ⟨P, g', h1, h2, h3, h4, h5, hr, o, i1, i2, -⟩ := flip_outcome G he hiff hfh hn t.c.corners t.d.corners hz hx
    refine ⟨P, g', ?_, by rw [h1]; rfl, by rw [h2]; rfl, by rw [h3]; rfl, by rw [h4]; rfl, by rw [h5]; rfl, z, o, hz, ⟨e, hm, ?_⟩, ?_⟩
    · unfold collapseFace
      rw [hm, res_bind_ok, if_pos hl, hr]; rfl
    · rw [h1]; simp [hiff]
    · rw [h5]; simp [i1.data, i2.data]
  · left
    unfold collapseFace
    rw [hm, res_bind_ok, if_neg hl]

theorem Outcome.euler {P : Patch} {rc : Vec F → R} {z : Nat} {g g' : Grid F R} (o : Outcome P rc z g g')
    (h : P.nn.length + P.fn.length + P.de.length = P.en.length + P.df.length) : euler g' = euler g := by
  have := o.lf; have := o.le; have := o.ln
  unfold Verif.euler
  omega

variable [DecidableEq R]

theorem step_ok {rc : Vec F → R} (mid : Vec F → Vec F → Vec F) (dist : Vec F → Vec F → F) (gt : F → F → Bool) {g : Grid F R} (G : Good rc g)
    (o : Op F) (ha : o.Applicable rc mid dist gt g) : ∃ g', o.run rc mid dist gt g = .ok g' ∧ Good rc g' ∧ Verif.euler g' = Verif.euler g := by
  have run : ∀ {r : Res (Grid F R × Bool)} {g' : Grid F R} {b : Bool}, r = .ok (g', b) →
      ((fun r => r.1) <$> r : Res (Grid F R)) = .ok g' := by rintro _ _ _ rfl; rfl
  cases o with
  | divide f p =>
    obtain ⟨hf, hp⟩ := ha
    obtain ⟨a, b, c, hn⟩ := List.length_eq_three.1 (G.mesh.face_nodes f hf).1
    obtain ⟨z, _, _, hz⟩ := zone_of G.zones hf
    obtain ⟨P, g2, h1, h2, h3, h4, h5, hr, o, -⟩ := divideFace_outcome G hf hn hz hp
    exact ⟨g2, hr, o.good, o.euler (by rw [h1, h2, h3, h4, h5]; rfl)⟩
  | cut e p =>
    obtain ⟨he, hp⟩ := ha
    obtain ⟨a, b, hn⟩ := eNodes_pair G.mesh he
    by_cases hl : (g.eFaces e).length = 2
    · obtain ⟨f, k, hf⟩ := List.length_eq_two.1 hl
      obtain ⟨z, _, _, hz⟩ := zone_of G.zones ((G.mesh.edge_face e he f).1 (by simp [hf])).1
      obtain ⟨P, g2, c, c', h1, h2, h3, h4, h5, hr, o, -⟩ := cutInner_outcome G he hf hn hz hp
      refine ⟨g2, run (b := true) ?_, o.good, o.euler (by rw [h1, h2, h3, h4, h5]; rfl)⟩
      unfold cutEdge
      rw [if_pos hl, hr]; rfl
    · exact ⟨g, run (b := false) (by unfold cutEdge; rw [if_neg hl]), G, rfl⟩
  | cutSingle e p =>
    obtain ⟨he, hp⟩ := ha
    obtain ⟨a, b, hn⟩ := eNodes_pair G.mesh he
    by_cases hl : (g.eFaces e).length = 1
    · obtain ⟨f, hf⟩ := List.length_eq_one_iff.1 hl
      obtain ⟨z, _, _, hz⟩ := zone_of G.zones ((G.mesh.edge_face e he f).1 (by simp [hf])).1
      obtain ⟨P, g2, c, h1, h2, h3, h4, h5, hr, o, -⟩ := cutBorder_outcome G he hf hn hz hp
      refine ⟨g2, run (b := true) ?_, o.good, o.euler (by rw [h1, h2, h3, h4, h5]; rfl)⟩
      unfold cutSingleEdge
      rw [if_pos hl, hr]; rfl
    · exact ⟨g, run (b := false) (by unfold cutSingleEdge; rw [if_neg hl]), G, rfl⟩
  | cutTwo e p1 p2 =>
    obtain ⟨he, hp1, hp2, hpp⟩ := ha
    obtain ⟨a, b, hn⟩ := eNodes_pair G.mesh he
    rcases (G.mesh.edge_faces e he).1 with hl | hl
    · obtain ⟨f, hf⟩ := List.length_eq_one_iff.1 hl
      obtain ⟨z, _, _, hz⟩ := zone_of G.zones ((G.mesh.edge_face e he f).1 (by simp [hf])).1
      obtain ⟨P, g2, c, h1, h2, h3, h4, h5, hr, o, -⟩ := cutBorder2_outcome G he hf hn hz hp1 hp2 hpp
      refine ⟨g2, run (b := true) ?_, o.good, o.euler (by rw [h1, h2, h3, h4, h5]; rfl)⟩
      unfold cutEdgeTwoNodes
      rw [if_pos hl, hr]; rfl
    · obtain ⟨f, k, hf⟩ := List.length_eq_two.1 hl
      obtain ⟨z, _, _, hz⟩ := zone_of G.zones ((G.mesh.edge_face e he f).1 (by simp [hf])).1
      obtain ⟨P, g2, c, c', h1, h2, h3, h4, h5, hr, o, -⟩ := cutInner2_outcome G he hf hn hz hp1 hp2 hpp
      refine ⟨g2, run (b := true) ?_, o.good, o.euler (by rw [h1, h2, h3, h4, h5]; rfl)⟩
      unfold cutEdgeTwoNodes
      rw [if_neg (by omega), if_pos hl, hr]; rfl
  | collapse f =>
    obtain ⟨hf, hj⟩ := ha
    rcases collapse_cases dist gt G hf hj with h1 | ⟨P, g2, h1, hdf, hde, hnn, hen, hfn, _, o, -⟩
    · exact ⟨g, run h1, G, rfl⟩
    · exact ⟨g2, run h1, o.good, o.euler (by omega)⟩
  | shrink e =>
    by_cases hl : (g.eFaces e).length = 2
    · obtain ⟨n1, n2, C, hi⟩ := ha hl
      obtain ⟨g2, h1, s, h2, h3, h4, h5, h6, h7, h8⟩ := collapseEdge_ok G C
      refine ⟨g2, run h1, ⟨h2, h3, h4, h5, h6, h7, h8.2 hi⟩, ?_⟩
      have := s.counts
      unfold Verif.euler
      omega
    · exact ⟨g, run (b := false) (by unfold collapseEdge; rw [if_neg hl]), G, rfl⟩

end Grid
end Verif
