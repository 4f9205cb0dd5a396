import Verif.Proofs.Orient
import Verif.Proofs.LoadGood

/-! Property C39: orientation of the faces created by transformations. -/

namespace Verif.Props
open Verif Grid
variable {F R : Type} [Field F] [LinearOrder F] [IsStrictOrderedRing F] [DecidableEq R]

/-- `divide_face` at a point inside the face: two of the new faces have normals on the side of the normal of the face, the third
one always points to the other side. -/
theorem C39_divide_face_violation {rc : Vec F → R} {g : Grid F R} (G : Good rc g) {f a b c : Nat} (hf : f ∈ g.faces)
    (hn : g.fNodes f = [a, b, c]) {s t u : F} (hs : 0 < s) (ht : 0 < t) (hu : 0 < u) (h1 : s + t + u = 1)
    (hp : NewPlace rc g (mix s (g.nP a) t (g.nP b) u (g.nP c))) :
    ∃ g' f1 f2 f3, g.divideFace rc f (mix s (g.nP a) t (g.nP b) u (g.nP c)) = .ok g' ∧
      (∀ x, x ∈ g'.faces ↔ (x ∈ g.faces ∧ x ≠ f) ∨ x = f1 ∨ x = f2 ∨ x = f3) ∧
      SameSide (faceNormal g' f1) (faceNormal g f) ∧ SameSide (faceNormal g' f2) (faceNormal g f) ∧
      OppositeSide (faceNormal g' f3) (faceNormal g f) := by
  obtain ⟨z, _, _, hz⟩ := zone_of G.zones hf
  obtain ⟨P, g', d1, d2, d3, d4, d5, hr, o, hpn, -, -, -, c1, c2, c3⟩ := divideFace_outcome G hf hn hz hp
  have hm := (G.mesh.face_nodes f hf).2.2
  rw [hn] at hm
  have pa := (o.keeps.nodes a (hm a (by simp))).2.1
  have pb := (o.keeps.nodes b (hm b (by simp))).2.1
  have pc := (o.keeps.nodes c (hm c (by simp))).2.1
  refine ⟨g', g.fNext, g.fNext + 1, g.fNext + 2, hr, ?_, ?_, ?_, ?_⟩
  · intro x; rw [o.swaps.faces, d1, d5]; simp
  · rw [faceNormal_eq c1, faceNormal_eq hn, hpn, pa, pb, mix_ab _ _ _ h1]; exact ⟨u, hu, rfl⟩
  · rw [faceNormal_eq c2, faceNormal_eq hn, hpn, pb, pc, mix_bc _ _ _ h1]; exact ⟨s, hs, rfl⟩
  · rw [faceNormal_eq c3, faceNormal_eq hn, hpn, pa, pc, mix_ac _ _ _ h1]; exact ⟨-t, by linarith, rfl⟩

/-- `cut_single_edge` at a point inside the edge: of the two new faces exactly one points to the side of the face. -/
theorem C39_cut_single_edge_violation {rc : Vec F → R} {g : Grid F R} (G : Good rc g) {e f a b : Nat} (he : e ∈ g.edges)
    (hf : g.eFaces e = [f]) (hn : g.eNodes e = [a, b]) {s t : F} (hs : 0 < s) (ht : 0 < t) (h1 : s + t = 1)
    (hp : NewPlace rc g (mix s (g.nP a) t (g.nP b) 0 (g.nP b))) :
    ∃ g' f1 f2, g.cutSingleEdge rc e (mix s (g.nP a) t (g.nP b) 0 (g.nP b)) = .ok (g', true) ∧
      (∀ x, x ∈ g'.faces ↔ (x ∈ g.faces ∧ x ≠ f) ∨ x = f1 ∨ x = f2) ∧
      SameSide (faceNormal g' f1) (faceNormal g f) ∧ OppositeSide (faceNormal g' f2) (faceNormal g f) := by
  obtain ⟨hfm, hfe⟩ := (G.mesh.edge_face e he f).1 (by simp [hf])
  obtain ⟨z, _, _, hz⟩ := zone_of G.zones hfm
  obtain ⟨P, g', c, d1, d2, d3, d4, d5, hr, o, hpn, hc, ⟨ca, cb⟩, -, -, c1, c2⟩ := cutBorder_outcome G he hf hn hz hp
  have hrun : g.cutSingleEdge rc e (mix s (g.nP a) t (g.nP b) 0 (g.nP b)) = .ok (g', true) := by
    unfold cutSingleEdge
    rw [hf, if_pos (by simp), hr]; rfl
  have hm := (G.mesh.face_nodes f hfm).2.2
  have hab : a ≠ b := by
    have := (G.mesh.edge_nodes e he).2.1
    rw [hn] at this
    simpa using this
  have pa := (o.keeps.nodes a (hm a ((hc a).2 (Or.inl rfl)))).2.1
  have pb := (o.keeps.nodes b (hm b ((hc b).2 (Or.inr (Or.inl rfl))))).2.1
  have pc := (o.keeps.nodes c (hm c ((hc c).2 (Or.inr (Or.inr rfl))))).2.1
  have n1 : faceNormal g' g.fNext = (normal (g.nP a) (g.nP b) (g.nP c)).mul (-t) := by
    rw [faceNormal_eq c1, hpn, pa, pc]
    obtain rfl : s = 1 - t := by linear_combination h1
    simp only [normal, mix, Vec.mul, Vec.mk.injEq]; exact ⟨by ring, by ring, by ring⟩
  have n2 : faceNormal g' (g.fNext + 1) = (normal (g.nP a) (g.nP b) (g.nP c)).mul s := by
    rw [faceNormal_eq c2, hpn, pb, pc]
    obtain rfl : s = 1 - t := by linear_combination h1
    simp only [normal, mix, Vec.mul, Vec.mk.injEq]; exact ⟨by ring, by ring, by ring⟩
  rcases faceNormal_corners G.mesh hfm hab ca cb hc with h | h
  · refine ⟨g', g.fNext + 1, g.fNext, hrun, ?_, ?_, ?_⟩
    · intro x; rw [o.swaps.faces, d1, d5]; simp; tauto
    · rw [n2, h]; exact ⟨s, hs, rfl⟩
    · rw [n1, h]; exact ⟨-t, by linarith, rfl⟩
  · refine ⟨g', g.fNext, g.fNext + 1, hrun, ?_, ?_, ?_⟩
    · intro x; rw [o.swaps.faces, d1, d5]; simp
    · rw [n1, h]; exact ⟨t, ht, by simp [Vec.mul]⟩
    · rw [n2, h]; exact ⟨-s, by linarith, by simp [Vec.mul]⟩

private theorem order1 (P a b c d : Prop) : (P ∨ a ∨ c ∨ b ∨ d) ↔ (P ∨ a ∨ b ∨ d ∨ c) := by tauto
private theorem order2 (P a b c d : Prop) : (P ∨ a ∨ c ∨ b ∨ d) ↔ (P ∨ a ∨ b ∨ c ∨ d) := by tauto
private theorem order3 (P a b c d : Prop) : (P ∨ a ∨ c ∨ b ∨ d) ↔ (P ∨ b ∨ a ∨ d ∨ c) := by tauto
private theorem order4 (P a b c d : Prop) : (P ∨ a ∨ c ∨ b ∨ d) ↔ (P ∨ b ∨ a ∨ c ∨ d) := by tauto

/-- `cut_edge` at a point inside the edge: of the two parts of each face exactly one points to the side of that face. -/
theorem C39_cut_edge_violation {rc : Vec F → R} {g : Grid F R} (G : Good rc g) {e f h a b : Nat} (he : e ∈ g.edges)
    (hf : g.eFaces e = [f, h]) (hn : g.eNodes e = [a, b]) {s t : F} (hs : 0 < s) (ht : 0 < t) (h1 : s + t = 1)
    (hp : NewPlace rc g (mix s (g.nP a) t (g.nP b) 0 (g.nP b))) :
    ∃ g' f1 f2 f3 f4, g.cutEdge rc e (mix s (g.nP a) t (g.nP b) 0 (g.nP b)) = .ok (g', true) ∧
      (∀ x, x ∈ g'.faces ↔ (x ∈ g.faces ∧ x ≠ f ∧ x ≠ h) ∨ x = f1 ∨ x = f2 ∨ x = f3 ∨ x = f4) ∧
      SameSide (faceNormal g' f1) (faceNormal g f) ∧ OppositeSide (faceNormal g' f2) (faceNormal g f) ∧
      SameSide (faceNormal g' f3) (faceNormal g h) ∧ OppositeSide (faceNormal g' f4) (faceNormal g h) := by
  obtain ⟨hfm, hfe⟩ := (G.mesh.edge_face e he f).1 (by simp [hf])
  obtain ⟨hhm, hhe⟩ := (G.mesh.edge_face e he h).1 (by simp [hf])
  obtain ⟨z, _, _, hz⟩ := zone_of G.zones hfm
  obtain ⟨P, g', c, c', d1, d2, d3, d4, d5, hr, o, hpn, hc, hc', hnd, -, -, -, -, c1, c2, c3, c4⟩ := cutInner_outcome G he hf hn hz hp
  have hrun : g.cutEdge rc e (mix s (g.nP a) t (g.nP b) 0 (g.nP b)) = .ok (g', true) := by
    unfold cutEdge
    rw [hf, if_pos (by simp), hr]; rfl
  have hm := (G.mesh.face_nodes f hfm).2.2
  have hm' := (G.mesh.face_nodes h hhm).2.2
  simp only [List.nodup_cons, List.mem_cons, List.not_mem_nil, or_false, not_or, not_false_eq_true, List.nodup_nil, and_true] at hnd
  obtain ⟨⟨hab, hac, hac'⟩, ⟨hbc, hbc'⟩, hcc⟩ := hnd
  have pa := (o.keeps.nodes a (hm a ((hc a).2 (Or.inl rfl)))).2.1
  have pb := (o.keeps.nodes b (hm b ((hc b).2 (Or.inr (Or.inl rfl))))).2.1
  have pc := (o.keeps.nodes c (hm c ((hc c).2 (Or.inr (Or.inr rfl))))).2.1
  have pc' := (o.keeps.nodes c' (hm' c' ((hc' c').2 (Or.inr (Or.inr rfl))))).2.1
  have n1 : faceNormal g' g.fNext = (normal (g.nP a) (g.nP b) (g.nP c)).mul s := by
    rw [faceNormal_eq c1, hpn, pb, pc]
    obtain rfl : s = 1 - t := by linear_combination h1
    simp only [normal, mix, Vec.mul, Vec.mk.injEq]; exact ⟨by ring, by ring, by ring⟩
  have n2 : faceNormal g' (g.fNext + 1) = (normal (g.nP a) (g.nP b) (g.nP c)).mul (-t) := by
    rw [faceNormal_eq c2, hpn, pa, pc]
    obtain rfl : s = 1 - t := by linear_combination h1
    simp only [normal, mix, Vec.mul, Vec.mk.injEq]; exact ⟨by ring, by ring, by ring⟩
  have n3 : faceNormal g' (g.fNext + 2) = (normal (g.nP a) (g.nP b) (g.nP c')).mul (-t) := by
    rw [faceNormal_eq c3, hpn, pa, pc']
    obtain rfl : s = 1 - t := by linear_combination h1
    simp only [normal, mix, Vec.mul, Vec.mk.injEq]; exact ⟨by ring, by ring, by ring⟩
  have n4 : faceNormal g' (g.fNext + 3) = (normal (g.nP a) (g.nP b) (g.nP c')).mul s := by
    rw [faceNormal_eq c4, hpn, pb, pc']
    obtain rfl : s = 1 - t := by linear_combination h1
    simp only [normal, mix, Vec.mul, Vec.mk.injEq]; exact ⟨by ring, by ring, by ring⟩
  have part : ∀ {u v n m : Vec F}, u = n.mul s → v = n.mul (-t) → (m = n ∨ m = n.mul (-1)) →
      (SameSide u m ∧ OppositeSide v m) ∨ (SameSide v m ∧ OppositeSide u m) := by
    rintro u v n m rfl rfl (rfl | rfl)
    · exact Or.inl ⟨⟨s, hs, rfl⟩, ⟨-t, by linarith, rfl⟩⟩
    · exact Or.inr ⟨⟨t, ht, by simp [Vec.mul]⟩, ⟨-s, by linarith, by simp [Vec.mul]⟩⟩
  have hfc : ∀ x, x ∈ g'.faces ↔ (x ∈ g.faces ∧ x ≠ f ∧ x ≠ h) ∨ x = g.fNext ∨ x = g.fNext + 2 ∨ x = g.fNext + 1 ∨ x = g.fNext + 3 := by
    intro x; rw [o.swaps.faces, d1, d5]; simp only [List.mem_cons, List.not_mem_nil, or_false, not_or, ne_eq]
  rcases part n1 n2 (faceNormal_corners G.mesh hfm hab (Ne.symm hac) (Ne.symm hbc) hc) with q1 | q1 <;>
    rcases part n4 n3 (faceNormal_corners G.mesh hhm hab (Ne.symm hac') (Ne.symm hbc') hc') with q2 | q2
  · exact ⟨g', _, _, _, _, hrun, fun x => (hfc x).trans (order1 _ _ _ _ _), q1.1, q1.2, q2.1, q2.2⟩
  · exact ⟨g', _, _, _, _, hrun, fun x => (hfc x).trans (order2 _ _ _ _ _), q1.1, q1.2, q2.1, q2.2⟩
  · exact ⟨g', _, _, _, _, hrun, fun x => (hfc x).trans (order3 _ _ _ _ _), q1.1, q1.2, q2.1, q2.2⟩
  · exact ⟨g', _, _, _, _, hrun, fun x => (hfc x).trans (order4 _ _ _ _ _), q1.1, q1.2, q2.1, q2.2⟩

/-- A vector other than zero cannot have both directions, so in the situations above the orientation is really lost. -/
theorem C39_reversed {u v : Vec F} (hv : v ≠ ⟨0, 0, 0⟩) (h : OppositeSide u v) : ¬ SameSide u v := fun h1 => not_both hv h1 h

/-- The situation of `C39_cut_edge_violation` and `C39_divide_face_violation` occurs: the square of two triangles. -/
example : Good Sample.rcq Sample.flatGrid ∧ 2 ∈ Sample.flatGrid.edges ∧ Sample.flatGrid.eFaces 2 = [0, 1] ∧
    NewPlace Sample.rcq Sample.flatGrid (mix (1/2) (Sample.flatGrid.nP 1) (1/2) (Sample.flatGrid.nP 2) 0 (Sample.flatGrid.nP 2)) ∧
    NewPlace Sample.rcq Sample.flatGrid (mix (1/3) (Sample.flatGrid.nP 0) (1/3) (Sample.flatGrid.nP 1) (1/3) (Sample.flatGrid.nP 2)) ∧
    Sample.flatGrid.eFaces 0 = [0] ∧ faceNormal Sample.flatGrid 0 ≠ ⟨0, 0, 0⟩ := by
  refine ⟨Sample.flat_good, by decide +kernel, by decide +kernel, ?_, ?_, by decide +kernel, by decide +kernel⟩
  · unfold NewPlace; decide +kernel
  · unfold NewPlace; decide +kernel

end Verif.Props
