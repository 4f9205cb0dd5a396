import Verif.Proofs.AgainDivide
import Verif.Proofs.AgainBorder
import Verif.Proofs.AgainInner

/-! Results of the transformations at a point which is an existing node. -/

namespace Verif
namespace Grid
variable {F R : Type} [DecidableEq R]

theorem divideFace_reuses {rc : Vec F → R} {g : Grid F R} (G : Good rc g) {f a b c z q : Nat} {p : Vec F} (hf : f ∈ g.faces)
    (hn : g.fNodes f = [a, b, c]) (hz : g.fZone f = some z) (hq : q ∈ g.nodes) (hp : rc (g.nP q) = rc p) :
    ∃ g', g.divideFace rc f p = .ok g' ∧
      Reuses rc q [f] [] [g.eNext, g.eNext + 1, g.eNext + 2] [g.fNext, g.fNext + 1, g.fNext + 2] z g g' ∧
      IsFace g' g.fNext a b q (g.fData f) z ∧ IsFace g' (g.fNext + 1) b c q (g.fData f) z ∧
      IsFace g' (g.fNext + 2) a c q (g.fData f) z := by
  obtain ⟨n1, n2, n3, e12, e23, e13, hl, t⟩ := tri G.mesh hf
  rw [hn] at hl
  simp only [List.cons.injEq, and_true] at hl
  obtain ⟨rfl, rfl, rfl⟩ := hl
  obtain ⟨g1, g', d, hr, hb, ⟨x1, x2, x3⟩, gf, ge⟩ := divideFace_again G hf hn t hz hq hp
  have hN : g.nNext ∉ g.nodes := fun h => Nat.lt_irrefl _ (G.alloc.nodes _ h)
  have ka : a ≠ g.nNext := fun h => hN (h ▸ t.nodes.1)
  have kb : b ≠ g.nNext := fun h => hN (h ▸ t.nodes.2.1)
  have kc : c ≠ g.nNext := fun h => hN (h ▸ t.nodes.2.2)
  refine ⟨g', hr, hb.reuses d (divideFace_plan G hf t) G rfl hN hq (zone_mem G hf hz) ⟨3, (List.Perm.of_eq ge).trans (List.Perm.refl _)⟩
    ⟨2, (List.Perm.of_eq gf).trans (List.Perm.refl _)⟩ ?_ ?_ ?_ ?_ ?_ ?_ ?_, Reuses.isFace hb ?_ ?_ x1, Reuses.isFace hb ?_ ?_ x2,
    Reuses.isFace hb ?_ ?_ x3⟩
  · intro n hm
    have h0 : n ≠ g.nNext := Nat.ne_of_lt (G.alloc.nodes n hm)
    simp [divideFacePatch, fstOf_cons, fstOf_nil, hn, h0]
    tauto
  · simp only [divideFacePatch, List.mem_singleton, exists_eq_left, hn, List.mem_cons, List.not_mem_nil, or_false]
    rintro x (rfl | rfl | rfl)
    · exact ⟨g.eNext, by simp, by simp [fstOf_cons, fstOf_nil, or_comm]⟩
    · exact ⟨g.eNext + 1, by simp, by simp [fstOf_cons, fstOf_nil, or_comm]⟩
    · exact ⟨g.eNext + 2, by simp, by simp [fstOf_cons, fstOf_nil, or_comm]⟩
  · simp [divideFacePatch, hn]
  · simp [divideFacePatch]
    exact ⟨⟨a, ka, by simp⟩, ⟨b, kb, by simp⟩, ⟨c, kc, by simp⟩⟩
  · simp [divideFacePatch]
    exact ⟨⟨a, ka, by simp, g.eNext, by simp⟩, ⟨b, kb, by simp, g.eNext + 1, by simp⟩, ⟨c, kc, by simp, g.eNext + 2, by simp⟩⟩
  · simp [divideFacePatch]
  · simp [divideFacePatch]
  all_goals simp [divideFacePatch, Patch.move, fstOf_cons, fstOf_nil, moved_self, moved_ne _ ka, moved_ne _ kb, moved_ne _ kc]

theorem cutBorder_reuses {rc : Vec F → R} {g : Grid F R} (G : Good rc g) {e f a b z q : Nat} {p : Vec F} (he : e ∈ g.edges)
    (hf : g.eFaces e = [f]) (hn : g.eNodes e = [a, b]) (hz : g.fZone f = some z) (hq : q ∈ g.nodes) (hp : rc (g.nP q) = rc p) :
    ∃ g' c, g.cutBorder rc e p = .ok g' ∧
      Reuses rc q [f] [e] [g.eNext, g.eNext + 1, g.eNext + 2] [g.fNext, g.fNext + 1] z g g' ∧
      (∀ n, n ∈ g.fNodes f ↔ n = a ∨ n = b ∨ n = c) ∧
      IsFace g' g.fNext c q a (g.fData f) z ∧ IsFace g' (g.fNext + 1) c q b (g.fData f) z := by
  obtain ⟨hfm, hfe⟩ := (G.mesh.edge_face e he f).1 (by simp [hf])
  obtain ⟨c, e13, e23, t⟩ := corner G.mesh hfm hfe hn
  obtain ⟨g1, g', d, hr, hb, ⟨x1, x2⟩, gf, ge⟩ := cutBorder_again G he hf hn t hz hq hp
  have hN : g.nNext ∉ g.nodes := fun h => Nat.lt_irrefl _ (G.alloc.nodes _ h)
  have ka : a ≠ g.nNext := fun h => hN (h ▸ t.nodes.1)
  have kb : b ≠ g.nNext := fun h => hN (h ▸ t.nodes.2.1)
  have kc : c ≠ g.nNext := fun h => hN (h ▸ t.nodes.2.2)
  refine ⟨g', c, hr, hb.reuses d (cutBorder_plan G he hf t) G rfl hN hq (zone_mem G hfm hz) ⟨2, (List.Perm.of_eq ge).trans (List.Perm.refl _)⟩
    ⟨1, (List.Perm.of_eq gf).trans (List.Perm.refl _)⟩ ?_ ?_ ?_ ?_ ?_ ?_ ?_, t.corners, Reuses.isFace hb ?_ ?_ x1, Reuses.isFace hb ?_ ?_ x2⟩
  · intro n hm
    have h0 : n ≠ g.nNext := Nat.ne_of_lt (G.alloc.nodes n hm)
    simp [cutBorderPatch, fstOf_cons, fstOf_nil, t.corners, h0]
    tauto
  · simp only [cutBorderPatch, List.mem_singleton, exists_eq_left, t.corners]
    rintro x (rfl | rfl | rfl)
    · exact ⟨g.eNext, by simp, by simp [fstOf_cons, fstOf_nil]⟩
    · exact ⟨g.eNext + 1, by simp, by simp [fstOf_cons, fstOf_nil]⟩
    · exact ⟨g.eNext + 2, by simp, by simp [fstOf_cons, fstOf_nil]⟩
  · simp [cutBorderPatch, t.corners]
  · simp [cutBorderPatch]
    exact ⟨⟨a, ka, by simp⟩, ⟨b, kb, by simp⟩, ⟨c, kc, by simp⟩⟩
  · simp [cutBorderPatch]
    exact ⟨⟨a, ka, by simp, g.eNext, by simp⟩, ⟨b, kb, by simp, g.eNext + 1, by simp⟩⟩
  · simp [cutBorderPatch]
  · simp [cutBorderPatch]
  all_goals simp [cutBorderPatch, Patch.move, fstOf_cons, fstOf_nil, moved_self, moved_ne _ ka, moved_ne _ kb, moved_ne _ kc]

theorem cutInner_reuses {rc : Vec F → R} {g : Grid F R} (G : Good rc g) {e f h a b z q : Nat} {p : Vec F} (he : e ∈ g.edges)
    (hf : g.eFaces e = [f, h]) (hn : g.eNodes e = [a, b]) (hz : g.fZone f = some z) (hq : q ∈ g.nodes) (hp : rc (g.nP q) = rc p) :
    ∃ g' c c', g.cutInner rc e p = .ok g' ∧
      Reuses rc q [f, h] [e] [g.eNext, g.eNext + 1, g.eNext + 2, g.eNext + 3]
        [g.fNext, g.fNext + 2, g.fNext + 1, g.fNext + 3] z g g' ∧
      (∀ n, n ∈ g.fNodes f ↔ n = a ∨ n = b ∨ n = c) ∧ (∀ n, n ∈ g.fNodes h ↔ n = a ∨ n = b ∨ n = c') ∧
      IsFace g' g.fNext q b c (g.fData f) z ∧ IsFace g' (g.fNext + 1) q a c (g.fData f) z ∧
      IsFace g' (g.fNext + 2) q a c' (g.fData h) z ∧ IsFace g' (g.fNext + 3) q b c' (g.fData h) z := by
  obtain ⟨c, c', e13, e23, e14, e24, t⟩ := corner2 G.mesh G.simple he hf hn
  obtain ⟨g1, g', d, hr, hb, ⟨x1, x2, x3, x4⟩, gf, ge⟩ := cutInner_again G he hf hn t hz hq hp
  have hN : g.nNext ∉ g.nodes := fun h => Nat.lt_irrefl _ (G.alloc.nodes _ h)
  have ka : a ≠ g.nNext := fun h => hN (h ▸ t.c.nodes.1)
  have kb : b ≠ g.nNext := fun h => hN (h ▸ t.c.nodes.2.1)
  have kc : c ≠ g.nNext := fun h => hN (h ▸ t.c.nodes.2.2)
  have kc' : c' ≠ g.nNext := fun h => hN (h ▸ t.d.nodes.2.2)
  refine ⟨g', c, c', hr, hb.reuses d (cutInner_plan G he hf t) G rfl hN hq (zone_mem G t.hf hz)
    ⟨3, (List.Perm.of_eq ge).trans (List.Perm.refl _)⟩ ⟨2, (List.Perm.of_eq gf).trans (List.Perm.refl _)⟩ ?_ ?_ ?_ ?_ ?_ ?_ ?_, t.c.corners, t.d.corners,
    Reuses.isFace hb ?_ ?_ x1, Reuses.isFace hb ?_ ?_ x2, Reuses.isFace hb ?_ ?_ x3, Reuses.isFace hb ?_ ?_ x4⟩
  · intro n hm
    have h0 : n ≠ g.nNext := Nat.ne_of_lt (G.alloc.nodes n hm)
    simp [cutInnerPatch, fstOf_cons, fstOf_nil, t.c.corners, t.d.corners, h0]
    tauto
  · simp only [cutInnerPatch, List.mem_cons, List.not_mem_nil, or_false, exists_eq_or_imp, exists_eq_left, t.c.corners, t.d.corners]
    rintro x ((rfl | rfl | rfl) | rfl | rfl | rfl)
    · exact Or.inl (by simp [fstOf_cons, fstOf_nil, or_comm])
    · exact Or.inr (Or.inl (by simp [fstOf_cons, fstOf_nil, or_comm]))
    · exact Or.inr (Or.inr (Or.inl (by simp [fstOf_cons, fstOf_nil, or_comm])))
    · exact Or.inl (by simp [fstOf_cons, fstOf_nil, or_comm])
    · exact Or.inr (Or.inl (by simp [fstOf_cons, fstOf_nil, or_comm]))
    · exact Or.inr (Or.inr (Or.inr (by simp [fstOf_cons, fstOf_nil, or_comm])))
  · simp [cutInnerPatch, t.c.corners, t.d.corners]
  · simp [cutInnerPatch]
    exact ⟨⟨a, ka, by simp⟩, ⟨b, kb, by simp⟩, ⟨c, kc, by simp⟩, ⟨c', kc', by simp⟩⟩
  · simp [cutInnerPatch]
    exact ⟨⟨b, kb, by simp, g.eNext + 1, by simp⟩, ⟨a, ka, by simp, g.eNext, by simp⟩, ⟨a, ka, by simp, g.eNext, by simp⟩,
      ⟨b, kb, by simp, g.eNext + 1, by simp⟩⟩
  · simp [cutInnerPatch]
  · simp [cutInnerPatch]
  all_goals simp [cutInnerPatch, Patch.move, fstOf_cons, fstOf_nil, moved_self, moved_ne _ ka, moved_ne _ kb, moved_ne _ kc,
    moved_ne _ kc']

end Grid
end Verif
