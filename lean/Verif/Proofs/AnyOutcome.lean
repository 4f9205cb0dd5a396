import Verif.Proofs.AnyBorder2
import Verif.Proofs.AnyInner2

/-! Results of `cut_edge_with_two_nodes` at any two points. -/

namespace Verif
namespace Grid
variable {F R : Type} [DecidableEq R]

omit [DecidableEq R] in
theorem Built.isFace_rename {rc : Vec F → R} {z : Nat} {s : Nat → Nat} {nn : List Nat} {P : Patch} {zfn : List Nat} {g1 g' : Grid F R}
    (b : Built (P.rename s nn) rc z zfn g1 g') {f a b' c : Nat} {data : List (Str × F)} (hf : f ∈ P.fn)
    (hc : ∀ n, n ∈ fstOf (P.rename s nn).nf f ↔ n = a ∨ n = b' ∨ n = c) (hd : g'.fData f = data) : IsFace g' f a b' c data z :=
  ⟨by rw [b.faces]; exact List.mem_append_right _ hf, fun n => by rw [b.fNodes_new f hf]; exact hc n, hd, b.fZone_new f hf⟩

theorem cutBorder2_two {rc : Vec F → R} {g : Grid F R} (G : Good rc g) {e f a b z : Nat} (p1 p2 : Vec F) (he : e ∈ g.edges)
    (hf : g.eFaces e = [f]) (hn : g.eNodes e = [a, b]) (hz : g.fZone f = some z) :
    ∃ g' k1 k2 nn c, g.cutBorder2 rc e p1 p2 = .ok g' ∧
      CutsTwo rc p1 p2 k1 k2 [f] [e] nn [g.eNext, g.eNext + 1, g.eNext + 2, g.eNext + 3, g.eNext + 4]
        [g.fNext, g.fNext + 1, g.fNext + 2] a b [c] z g g' ∧
      (∀ n, n ∈ g.fNodes f ↔ n = a ∨ n = b ∨ n = c) ∧
      IsFace g' g.fNext a k1 c (g.fData f) z ∧ IsFace g' (g.fNext + 1) k1 k2 c (g.fData f) z ∧
      IsFace g' (g.fNext + 2) k2 b c (g.fData f) z := by
  obtain ⟨hfm, hfe⟩ := (G.mesh.edge_face e he f).1 (by simp [hf])
  obtain ⟨c, e13, e23, t⟩ := corner G.mesh hfm hfe hn
  obtain ⟨g1, k1, k2, nn, g', d, hr, hb, ⟨x1, x2, x3⟩, pl, new, pt, gf, ge⟩ := cutBorder2_any (p1 := p1) (p2 := p2) G he hf hn t hz
  have la := G.alloc.nodes _ t.nodes.1
  have lb := G.alloc.nodes _ t.nodes.2.1
  have lc := G.alloc.nodes _ t.nodes.2.2
  refine ⟨g', k1, k2, nn, c, hr, hb.cutsTwo d (cutBorder2_plan G he hf t) G rfl (zone_mem G hfm hz) rfl (by intro n; rw [hn]; simp) pl new pt
    ⟨4, (List.Perm.of_eq ge).trans (List.Perm.refl _)⟩ ⟨2, (List.Perm.of_eq gf).trans (List.Perm.refl _)⟩ ?_ ?_ ?_ ?_ ?_ ?_, t.corners,
    hb.isFace_rename ?_ ?_ x1, hb.isFace_rename ?_ ?_ x2, hb.isFace_rename ?_ ?_ x3⟩
  · intro n hm
    have h0 : n ≠ g.nNext := Nat.ne_of_lt (G.alloc.nodes n hm)
    have h1 : n ≠ g.nNext + 1 := by have := G.alloc.nodes n hm; omega
    simp [cutBorder2Patch, fstOf_cons, fstOf_nil, t.corners, h0, h1]
    tauto
  · intro n
    simp [cutBorder2Patch, t.corners]
  · simp [cutBorder2Patch, cutJoins, fstOf_cons, fstOf_nil, or_comm]
  · simp [cutBorder2Patch, fstOf_cons, fstOf_nil]
  · simp [cutBorder2Patch, fstOf_cons, fstOf_nil]
  · simp [cutBorder2Patch]
  all_goals simp [cutBorder2Patch, Patch.rename, fstOf_cons, fstOf_nil, moved2_fst, moved2_snd, moved2_lt _ _ la, moved2_lt _ _ lb,
    moved2_lt _ _ lc]
  all_goals tauto

set_option maxHeartbeats 1000000 in
theorem cutInner2_two {rc : Vec F → R} {g : Grid F R} (G : Good rc g) {e f h a b z : Nat} (p1 p2 : Vec F) (he : e ∈ g.edges)
    (hf : g.eFaces e = [f, h]) (hn : g.eNodes e = [a, b]) (hz : g.fZone f = some z) :
    ∃ g' k1 k2 nn c c', g.cutInner2 rc e p1 p2 = .ok g' ∧
      CutsTwo rc p1 p2 k1 k2 [f, h] [e] nn
        [g.eNext, g.eNext + 1, g.eNext + 2, g.eNext + 3, g.eNext + 4, g.eNext + 5, g.eNext + 6]
        [g.fNext, g.fNext + 1, g.fNext + 2, g.fNext + 3, g.fNext + 4, g.fNext + 5] a b [c, c'] z g g' ∧
      (∀ n, n ∈ g.fNodes f ↔ n = a ∨ n = b ∨ n = c) ∧ (∀ n, n ∈ g.fNodes h ↔ n = a ∨ n = b ∨ n = c') ∧
      IsFace g' g.fNext a k1 c (g.fData f) z ∧ IsFace g' (g.fNext + 1) k1 k2 c (g.fData f) z ∧
      IsFace g' (g.fNext + 2) k2 b c (g.fData f) z ∧ IsFace g' (g.fNext + 3) a k1 c' (g.fData h) z ∧
      IsFace g' (g.fNext + 4) k1 k2 c' (g.fData h) z ∧ IsFace g' (g.fNext + 5) k2 b c' (g.fData h) z := by
  obtain ⟨c, c', e13, e23, e14, e24, t⟩ := corner2 G.mesh G.simple he hf hn
  obtain ⟨g1, k1, k2, nn, g', d, hr, hb, ⟨x1, x2, x3, x4, x5, x6⟩, pl, new, pt, gf, ge⟩ :=
    cutInner2_any (p1 := p1) (p2 := p2) G he hf hn t hz
  have la := G.alloc.nodes _ t.c.nodes.1
  have lb := G.alloc.nodes _ t.c.nodes.2.1
  have lc := G.alloc.nodes _ t.c.nodes.2.2
  have lc' := G.alloc.nodes _ t.d.nodes.2.2
  refine ⟨g', k1, k2, nn, c, c', hr, hb.cutsTwo d (cutInner2_plan G he hf t) G rfl (zone_mem G t.hf hz) rfl (by intro n; rw [hn]; simp)
    pl new pt ⟨6, (List.Perm.of_eq ge).trans (List.Perm.refl _)⟩ ⟨4, (List.Perm.of_eq gf).trans (List.Perm.refl _)⟩ ?_ ?_ ?_ ?_ ?_ ?_,
    t.c.corners, t.d.corners, hb.isFace_rename ?_ ?_ x1, hb.isFace_rename ?_ ?_ x2, hb.isFace_rename ?_ ?_ x3,
    hb.isFace_rename ?_ ?_ x4, hb.isFace_rename ?_ ?_ x5, hb.isFace_rename ?_ ?_ x6⟩
  · intro n hm
    have h0 : n ≠ g.nNext := Nat.ne_of_lt (G.alloc.nodes n hm)
    have h1 : n ≠ g.nNext + 1 := by have := G.alloc.nodes n hm; omega
    simp [cutInner2Patch, fstOf_cons, fstOf_nil, t.c.corners, t.d.corners, h0, h1]
    generalize (n = a) = A
    generalize (n = b) = B
    generalize (n = c) = C
    generalize (n = c') = D
    by_cases hA : A <;> by_cases hB : B <;> by_cases hC : C <;> by_cases hD : D <;> simp [hA, hB, hC, hD]
  · intro n
    simp [cutInner2Patch, t.c.corners, t.d.corners]
    tauto
  · simp [cutInner2Patch, cutJoins, fstOf_cons, fstOf_nil, or_comm]
  · simp [cutInner2Patch, fstOf_cons, fstOf_nil]
  · simp [cutInner2Patch, fstOf_cons, fstOf_nil]
  · simp [cutInner2Patch]
  all_goals simp [cutInner2Patch, Patch.rename, fstOf_cons, fstOf_nil, moved2_fst, moved2_snd, moved2_lt _ _ la, moved2_lt _ _ lb,
    moved2_lt _ _ lc, moved2_lt _ _ lc']
  all_goals
    intro n
    generalize (n = a) = A
    generalize (n = b) = B
    generalize (n = c) = C
    generalize (n = c') = D
    tauto

end Grid
end Verif
