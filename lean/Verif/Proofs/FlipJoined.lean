import Verif.Proofs.Transform

/-! Flipping an edge whose opposite corners are joined already. -/

namespace Verif
namespace Grid
variable {F R : Type}

theorem flip_joined {rc : Vec F → R} {g : Grid F R} (G : Good rc g) {f h e a b c c' z x : Nat} (he : e ∈ g.edges)
    (hf : ∀ x, x ∈ g.eFaces e ↔ x = f ∨ x = h) (hfh : f ≠ h) (hn : g.eNodes e = [a, b])
    (hcf : ∀ n, n ∈ g.fNodes f ↔ n = a ∨ n = b ∨ n = c) (hch : ∀ n, n ∈ g.fNodes h ↔ n = a ∨ n = b ∨ n = c')
    (hz : g.fZone f = some z) (hx : x ∈ g.edges) (hj : Joins g x c c') :
    ∃ g' e', g.flipEdge f e = .ok g' ∧ x ∈ g'.edges ∧ e' ∈ g'.edges ∧ e' ≠ x ∧ Joins g' x c c' ∧ Joins g' e' c c' := by
  obtain ⟨n3, n4, e13, e23, e14, e24, t⟩ := corner2_any G.mesh G.simple he hf hfh hn
  have third : ∀ {f' x y : Nat}, f' ∈ g.faces → (∀ n, n ∈ g.fNodes f' ↔ n = a ∨ n = b ∨ n = x) →
      (∀ n, n ∈ g.fNodes f' ↔ n = a ∨ n = b ∨ n = y) → x ≠ a → x ≠ b → x = y := by
    intro f' x y _ h1 h2 h3 h4
    rcases (h2 x).1 ((h1 x).2 (Or.inr (Or.inr rfl))) with h | h | h
    · exact absurd h h3
    · exact absurd h h4
    · exact h
  obtain rfl : n3 = c := third t.hf t.c.corners hcf t.c.n13.symm t.c.n23.symm
  obtain rfl : n4 = c' := third t.hh t.d.corners hch t.d.n13.symm t.d.n23.symm
  obtain ⟨g1, g', d, hr, hb, -, -, -⟩ := flip_run G he hf hn t hz
  have p := hb.patched d (flip_plan1 G he hf t).base G.alloc
  have hxe : x ≠ e := by
    rintro rfl
    have := (hj n3).2 (Or.inl rfl)
    rw [hn] at this
    simp at this
    rcases this with h | h
    · exact t.c.n13 h.symm
    · exact t.c.n23 h.symm
  have hxE : g.eNext ≠ x := by have := G.alloc.edges x hx; omega
  refine ⟨g', g.eNext, hr, p.mem_edges.2 (Or.inl ⟨hx, by simpa [flipPatch] using hxe⟩), p.mem_edges.2 (Or.inr (by simp [flipPatch])),
    hxE, ?_, ?_⟩
  · intro n
    rw [p.eNodes x hx (by simpa [flipPatch] using hxe)]
    exact hj n
  · intro n
    rw [p.eNodes_new g.eNext (by simp [flipPatch])]
    simp [flipPatch, fstOf_cons, fstOf_nil]

end Grid
end Verif
