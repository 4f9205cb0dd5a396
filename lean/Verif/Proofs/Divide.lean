import Verif.Proofs.Local

/-! `divide_face`. -/

namespace Verif
namespace Grid
variable {F R : Type} [DecidableEq R]

/-- What is replaced by what in `divideFace`. -/
def divideFacePatch (N E K f n1 n2 n3 e12 e23 e13 : Nat) : Patch where
  df := [f]
  de := []
  nn := [N]
  en := [E, E + 1, E + 2]
  fn := [K, K + 1, K + 2]
  ne := [(n1, E), (n2, E + 1), (n3, E + 2), (N, E), (N, E + 1), (N, E + 2)]
  nf := [(n1, K), (n1, K + 2), (n2, K), (n2, K + 1), (n3, K + 1), (n3, K + 2), (N, K), (N, K + 1), (N, K + 2)]
  ef := [(e12, K), (e23, K + 1), (e13, K + 2), (E, K), (E, K + 2), (E + 1, K), (E + 1, K + 1), (E + 2, K + 1), (E + 2, K + 2)]

theorem divideFace_plan {rc : Vec F → R} {g : Grid F R} (G : Good rc g) {f n1 n2 n3 e12 e23 e13 : Nat}
    (hf : f ∈ g.faces) (c : Tri g f n1 n2 n3 e12 e23 e13) :
    Plan (divideFacePatch g.nNext g.eNext g.fNext f n1 n2 n3 e12 e23 e13) g := by
  obtain ⟨N, hN⟩ : ∃ N, N = g.nNext := ⟨_, rfl⟩
  obtain ⟨E, hE⟩ : ∃ E, E = g.eNext := ⟨_, rfl⟩
  obtain ⟨K, hK⟩ : ∃ K, K = g.fNext := ⟨_, rfl⟩
  have aN := G.alloc.nodes
  have aE := G.alloc.edges
  have aF := G.alloc.faces
  rw [← hN] at aN ⊢
  rw [← hE] at aE ⊢
  rw [← hK] at aF ⊢
  have k_n1 : ∀ i, n1 ≠ N + i := by have := aN n1 c.nodes.1; intro i; omega
  have k'_n1 : n1 ≠ N := k_n1 0
  have k_n2 : ∀ i, n2 ≠ N + i := by have := aN n2 c.nodes.2.1; intro i; omega
  have k'_n2 : n2 ≠ N := k_n2 0
  have k_n3 : ∀ i, n3 ≠ N + i := by have := aN n3 c.nodes.2.2; intro i; omega
  have k'_n3 : n3 ≠ N := k_n3 0
  have q_e12 : ∀ i, e12 ≠ E + i := by have := aE e12 c.mem.1; intro i; omega
  have q'_e12 : e12 ≠ E := q_e12 0
  have q_e23 : ∀ i, e23 ≠ E + i := by have := aE e23 c.mem.2.1; intro i; omega
  have q'_e23 : e23 ≠ E := q_e23 0
  have q_e13 : ∀ i, e13 ≠ E + i := by have := aE e13 c.mem.2.2; intro i; omega
  have q'_e13 : e13 ≠ E := q_e13 0
  have ne_0 : fstOf (divideFacePatch N E K f n1 n2 n3 e12 e23 e13).ne (E) = [n1, N] := by simp [divideFacePatch, fstOf_cons, fstOf_nil]
  have ne_1 : fstOf (divideFacePatch N E K f n1 n2 n3 e12 e23 e13).ne (E + 1) = [n2, N] := by simp [divideFacePatch, fstOf_cons, fstOf_nil]
  have ne_2 : fstOf (divideFacePatch N E K f n1 n2 n3 e12 e23 e13).ne (E + 2) = [n3, N] := by simp [divideFacePatch, fstOf_cons, fstOf_nil]
  have nf_0 : fstOf (divideFacePatch N E K f n1 n2 n3 e12 e23 e13).nf (K) = [n1, n2, N] := by simp [divideFacePatch, fstOf_cons, fstOf_nil]
  have ef_0 : fstOf (divideFacePatch N E K f n1 n2 n3 e12 e23 e13).ef (K) = [e12, E, E + 1] := by simp [divideFacePatch, fstOf_cons, fstOf_nil]
  have nf_1 : fstOf (divideFacePatch N E K f n1 n2 n3 e12 e23 e13).nf (K + 1) = [n2, n3, N] := by simp [divideFacePatch, fstOf_cons, fstOf_nil]
  have ef_1 : fstOf (divideFacePatch N E K f n1 n2 n3 e12 e23 e13).ef (K + 1) = [e23, E + 1, E + 2] := by simp [divideFacePatch, fstOf_cons, fstOf_nil]
  have nf_2 : fstOf (divideFacePatch N E K f n1 n2 n3 e12 e23 e13).nf (K + 2) = [n1, n3, N] := by simp [divideFacePatch, fstOf_cons, fstOf_nil]
  have ef_2 : fstOf (divideFacePatch N E K f n1 n2 n3 e12 e23 e13).ef (K + 2) = [e13, E, E + 2] := by simp [divideFacePatch, fstOf_cons, fstOf_nil]
  have se_0 : sndOf (divideFacePatch N E K f n1 n2 n3 e12 e23 e13).ef (E) = [K, K + 2] := by simp [divideFacePatch, sndOf_cons, sndOf_nil, q_e12, q'_e12, (q_e12 _).symm, q'_e12.symm, q_e23, q'_e23, (q_e23 _).symm, q'_e23.symm, q_e13, q'_e13, (q_e13 _).symm, q'_e13.symm]
  have se_1 : sndOf (divideFacePatch N E K f n1 n2 n3 e12 e23 e13).ef (E + 1) = [K, K + 1] := by simp [divideFacePatch, sndOf_cons, sndOf_nil, q_e12, q'_e12, (q_e12 _).symm, q'_e12.symm, q_e23, q'_e23, (q_e23 _).symm, q'_e23.symm, q_e13, q'_e13, (q_e13 _).symm, q'_e13.symm]
  have se_2 : sndOf (divideFacePatch N E K f n1 n2 n3 e12 e23 e13).ef (E + 2) = [K + 1, K + 2] := by simp [divideFacePatch, sndOf_cons, sndOf_nil, q_e12, q'_e12, (q_e12 _).symm, q'_e12.symm, q_e23, q'_e23, (q_e23 _).symm, q'_e23.symm, q_e13, q'_e13, (q_e13 _).symm, q'_e13.symm]
  refine { df := ?_, de := ?_, de_faces := ?_, ne := ?_, nf := ?_, ef := ?_, edge2 := ?_, face3 := ?_, old_edge := ?_, new_edge := ?_,
           tri := ?_, uniq_new := ?_, uniq_old := ?_, simple_new := ?_, simple_old := ?_ }
  · simp [divideFacePatch, hf]
  · simp [divideFacePatch]
  · intro a ha h hh ea
    cases ha
  · simp [divideFacePatch, c.nodes.1, c.nodes.2.1, c.nodes.2.2, k_n1, k'_n1, (k_n1 _).symm, k'_n1.symm, k_n2, k'_n2, (k_n2 _).symm, k'_n2.symm, k_n3, k'_n3, (k_n3 _).symm, k'_n3.symm, c.n12, c.n13, c.n23, c.ed1, c.ed2, c.ed3, (c.n12).symm, (c.n13).symm, (c.n23).symm, (c.ed1).symm, (c.ed2).symm, (c.ed3).symm]
  · simp [divideFacePatch, c.nodes.1, c.nodes.2.1, c.nodes.2.2, k_n1, k'_n1, (k_n1 _).symm, k'_n1.symm, k_n2, k'_n2, (k_n2 _).symm, k'_n2.symm, k_n3, k'_n3, (k_n3 _).symm, k'_n3.symm, c.n12, c.n13, c.n23, c.ed1, c.ed2, c.ed3, (c.n12).symm, (c.n13).symm, (c.n23).symm, (c.ed1).symm, (c.ed2).symm, (c.ed3).symm]
  · simp [divideFacePatch, c.mem.1, c.mem.2.1, c.mem.2.2, q_e12, q'_e12, (q_e12 _).symm, q'_e12.symm, q_e23, q'_e23, (q_e23 _).symm, q'_e23.symm, q_e13, q'_e13, (q_e13 _).symm, q'_e13.symm, c.n12, c.n13, c.n23, c.ed1, c.ed2, c.ed3, (c.n12).symm, (c.n13).symm, (c.n23).symm, (c.ed1).symm, (c.ed2).symm, (c.ed3).symm]
  · intro a ha
    change a ∈ [E, E + 1, E + 2] at ha
    simp only [List.mem_cons, List.not_mem_nil, or_false] at ha
    rcases ha with rfl | rfl | rfl <;> simp only [ne_0, ne_1, ne_2] <;> rfl
  · intro a ha
    change a ∈ [K, K + 1, K + 2] at ha
    simp only [List.mem_cons, List.not_mem_nil, or_false] at ha
    rcases ha with rfl | rfl | rfl <;> simp only [nf_0, nf_1, nf_2, ef_0, ef_1, ef_2] <;> exact ⟨rfl, rfl⟩
  · intro a ha hd
    change _ ∉ [] at hd
    change ((g.eFaces a).filter (fun x => decide (x ∈ [f]))).length = (sndOf
      [(e12, K), (e23, K + 1), (e13, K + 2), (E, K), (E, K + 2), (E + 1, K), (E + 1, K + 1), (E + 2, K + 1), (E + 2, K + 2)] a).length
    rw [count_df1 (G.mesh.edge_faces a ha).2]
    have hq : f ∈ g.eFaces a ↔ a = e12 ∨ a = e23 ∨ a = e13 := by
      rw [G.mesh.edge_face a ha f, c.edges a]
      exact ⟨fun h => h.2, fun h => ⟨hf, h⟩⟩
    have hA := aE a ha
    have r1 : ∀ i, E + i ≠ a := by intro i; omega
    have r2 : E ≠ a := by omega
    simp only [hq, sndOf_cons, sndOf_nil, r1, r2, if_false, List.nil_append, List.append_nil]
    by_cases u : a = e12
    · subst u; simp [c.ed1.symm, c.ed2.symm]
    · by_cases v : a = e23
      · subst v; simp [c.ed1, c.ed3.symm]
      · by_cases w : a = e13
        · subst w; simp [c.ed2, c.ed3]
        · simp [u, v, w, Ne.symm u, Ne.symm v, Ne.symm w]
  · intro a ha
    change a ∈ [E, E + 1, E + 2] at ha
    simp only [List.mem_cons, List.not_mem_nil, or_false] at ha
    rcases ha with rfl | rfl | rfl
    · rw [se_0]; simp
    · rw [se_1]; simp
    · rw [se_2]; simp
  · intro a ha
    change a ∈ [K, K + 1, K + 2] at ha
    simp only [List.mem_cons, List.not_mem_nil, or_false] at ha
    rcases ha with rfl | rfl | rfl
    · refine ⟨n1, n2, N, e12, E + 1, E, ?_, ?_, Or.inr ⟨c.mem.1, ?_, c.j12⟩, Or.inl ⟨?_, ?_⟩, Or.inl ⟨?_, ?_⟩⟩
      · intro n; rw [nf_0]; simp only [List.mem_cons, List.not_mem_nil, or_false] <;> tauto
      · intro n; rw [ef_0]; simp only [List.mem_cons, List.not_mem_nil, or_false] <;> tauto
      · show _ ∉ []; simp [c.n12, c.n13, c.n23, c.ed1, c.ed2, c.ed3, (c.n12).symm, (c.n13).symm, (c.n23).symm, (c.ed1).symm, (c.ed2).symm, (c.ed3).symm]
      · show _ ∈ [E, E + 1, E + 2]; simp
      · intro n; rw [ne_1]; simp only [List.mem_cons, List.not_mem_nil, or_false] <;> tauto
      · show _ ∈ [E, E + 1, E + 2]; simp
      · intro n; rw [ne_0]; simp only [List.mem_cons, List.not_mem_nil, or_false] <;> tauto
    · refine ⟨n2, n3, N, e23, E + 2, E + 1, ?_, ?_, Or.inr ⟨c.mem.2.1, ?_, c.j23⟩, Or.inl ⟨?_, ?_⟩, Or.inl ⟨?_, ?_⟩⟩
      · intro n; rw [nf_1]; simp only [List.mem_cons, List.not_mem_nil, or_false] <;> tauto
      · intro n; rw [ef_1]; simp only [List.mem_cons, List.not_mem_nil, or_false] <;> tauto
      · show _ ∉ []; simp [c.n12, c.n13, c.n23, c.ed1, c.ed2, c.ed3, (c.n12).symm, (c.n13).symm, (c.n23).symm, (c.ed1).symm, (c.ed2).symm, (c.ed3).symm]
      · show _ ∈ [E, E + 1, E + 2]; simp
      · intro n; rw [ne_2]; simp only [List.mem_cons, List.not_mem_nil, or_false] <;> tauto
      · show _ ∈ [E, E + 1, E + 2]; simp
      · intro n; rw [ne_1]; simp only [List.mem_cons, List.not_mem_nil, or_false] <;> tauto
    · refine ⟨n1, n3, N, e13, E + 2, E, ?_, ?_, Or.inr ⟨c.mem.2.2, ?_, c.j13⟩, Or.inl ⟨?_, ?_⟩, Or.inl ⟨?_, ?_⟩⟩
      · intro n; rw [nf_2]; simp only [List.mem_cons, List.not_mem_nil, or_false] <;> tauto
      · intro n; rw [ef_2]; simp only [List.mem_cons, List.not_mem_nil, or_false] <;> tauto
      · show _ ∉ []; simp [c.n12, c.n13, c.n23, c.ed1, c.ed2, c.ed3, (c.n12).symm, (c.n13).symm, (c.n23).symm, (c.ed1).symm, (c.ed2).symm, (c.ed3).symm]
      · show _ ∈ [E, E + 1, E + 2]; simp
      · intro n; rw [ne_2]; simp only [List.mem_cons, List.not_mem_nil, or_false] <;> tauto
      · show _ ∈ [E, E + 1, E + 2]; simp
      · intro n; rw [ne_0]; simp only [List.mem_cons, List.not_mem_nil, or_false] <;> tauto
  · intro a ha b hb hy
    change a ∈ [E, E + 1, E + 2] at ha
    change b ∈ [E, E + 1, E + 2] at hb
    simp only [List.mem_cons, List.not_mem_nil, or_false] at ha hb
    rcases ha with rfl | rfl | rfl <;> rcases hb with rfl | rfl | rfl
    · rfl
    · have hx := (hy (n1)).1 (by rw [ne_0]; simp)
      rw [ne_1] at hx
      simp [k_n1, k'_n1, (k_n1 _).symm, k'_n1.symm, k_n2, k'_n2, (k_n2 _).symm, k'_n2.symm, k_n3, k'_n3, (k_n3 _).symm, k'_n3.symm, c.n12, c.n13, c.n23, c.ed1, c.ed2, c.ed3, (c.n12).symm, (c.n13).symm, (c.n23).symm, (c.ed1).symm, (c.ed2).symm, (c.ed3).symm] at hx
    · have hx := (hy (n1)).1 (by rw [ne_0]; simp)
      rw [ne_2] at hx
      simp [k_n1, k'_n1, (k_n1 _).symm, k'_n1.symm, k_n2, k'_n2, (k_n2 _).symm, k'_n2.symm, k_n3, k'_n3, (k_n3 _).symm, k'_n3.symm, c.n12, c.n13, c.n23, c.ed1, c.ed2, c.ed3, (c.n12).symm, (c.n13).symm, (c.n23).symm, (c.ed1).symm, (c.ed2).symm, (c.ed3).symm] at hx
    · have hx := (hy (n2)).1 (by rw [ne_1]; simp)
      rw [ne_0] at hx
      simp [k_n1, k'_n1, (k_n1 _).symm, k'_n1.symm, k_n2, k'_n2, (k_n2 _).symm, k'_n2.symm, k_n3, k'_n3, (k_n3 _).symm, k'_n3.symm, c.n12, c.n13, c.n23, c.ed1, c.ed2, c.ed3, (c.n12).symm, (c.n13).symm, (c.n23).symm, (c.ed1).symm, (c.ed2).symm, (c.ed3).symm] at hx
    · rfl
    · have hx := (hy (n2)).1 (by rw [ne_1]; simp)
      rw [ne_2] at hx
      simp [k_n1, k'_n1, (k_n1 _).symm, k'_n1.symm, k_n2, k'_n2, (k_n2 _).symm, k'_n2.symm, k_n3, k'_n3, (k_n3 _).symm, k'_n3.symm, c.n12, c.n13, c.n23, c.ed1, c.ed2, c.ed3, (c.n12).symm, (c.n13).symm, (c.n23).symm, (c.ed1).symm, (c.ed2).symm, (c.ed3).symm] at hx
    · have hx := (hy (n3)).1 (by rw [ne_2]; simp)
      rw [ne_0] at hx
      simp [k_n1, k'_n1, (k_n1 _).symm, k'_n1.symm, k_n2, k'_n2, (k_n2 _).symm, k'_n2.symm, k_n3, k'_n3, (k_n3 _).symm, k'_n3.symm, c.n12, c.n13, c.n23, c.ed1, c.ed2, c.ed3, (c.n12).symm, (c.n13).symm, (c.n23).symm, (c.ed1).symm, (c.ed2).symm, (c.ed3).symm] at hx
    · have hx := (hy (n3)).1 (by rw [ne_2]; simp)
      rw [ne_1] at hx
      simp [k_n1, k'_n1, (k_n1 _).symm, k'_n1.symm, k_n2, k'_n2, (k_n2 _).symm, k'_n2.symm, k_n3, k'_n3, (k_n3 _).symm, k'_n3.symm, c.n12, c.n13, c.n23, c.ed1, c.ed2, c.ed3, (c.n12).symm, (c.n13).symm, (c.n23).symm, (c.ed1).symm, (c.ed2).symm, (c.ed3).symm] at hx
    · rfl
  · intro a ha b hb hbd hyp
    have h1 := fun i => (hyp (N + i)).1
    have h2 := fun i h => Nat.not_lt.2 (Nat.le_add_right N i) (aN (N + i) ((G.mesh.edge_nodes b hb).2.2 (N + i) h))
    have h3 : ∃ i, N + i ∈ fstOf (divideFacePatch N E K f n1 n2 n3 e12 e23 e13).ne a := by
      change a ∈ [E, E + 1, E + 2] at ha
      simp only [List.mem_cons, List.not_mem_nil, or_false] at ha
      rcases ha with rfl | rfl | rfl
      · exact ⟨0, by rw [ne_0]; simp⟩
      · exact ⟨0, by rw [ne_1]; simp⟩
      · exact ⟨0, by rw [ne_2]; simp⟩
    obtain ⟨i, h3⟩ := h3
    exact h2 i (h1 i h3)
  · intro a ha b hb hy
    change a ∈ [K, K + 1, K + 2] at ha
    change b ∈ [K, K + 1, K + 2] at hb
    simp only [List.mem_cons, List.not_mem_nil, or_false] at ha hb
    rcases ha with rfl | rfl | rfl <;> rcases hb with rfl | rfl | rfl
    · rfl
    · have hx := (hy (n1)).1 (by rw [nf_0]; simp)
      rw [nf_1] at hx
      simp [k_n1, k'_n1, (k_n1 _).symm, k'_n1.symm, k_n2, k'_n2, (k_n2 _).symm, k'_n2.symm, k_n3, k'_n3, (k_n3 _).symm, k'_n3.symm, c.n12, c.n13, c.n23, c.ed1, c.ed2, c.ed3, (c.n12).symm, (c.n13).symm, (c.n23).symm, (c.ed1).symm, (c.ed2).symm, (c.ed3).symm] at hx
    · have hx := (hy (n2)).1 (by rw [nf_0]; simp)
      rw [nf_2] at hx
      simp [k_n1, k'_n1, (k_n1 _).symm, k'_n1.symm, k_n2, k'_n2, (k_n2 _).symm, k'_n2.symm, k_n3, k'_n3, (k_n3 _).symm, k'_n3.symm, c.n12, c.n13, c.n23, c.ed1, c.ed2, c.ed3, (c.n12).symm, (c.n13).symm, (c.n23).symm, (c.ed1).symm, (c.ed2).symm, (c.ed3).symm] at hx
    · have hx := (hy (n3)).1 (by rw [nf_1]; simp)
      rw [nf_0] at hx
      simp [k_n1, k'_n1, (k_n1 _).symm, k'_n1.symm, k_n2, k'_n2, (k_n2 _).symm, k'_n2.symm, k_n3, k'_n3, (k_n3 _).symm, k'_n3.symm, c.n12, c.n13, c.n23, c.ed1, c.ed2, c.ed3, (c.n12).symm, (c.n13).symm, (c.n23).symm, (c.ed1).symm, (c.ed2).symm, (c.ed3).symm] at hx
    · rfl
    · have hx := (hy (n2)).1 (by rw [nf_1]; simp)
      rw [nf_2] at hx
      simp [k_n1, k'_n1, (k_n1 _).symm, k'_n1.symm, k_n2, k'_n2, (k_n2 _).symm, k'_n2.symm, k_n3, k'_n3, (k_n3 _).symm, k'_n3.symm, c.n12, c.n13, c.n23, c.ed1, c.ed2, c.ed3, (c.n12).symm, (c.n13).symm, (c.n23).symm, (c.ed1).symm, (c.ed2).symm, (c.ed3).symm] at hx
    · have hx := (hy (n3)).1 (by rw [nf_2]; simp)
      rw [nf_0] at hx
      simp [k_n1, k'_n1, (k_n1 _).symm, k'_n1.symm, k_n2, k'_n2, (k_n2 _).symm, k'_n2.symm, k_n3, k'_n3, (k_n3 _).symm, k'_n3.symm, c.n12, c.n13, c.n23, c.ed1, c.ed2, c.ed3, (c.n12).symm, (c.n13).symm, (c.n23).symm, (c.ed1).symm, (c.ed2).symm, (c.ed3).symm] at hx
    · have hx := (hy (n1)).1 (by rw [nf_2]; simp)
      rw [nf_1] at hx
      simp [k_n1, k'_n1, (k_n1 _).symm, k'_n1.symm, k_n2, k'_n2, (k_n2 _).symm, k'_n2.symm, k_n3, k'_n3, (k_n3 _).symm, k'_n3.symm, c.n12, c.n13, c.n23, c.ed1, c.ed2, c.ed3, (c.n12).symm, (c.n13).symm, (c.n23).symm, (c.ed1).symm, (c.ed2).symm, (c.ed3).symm] at hx
    · rfl
  · intro a ha b hb hbd hyp
    have h1 := fun i => (hyp (N + i)).1
    have h2 := fun i h => Nat.not_lt.2 (Nat.le_add_right N i) (aN (N + i) ((G.mesh.face_nodes b hb).2.2 (N + i) h))
    have h3 : ∃ i, N + i ∈ fstOf (divideFacePatch N E K f n1 n2 n3 e12 e23 e13).nf a := by
      change a ∈ [K, K + 1, K + 2] at ha
      simp only [List.mem_cons, List.not_mem_nil, or_false] at ha
      rcases ha with rfl | rfl | rfl
      · exact ⟨0, by rw [nf_0]; simp⟩
      · exact ⟨0, by rw [nf_1]; simp⟩
      · exact ⟨0, by rw [nf_2]; simp⟩
    obtain ⟨i, h3⟩ := h3
    exact h2 i (h1 i h3)

theorem divideFace_run {rc : Vec F → R} {g : Grid F R} (G : Good rc g) {f n1 n2 n3 e12 e23 e13 z : Nat} {p : Vec F}
    (hf : f ∈ g.faces) (hn : g.fNodes f = [n1, n2, n3])
    (c : Tri g f n1 n2 n3 e12 e23 e13) (hz : g.fZone f = some z) (hp_p : NewPlace rc g p) :
    ∃ g1 g', Deleted [f] [] g g1 ∧ g.divideFace rc f p = .ok g' ∧
      Built (divideFacePatch g.nNext g.eNext g.fNext f n1 n2 n3 e12 e23 e13) rc z [g.fNext, g.fNext + 1, g.fNext + 2] g1 g' ∧
      (g'.fData g.fNext = g.fData f ∧ g'.fData (g.fNext + 1) = g.fData f ∧ g'.fData (g.fNext + 2) = g.fData f) ∧ g'.nP g.nNext = p ∧
      (divideFacePatch g.nNext g.eNext g.fNext f n1 n2 n3 e12 e23 e13).fn.map g'.fGlo = [g.fGlo f, g.faces.length, g.faces.length + 1] ∧
      (divideFacePatch g.nNext g.eNext g.fNext f n1 n2 n3 e12 e23 e13).en.map g'.eGlo = [g.edges.length, g.edges.length + 1, g.edges.length + 2] := by
  obtain ⟨g1, ra, d, fa⟩ := (Deleted.refl g).face G.mesh G.zones hf (by simp)
  simp only [List.nil_append] at d
  refine ⟨g1, ?_⟩
  unfold divideFace
  rw [hn]
  simp only [someZone, hz, res_bind_ok, ra, show Py.get [n1, n2, n3] 0 = .ok n1 from rfl,
    show Py.get [n1, n2, n3] 1 = .ok n2 from rfl, show Py.get [n1, n2, n3] 2 = .ok n3 from rfl]
  obtain ⟨g3, h3⟩ : ∃ g3, g3 = g1.newFaces [g.fData f, g.fData f, g.fData f] := ⟨_, rfl⟩
  rw [← h3]
  rw [newFaces_eq] at h3
  have hb_p : rc p ∉ g3.bag := by
    simp only [h3, d.bag]
    rw [G.merged.bag]
    rintro ⟨n, hn, h⟩
    rw [G.merged.key n hn] at h
    exact hp_p n hn h
  obtain ⟨g4, hg4⟩ : ∃ g4 : Grid F R, g4 = { g3 with
      nodes := g3.nodes ++ [g3.nNext]
      bag := g3.bag ++ [rc p]
      nGlo := upd g3.nGlo g3.nNext g3.nodes.length
      nP := upd g3.nP g3.nNext p
      nKey := upd g3.nKey g3.nNext (rc p)
      nEdges := upd g3.nEdges g3.nNext []
      nFaces := upd g3.nFaces g3.nNext []
      nBorder := upd g3.nBorder g3.nNext false
      nNext := g3.nNext + 1
      zNodes := upd g3.zNodes z (g3.zNodes z ++ [g3.nNext]) } := ⟨_, rfl⟩
  have nng3 : g3.nNext = g.nNext := by simp only [h3, d.nNext]
  rw [placeNode_ok rc g3 z p hb_p, ← hg4, nng3]
  simp only [res_bind_ok]
  have en4 : g4.eNodes = g.eNodes := by simp only [hg4, h3, d.eNodes]
  have nE4 : ∀ n ∈ g.nodes, g4.nEdges n = g.nEdges n := by
    intro n hn
    have := G.alloc.nodes n hn
    simp only [hg4]
    rw [nng3, upd_ne _ _ (by omega)]
    simp only [h3]; rw [d.nEdges n hn, without_nil]
  have nK4 : ∀ n ∈ g.nodes, g4.nKey n = g.nKey n := by
    intro n hn
    have := G.alloc.nodes n hn
    simp only [hg4]
    rw [nng3, upd_ne _ _ (by omega)]
    simp only [h3, d.nKey]
  have s1 := findEdge_eq G.mesh G.merged c.nodes.1 c.nodes.2.1 c.n12 c.mem.1 c.j12 en4 nE4 nK4
  have s2 := findEdge_eq G.mesh G.merged c.nodes.2.1 c.nodes.2.2 c.n23 c.mem.2.1 c.j23 en4 nE4 nK4
  have s3 := findEdge_eq G.mesh G.merged c.nodes.1 c.nodes.2.2 c.n13 c.mem.2.2 c.j13 en4 nE4 nK4
  simp only [s1, s2, s3, someEdge, res_bind_ok]
  have e5 : g4.eNext = g.eNext := by simp only [hg4, h3, d.eNext]
  have f1e : g1.fNext = g.fNext := d.fNext
  rw [e5, f1e]
  obtain ⟨g6, h6⟩ : ∃ g6 : Grid F R, g6 = g4.newEdges 3 := ⟨_, rfl⟩
  rw [← h6]
  rw [newEdges_eq] at h6
  obtain ⟨P, hP⟩ : ∃ P, P = divideFacePatch g.nNext g.eNext g.fNext f n1 n2 n3 e12 e23 e13 := ⟨_, rfl⟩
  have k : Plan P g := hP ▸ divideFace_plan G hf c
  rw [← hP]
  have pne := congrArg Patch.ne hP
  have pnf := congrArg Patch.nf hP
  have pef := congrArg Patch.ef hP
  have pen := congrArg Patch.en hP
  have pfn := congrArg Patch.fn hP
  have pnn := congrArg Patch.nn hP
  have pdf := congrArg Patch.df hP
  have pde := congrArg Patch.de hP
  simp only [divideFacePatch] at pne pnf pef pen pfn pnn pdf pde
  rw [← pne, ← pnf, ← pef, ← pen]
  have d0 := d
  replace d : Deleted P.df P.de g g1 := by rw [pdf, pde]; exact d
  obtain ⟨g7, h7⟩ : ∃ g7 : Grid F R, g7 = g6.linkNE P.ne := ⟨_, rfl⟩
  rw [← h7]
  rw [linkNE_eq] at h7
  have r7 := linkEF_ok _ g7 (ef_bound d k G.mesh (fun a ha => by
      simp only [h7, h6, hg4, h3, d.eNext]
      rw [if_neg]; have := G.alloc.edges a ha; omega) (fun a ha => by
      simp only [h7, h6, hg4, h3, d.eNext]
      rw [if_pos]; simp [pen] at ha; omega))
  obtain ⟨ga, ha⟩ : ∃ ga : Grid F R, ga = { g7 with eFaces := fun e => g7.eFaces e ++ sndOf P.ef e, fEdges := fun f => g7.fEdges f ++ fstOf P.ef f } := ⟨_, rfl⟩
  rw [r7, res_bind_ok, ← ha]
  obtain ⟨g8, h8⟩ : ∃ g8 : Grid F R, g8 = ga.linkNF P.nf := ⟨_, rfl⟩
  obtain ⟨g9, h9⟩ : ∃ g9 : Grid F R, g9 = g8.addFaces [(g.fNext, some (g.fGlo f)), (g.fNext + 1, none), (g.fNext + 2, none)] := ⟨_, rfl⟩
  obtain ⟨g10, h10⟩ : ∃ g10 : Grid F R, g10 = g9.addEdges [(g.eNext, none), (g.eNext + 1, none), (g.eNext + 2, none)] := ⟨_, rfl⟩
  rw [← h8, ← h9, ← h10]
  rw [linkNF_eq] at h8
  rw [addFaces_eq] at h9
  rw [addEdges_eq] at h10
  have r8 := zoneAddFaces_ok z [g.fNext, g.fNext + 1, g.fNext + 2] g10 (by
    intro x hx; simp only [List.mem_cons, List.not_mem_nil, or_false] at hx
    simp only [h10, h9, h8, ha, h7, h6, hg4, h3, d.fNext]; rw [if_pos]; simp; omega) (by simp)
  obtain ⟨gb, hb'⟩ : ∃ gb : Grid F R, gb = { g10 with
      fZone := fun f => if f ∈ [g.fNext, g.fNext + 1, g.fNext + 2] then some z else g10.fZone f
      zFaces := upd g10.zFaces z (g10.zFaces z ++ [g.fNext, g.fNext + 1, g.fNext + 2]) } := ⟨_, rfl⟩
  rw [r8, res_bind_ok, ← hb', zoneAddEdges_eq]
  obtain ⟨g', hg'⟩ : ∃ g' : Grid F R, g' = { gb with zEdges := upd gb.zEdges z (gb.zEdges z ++ P.en) } := ⟨_, rfl⟩
  have hh := d.fNext
  have he' := d.eNext
  have hn' := d.nNext
  have hfl := G.alloc.faces
  have lf' := k.length_df G.mesh
  have le' := k.length_de G.mesh
  rw [← d.faces] at lf'
  rw [← d.edges] at le'
  simp only [pdf, pde, List.length_cons, List.length_nil] at lf' le'
  refine ⟨g', d0, by rw [hg'], ?_, ?_⟩
  swap
  · refine ⟨?_, ?_, ?_, ?_⟩
    · simp only [hg', hb', h10, h9, h8, ha, h7, h6, hg4, h3, hh, List.length_cons, List.length_nil]; simp
    · simp only [hg', hb', h10, h9, h8, ha, h7, h6, hg4, h3]; rw [← hn', upd_self]
    · rw [pfn]; simp only [hg', hb', h10, h9, h8, ha, h7, h6, hg4, h3, hh, gloFold]; simp [upd]; omega
    · rw [pen]; simp only [hg', hb', h10, h9, h8, ha, h7, h6, hg4, h3, he', gloFold, d.eGlo]; simp [upd]; omega
  constructor
  all_goals try simp only [hg', hb', h10, h9, h8, ha, h7, h6, hg4, h3, nng3, pnn, pen, pfn, hh, he', hn']
  case edges => rfl
  case faces => rfl
  case nEdges => intro n hn; rw [upd_ne _ _ (by omega)]
  case nFaces => intro n hn; rw [upd_ne _ _ (by omega)]
  case nEdges_new => intro n hn; simp only [List.mem_cons, List.not_mem_nil, or_false] at hn; subst hn; rw [upd_self]; rfl
  case nFaces_new => intro n hn; simp only [List.mem_cons, List.not_mem_nil, or_false] at hn; subst hn; rw [upd_self]; rfl
  case eNodes => intro n hn; rw [if_neg (by omega)]
  case eFaces => intro n hn; rw [if_neg (by omega)]
  case eNodes_new => intro n hn; simp only [List.mem_cons, List.not_mem_nil, or_false] at hn; rw [if_pos (by omega)]; rfl
  case eFaces_new => intro n hn; simp only [List.mem_cons, List.not_mem_nil, or_false] at hn; rw [if_pos (by omega)]; rfl
  case fNodes => intro n hn; rw [if_neg (by omega)]
  case fNodes_new =>
    intro n hn; simp only [List.mem_cons, List.not_mem_nil, or_false] at hn
    rw [if_pos (by simp only [List.length_cons, List.length_nil]; omega)]; rfl
  case fEdges => 
    intro n hn hd
    rw [if_neg (by omega)]
  case fEdges_new =>
    intro n hn; simp only [List.mem_cons, List.not_mem_nil, or_false] at hn
    rw [if_pos (by simp only [List.length_cons, List.length_nil]; omega)]; rfl
  case nn => simp
  case en => rfl
  case fn => exact List.Perm.refl _
  case zfn_perm => exact List.Perm.refl _
  case nNext => exact Nat.le_refl _
  case eNext => rfl
  case fNext => rfl
  case zFaces => intro w; by_cases hw : w = z <;> simp [upd, hw]
  case zNodes => intro w; by_cases hw : w = z <;> simp [upd, hw]
  case zEdges => intro w; by_cases hw : w = z <;> simp [upd, hw]
  case fZone =>
    intro n hn
    rw [if_neg (by simp only [List.mem_cons, List.not_mem_nil, or_false]; omega), if_neg (by omega)]
  case fZone_new =>
    intro n hn
    rw [if_pos (by simp only [List.mem_cons, List.not_mem_nil, or_false] at hn ⊢; omega)]
  case fData => intro n hn; rw [if_neg (by omega)]
  case nP => intro n hn; rw [upd_ne _ _ (by omega)]
  case nKey => intro n hn; rw [upd_ne _ _ (by omega)]
  case nGlo => intro n hn; rw [upd_ne _ _ (by omega)]
  case nBorder => intro n hn; rw [upd_ne _ _ (by omega)]
  case eGlo =>
    intro n hn
    rw [gloFold_ne, if_neg (by omega)]
    intro q hq; simp only [List.mem_cons, List.not_mem_nil, or_false] at hq
    rcases hq with rfl | rfl | rfl <;> show _ ≠ _ <;> simp only <;> omega
  case fGlo =>
    intro n hn
    rw [gloFold_ne, if_neg (by omega)]
    intro q hq; simp only [List.mem_cons, List.not_mem_nil, or_false] at hq
    rcases hq with rfl | rfl | rfl <;> show _ ≠ _ <;> simp only <;> omega
  case key_new => simp
  case key_inj => simp
  case key_fresh => simp only [h3] at hb_p; simpa using hb_p
  case bag => intro k; simp [eq_comm]
  case glo_nodes => simp

end Grid
end Verif
