import Verif.Proofs.Local

/-! `cut_edge`. -/

namespace Verif
namespace Grid
variable {F R : Type} [DecidableEq R]

/-- What is replaced by what in `cutInner`. -/
def cutInnerPatch (N E K f h e n1 n2 n3 n4 e13 e23 e14 e24 : Nat) : Patch where
  df := [f, h]
  de := [e]
  nn := [N]
  en := [E, E + 1, E + 2, E + 3]
  fn := [K, K + 2, K + 1, K + 3]
  ne := [(n1, E), (N, E), (n2, E + 1), (N, E + 1), (n3, E + 2), (N, E + 2), (n4, E + 3), (N, E + 3)]
  nf := [(N, K), (N, K + 1), (N, K + 2), (N, K + 3), (n1, K + 1), (n1, K + 2), (n2, K), (n2, K + 3), (n3, K), (n3, K + 1), (n4, K + 2), (n4, K + 3)]
  ef := [(E, K + 1), (E, K + 2), (E + 1, K), (E + 1, K + 3), (E + 2, K + 1), (E + 2, K), (E + 3, K + 3), (E + 3, K + 2), (e13, K + 1), (e23, K), (e14, K + 2), (e24, K + 3)]

theorem cutInner_plan {rc : Vec F → R} {g : Grid F R} (G : Good rc g) {e f h n1 n2 n3 n4 e13 e23 e14 e24 : Nat}
    (he : e ∈ g.edges) (hf : g.eFaces e = [f, h]) (c : Corner2 g f h e n1 n2 n3 n4 e13 e23 e14 e24) :
    Plan (cutInnerPatch g.nNext g.eNext g.fNext f h e n1 n2 n3 n4 e13 e23 e14 e24) g := by
  obtain ⟨N, hN⟩ : ∃ N, N = g.nNext := ⟨_, rfl⟩
  obtain ⟨E, hE⟩ : ∃ E, E = g.eNext := ⟨_, rfl⟩
  obtain ⟨K, hK⟩ : ∃ K, K = g.fNext := ⟨_, rfl⟩
  have aN := G.alloc.nodes
  have aE := G.alloc.edges
  have aF := G.alloc.faces
  rw [← hN] at aN ⊢
  rw [← hE] at aE ⊢
  rw [← hK] at aF ⊢
  have k_n1 : ∀ i, n1 ≠ N + i := by have := aN n1 c.c.nodes.1; intro i; omega
  have k'_n1 : n1 ≠ N := k_n1 0
  have k_n2 : ∀ i, n2 ≠ N + i := by have := aN n2 c.c.nodes.2.1; intro i; omega
  have k'_n2 : n2 ≠ N := k_n2 0
  have k_n3 : ∀ i, n3 ≠ N + i := by have := aN n3 c.c.nodes.2.2; intro i; omega
  have k'_n3 : n3 ≠ N := k_n3 0
  have k_n4 : ∀ i, n4 ≠ N + i := by have := aN n4 c.d.nodes.2.2; intro i; omega
  have k'_n4 : n4 ≠ N := k_n4 0
  have q_e13 : ∀ i, e13 ≠ E + i := by have := aE e13 c.c.mem.1; intro i; omega
  have q'_e13 : e13 ≠ E := q_e13 0
  have q_e23 : ∀ i, e23 ≠ E + i := by have := aE e23 c.c.mem.2; intro i; omega
  have q'_e23 : e23 ≠ E := q_e23 0
  have q_e14 : ∀ i, e14 ≠ E + i := by have := aE e14 c.d.mem.1; intro i; omega
  have q'_e14 : e14 ≠ E := q_e14 0
  have q_e24 : ∀ i, e24 ≠ E + i := by have := aE e24 c.d.mem.2; intro i; omega
  have q'_e24 : e24 ≠ E := q_e24 0
  have ne_0 : fstOf (cutInnerPatch N E K f h e n1 n2 n3 n4 e13 e23 e14 e24).ne (E) = [n1, N] := by simp [cutInnerPatch, fstOf_cons, fstOf_nil]
  have ne_1 : fstOf (cutInnerPatch N E K f h e n1 n2 n3 n4 e13 e23 e14 e24).ne (E + 1) = [n2, N] := by simp [cutInnerPatch, fstOf_cons, fstOf_nil]
  have ne_2 : fstOf (cutInnerPatch N E K f h e n1 n2 n3 n4 e13 e23 e14 e24).ne (E + 2) = [n3, N] := by simp [cutInnerPatch, fstOf_cons, fstOf_nil]
  have ne_3 : fstOf (cutInnerPatch N E K f h e n1 n2 n3 n4 e13 e23 e14 e24).ne (E + 3) = [n4, N] := by simp [cutInnerPatch, fstOf_cons, fstOf_nil]
  have nf_0 : fstOf (cutInnerPatch N E K f h e n1 n2 n3 n4 e13 e23 e14 e24).nf (K) = [N, n2, n3] := by simp [cutInnerPatch, fstOf_cons, fstOf_nil]
  have ef_0 : fstOf (cutInnerPatch N E K f h e n1 n2 n3 n4 e13 e23 e14 e24).ef (K) = [E + 1, E + 2, e23] := by simp [cutInnerPatch, fstOf_cons, fstOf_nil]
  have nf_1 : fstOf (cutInnerPatch N E K f h e n1 n2 n3 n4 e13 e23 e14 e24).nf (K + 2) = [N, n1, n4] := by simp [cutInnerPatch, fstOf_cons, fstOf_nil]
  have ef_1 : fstOf (cutInnerPatch N E K f h e n1 n2 n3 n4 e13 e23 e14 e24).ef (K + 2) = [E, E + 3, e14] := by simp [cutInnerPatch, fstOf_cons, fstOf_nil]
  have nf_2 : fstOf (cutInnerPatch N E K f h e n1 n2 n3 n4 e13 e23 e14 e24).nf (K + 1) = [N, n1, n3] := by simp [cutInnerPatch, fstOf_cons, fstOf_nil]
  have ef_2 : fstOf (cutInnerPatch N E K f h e n1 n2 n3 n4 e13 e23 e14 e24).ef (K + 1) = [E, E + 2, e13] := by simp [cutInnerPatch, fstOf_cons, fstOf_nil]
  have nf_3 : fstOf (cutInnerPatch N E K f h e n1 n2 n3 n4 e13 e23 e14 e24).nf (K + 3) = [N, n2, n4] := by simp [cutInnerPatch, fstOf_cons, fstOf_nil]
  have ef_3 : fstOf (cutInnerPatch N E K f h e n1 n2 n3 n4 e13 e23 e14 e24).ef (K + 3) = [E + 1, E + 3, e24] := by simp [cutInnerPatch, fstOf_cons, fstOf_nil]
  have se_0 : sndOf (cutInnerPatch N E K f h e n1 n2 n3 n4 e13 e23 e14 e24).ef (E) = [K + 1, K + 2] := by simp [cutInnerPatch, sndOf_cons, sndOf_nil, q_e13, q'_e13, (q_e13 _).symm, q'_e13.symm, q_e23, q'_e23, (q_e23 _).symm, q'_e23.symm, q_e14, q'_e14, (q_e14 _).symm, q'_e14.symm, q_e24, q'_e24, (q_e24 _).symm, q'_e24.symm]
  have se_1 : sndOf (cutInnerPatch N E K f h e n1 n2 n3 n4 e13 e23 e14 e24).ef (E + 1) = [K, K + 3] := by simp [cutInnerPatch, sndOf_cons, sndOf_nil, q_e13, q'_e13, (q_e13 _).symm, q'_e13.symm, q_e23, q'_e23, (q_e23 _).symm, q'_e23.symm, q_e14, q'_e14, (q_e14 _).symm, q'_e14.symm, q_e24, q'_e24, (q_e24 _).symm, q'_e24.symm]
  have se_2 : sndOf (cutInnerPatch N E K f h e n1 n2 n3 n4 e13 e23 e14 e24).ef (E + 2) = [K + 1, K] := by simp [cutInnerPatch, sndOf_cons, sndOf_nil, q_e13, q'_e13, (q_e13 _).symm, q'_e13.symm, q_e23, q'_e23, (q_e23 _).symm, q'_e23.symm, q_e14, q'_e14, (q_e14 _).symm, q'_e14.symm, q_e24, q'_e24, (q_e24 _).symm, q'_e24.symm]
  have se_3 : sndOf (cutInnerPatch N E K f h e n1 n2 n3 n4 e13 e23 e14 e24).ef (E + 3) = [K + 3, K + 2] := by simp [cutInnerPatch, sndOf_cons, sndOf_nil, q_e13, q'_e13, (q_e13 _).symm, q'_e13.symm, q_e23, q'_e23, (q_e23 _).symm, q'_e23.symm, q_e14, q'_e14, (q_e14 _).symm, q'_e14.symm, q_e24, q'_e24, (q_e24 _).symm, q'_e24.symm]
  refine { df := ?_, de := ?_, de_faces := ?_, ne := ?_, nf := ?_, ef := ?_, edge2 := ?_, face3 := ?_, old_edge := ?_, new_edge := ?_,
           tri := ?_, uniq_new := ?_, uniq_old := ?_, simple_new := ?_, simple_old := ?_ }
  · simp [cutInnerPatch, c.hf, c.hh, c.fh]
  · simp [cutInnerPatch, he]
  · intro a ha h' hh ea
    simp [cutInnerPatch] at ha ⊢
    subst ha
    have := (G.mesh.edge_face a he h').2 ⟨hh, ea⟩
    simpa [hf] using this
  · simp [cutInnerPatch, c.c.nodes.1, c.c.nodes.2.1, c.c.nodes.2.2, c.d.nodes.2.2, k_n1, k'_n1, (k_n1 _).symm, k'_n1.symm, k_n2, k'_n2, (k_n2 _).symm, k'_n2.symm, k_n3, k'_n3, (k_n3 _).symm, k'_n3.symm, k_n4, k'_n4, (k_n4 _).symm, k'_n4.symm, c.c.n12, c.c.n13, c.c.n23, c.d.n13, c.d.n23, c.n34, c.c.ed1, c.c.ed2, c.c.ed3, c.d.ed1, c.d.ed2, c.d.ed3, c.x1, c.x2, c.x3, c.x4, (c.c.n12).symm, (c.c.n13).symm, (c.c.n23).symm, (c.d.n13).symm, (c.d.n23).symm, (c.n34).symm, (c.c.ed1).symm, (c.c.ed2).symm, (c.c.ed3).symm, (c.d.ed1).symm, (c.d.ed2).symm, (c.d.ed3).symm, (c.x1).symm, (c.x2).symm, (c.x3).symm, (c.x4).symm]
  · simp [cutInnerPatch, c.c.nodes.1, c.c.nodes.2.1, c.c.nodes.2.2, c.d.nodes.2.2, k_n1, k'_n1, (k_n1 _).symm, k'_n1.symm, k_n2, k'_n2, (k_n2 _).symm, k'_n2.symm, k_n3, k'_n3, (k_n3 _).symm, k'_n3.symm, k_n4, k'_n4, (k_n4 _).symm, k'_n4.symm, c.c.n12, c.c.n13, c.c.n23, c.d.n13, c.d.n23, c.n34, c.c.ed1, c.c.ed2, c.c.ed3, c.d.ed1, c.d.ed2, c.d.ed3, c.x1, c.x2, c.x3, c.x4, (c.c.n12).symm, (c.c.n13).symm, (c.c.n23).symm, (c.d.n13).symm, (c.d.n23).symm, (c.n34).symm, (c.c.ed1).symm, (c.c.ed2).symm, (c.c.ed3).symm, (c.d.ed1).symm, (c.d.ed2).symm, (c.d.ed3).symm, (c.x1).symm, (c.x2).symm, (c.x3).symm, (c.x4).symm]
  · simp [cutInnerPatch, c.c.mem.1, c.c.mem.2, c.d.mem.1, c.d.mem.2, q_e13, q'_e13, (q_e13 _).symm, q'_e13.symm, q_e23, q'_e23, (q_e23 _).symm, q'_e23.symm, q_e14, q'_e14, (q_e14 _).symm, q'_e14.symm, q_e24, q'_e24, (q_e24 _).symm, q'_e24.symm, c.c.n12, c.c.n13, c.c.n23, c.d.n13, c.d.n23, c.n34, c.c.ed1, c.c.ed2, c.c.ed3, c.d.ed1, c.d.ed2, c.d.ed3, c.x1, c.x2, c.x3, c.x4, (c.c.n12).symm, (c.c.n13).symm, (c.c.n23).symm, (c.d.n13).symm, (c.d.n23).symm, (c.n34).symm, (c.c.ed1).symm, (c.c.ed2).symm, (c.c.ed3).symm, (c.d.ed1).symm, (c.d.ed2).symm, (c.d.ed3).symm, (c.x1).symm, (c.x2).symm, (c.x3).symm, (c.x4).symm]
  · intro a ha
    change a ∈ [E, E + 1, E + 2, E + 3] at ha
    simp only [List.mem_cons, List.not_mem_nil, or_false] at ha
    rcases ha with rfl | rfl | rfl | rfl <;> simp only [ne_0, ne_1, ne_2, ne_3] <;> rfl
  · intro a ha
    change a ∈ [K, K + 2, K + 1, K + 3] at ha
    simp only [List.mem_cons, List.not_mem_nil, or_false] at ha
    rcases ha with rfl | rfl | rfl | rfl <;> simp only [nf_0, nf_1, nf_2, nf_3, ef_0, ef_1, ef_2, ef_3] <;> exact ⟨rfl, rfl⟩
  · intro a ha hd
    change _ ∉ [e] at hd
    change ((g.eFaces a).filter (fun x => decide (x ∈ [f, h]))).length = (sndOf
      [(E, K + 1), (E, K + 2), (E + 1, K), (E + 1, K + 3), (E + 2, K + 1), (E + 2, K), (E + 3, K + 3), (E + 3, K + 2), (e13, K + 1), (e23, K), (e14, K + 2), (e24, K + 3)] a).length
    rw [count_df2 (G.mesh.edge_faces a ha).2 c.fh]
    have hq1 : f ∈ g.eFaces a ↔ a = e13 ∨ a = e23 := by
      rw [G.mesh.edge_face a ha f, c.c.edges a]
      constructor
      · rintro ⟨-, h | h⟩
        · exact absurd h (by simpa using hd)
        · exact h
      · intro h; exact ⟨c.hf, Or.inr h⟩
    have hq2 : h ∈ g.eFaces a ↔ a = e14 ∨ a = e24 := by
      rw [G.mesh.edge_face a ha h, c.d.edges a]
      constructor
      · rintro ⟨-, h | h⟩
        · exact absurd h (by simpa using hd)
        · exact h
      · intro h; exact ⟨c.hh, Or.inr h⟩
    have hA := aE a ha
    have r1 : ∀ i, E + i ≠ a := by intro i; omega
    have r2 : E ≠ a := by omega
    simp only [hq1, hq2, sndOf_cons, sndOf_nil, r1, r2, if_false, List.nil_append, List.append_nil]
    by_cases u : a = e13
    · subst u; simp [c.c.ed3.symm, c.c.ed3, c.x1, c.x2, c.x3, c.x4, c.x1.symm, c.x2.symm, c.x3.symm, c.x4.symm]
    · by_cases v : a = e23
      · subst v; simp [c.c.ed3.symm, c.c.ed3, c.x1, c.x2, c.x3, c.x4, c.x1.symm, c.x2.symm, c.x3.symm, c.x4.symm]
      · by_cases u' : a = e14
        · subst u'; simp [c.d.ed3.symm, c.d.ed3, c.x1, c.x2, c.x3, c.x4, c.x1.symm, c.x2.symm, c.x3.symm, c.x4.symm]
        · by_cases v' : a = e24
          · subst v'; simp [c.d.ed3.symm, c.d.ed3, c.x1, c.x2, c.x3, c.x4, c.x1.symm, c.x2.symm, c.x3.symm, c.x4.symm]
          · simp [u, v, u', v', Ne.symm u, Ne.symm v, Ne.symm u', Ne.symm v']
  · intro a ha
    change a ∈ [E, E + 1, E + 2, E + 3] at ha
    simp only [List.mem_cons, List.not_mem_nil, or_false] at ha
    rcases ha with rfl | rfl | rfl | rfl
    · rw [se_0]; simp
    · rw [se_1]; simp
    · rw [se_2]; simp
    · rw [se_3]; simp
  · intro a ha
    change a ∈ [K, K + 2, K + 1, K + 3] at ha
    simp only [List.mem_cons, List.not_mem_nil, or_false] at ha
    rcases ha with rfl | rfl | rfl | rfl
    · refine ⟨n2, N, n3, E + 1, E + 2, e23, ?_, ?_, Or.inl ⟨?_, ?_⟩, Or.inl ⟨?_, ?_⟩, Or.inr ⟨c.c.mem.2, ?_, c.c.j23⟩⟩
      · intro n; rw [nf_0]; simp only [List.mem_cons, List.not_mem_nil, or_false] <;> tauto
      · intro n; rw [ef_0]; simp only [List.mem_cons, List.not_mem_nil, or_false] <;> tauto
      · show _ ∈ [E, E + 1, E + 2, E + 3]; simp
      · intro n; rw [ne_1]; simp only [List.mem_cons, List.not_mem_nil, or_false] <;> tauto
      · show _ ∈ [E, E + 1, E + 2, E + 3]; simp
      · intro n; rw [ne_2]; simp only [List.mem_cons, List.not_mem_nil, or_false] <;> tauto
      · show _ ∉ [e]; simp [c.c.n12, c.c.n13, c.c.n23, c.d.n13, c.d.n23, c.n34, c.c.ed1, c.c.ed2, c.c.ed3, c.d.ed1, c.d.ed2, c.d.ed3, c.x1, c.x2, c.x3, c.x4, (c.c.n12).symm, (c.c.n13).symm, (c.c.n23).symm, (c.d.n13).symm, (c.d.n23).symm, (c.n34).symm, (c.c.ed1).symm, (c.c.ed2).symm, (c.c.ed3).symm, (c.d.ed1).symm, (c.d.ed2).symm, (c.d.ed3).symm, (c.x1).symm, (c.x2).symm, (c.x3).symm, (c.x4).symm]
    · refine ⟨n1, N, n4, E, E + 3, e14, ?_, ?_, Or.inl ⟨?_, ?_⟩, Or.inl ⟨?_, ?_⟩, Or.inr ⟨c.d.mem.1, ?_, c.d.j13⟩⟩
      · intro n; rw [nf_1]; simp only [List.mem_cons, List.not_mem_nil, or_false] <;> tauto
      · intro n; rw [ef_1]; simp only [List.mem_cons, List.not_mem_nil, or_false] <;> tauto
      · show _ ∈ [E, E + 1, E + 2, E + 3]; simp
      · intro n; rw [ne_0]; simp only [List.mem_cons, List.not_mem_nil, or_false] <;> tauto
      · show _ ∈ [E, E + 1, E + 2, E + 3]; simp
      · intro n; rw [ne_3]; simp only [List.mem_cons, List.not_mem_nil, or_false] <;> tauto
      · show _ ∉ [e]; simp [c.c.n12, c.c.n13, c.c.n23, c.d.n13, c.d.n23, c.n34, c.c.ed1, c.c.ed2, c.c.ed3, c.d.ed1, c.d.ed2, c.d.ed3, c.x1, c.x2, c.x3, c.x4, (c.c.n12).symm, (c.c.n13).symm, (c.c.n23).symm, (c.d.n13).symm, (c.d.n23).symm, (c.n34).symm, (c.c.ed1).symm, (c.c.ed2).symm, (c.c.ed3).symm, (c.d.ed1).symm, (c.d.ed2).symm, (c.d.ed3).symm, (c.x1).symm, (c.x2).symm, (c.x3).symm, (c.x4).symm]
    · refine ⟨n1, N, n3, E, E + 2, e13, ?_, ?_, Or.inl ⟨?_, ?_⟩, Or.inl ⟨?_, ?_⟩, Or.inr ⟨c.c.mem.1, ?_, c.c.j13⟩⟩
      · intro n; rw [nf_2]; simp only [List.mem_cons, List.not_mem_nil, or_false] <;> tauto
      · intro n; rw [ef_2]; simp only [List.mem_cons, List.not_mem_nil, or_false] <;> tauto
      · show _ ∈ [E, E + 1, E + 2, E + 3]; simp
      · intro n; rw [ne_0]; simp only [List.mem_cons, List.not_mem_nil, or_false] <;> tauto
      · show _ ∈ [E, E + 1, E + 2, E + 3]; simp
      · intro n; rw [ne_2]; simp only [List.mem_cons, List.not_mem_nil, or_false] <;> tauto
      · show _ ∉ [e]; simp [c.c.n12, c.c.n13, c.c.n23, c.d.n13, c.d.n23, c.n34, c.c.ed1, c.c.ed2, c.c.ed3, c.d.ed1, c.d.ed2, c.d.ed3, c.x1, c.x2, c.x3, c.x4, (c.c.n12).symm, (c.c.n13).symm, (c.c.n23).symm, (c.d.n13).symm, (c.d.n23).symm, (c.n34).symm, (c.c.ed1).symm, (c.c.ed2).symm, (c.c.ed3).symm, (c.d.ed1).symm, (c.d.ed2).symm, (c.d.ed3).symm, (c.x1).symm, (c.x2).symm, (c.x3).symm, (c.x4).symm]
    · refine ⟨n2, N, n4, E + 1, E + 3, e24, ?_, ?_, Or.inl ⟨?_, ?_⟩, Or.inl ⟨?_, ?_⟩, Or.inr ⟨c.d.mem.2, ?_, c.d.j23⟩⟩
      · intro n; rw [nf_3]; simp only [List.mem_cons, List.not_mem_nil, or_false] <;> tauto
      · intro n; rw [ef_3]; simp only [List.mem_cons, List.not_mem_nil, or_false] <;> tauto
      · show _ ∈ [E, E + 1, E + 2, E + 3]; simp
      · intro n; rw [ne_1]; simp only [List.mem_cons, List.not_mem_nil, or_false] <;> tauto
      · show _ ∈ [E, E + 1, E + 2, E + 3]; simp
      · intro n; rw [ne_3]; simp only [List.mem_cons, List.not_mem_nil, or_false] <;> tauto
      · show _ ∉ [e]; simp [c.c.n12, c.c.n13, c.c.n23, c.d.n13, c.d.n23, c.n34, c.c.ed1, c.c.ed2, c.c.ed3, c.d.ed1, c.d.ed2, c.d.ed3, c.x1, c.x2, c.x3, c.x4, (c.c.n12).symm, (c.c.n13).symm, (c.c.n23).symm, (c.d.n13).symm, (c.d.n23).symm, (c.n34).symm, (c.c.ed1).symm, (c.c.ed2).symm, (c.c.ed3).symm, (c.d.ed1).symm, (c.d.ed2).symm, (c.d.ed3).symm, (c.x1).symm, (c.x2).symm, (c.x3).symm, (c.x4).symm]
  · intro a ha b hb hy
    change a ∈ [E, E + 1, E + 2, E + 3] at ha
    change b ∈ [E, E + 1, E + 2, E + 3] at hb
    simp only [List.mem_cons, List.not_mem_nil, or_false] at ha hb
    rcases ha with rfl | rfl | rfl | rfl <;> rcases hb with rfl | rfl | rfl | rfl
    · rfl
    · have hx := (hy (n1)).1 (by rw [ne_0]; simp)
      rw [ne_1] at hx
      simp [k_n1, k'_n1, (k_n1 _).symm, k'_n1.symm, k_n2, k'_n2, (k_n2 _).symm, k'_n2.symm, k_n3, k'_n3, (k_n3 _).symm, k'_n3.symm, k_n4, k'_n4, (k_n4 _).symm, k'_n4.symm, c.c.n12, c.c.n13, c.c.n23, c.d.n13, c.d.n23, c.n34, c.c.ed1, c.c.ed2, c.c.ed3, c.d.ed1, c.d.ed2, c.d.ed3, c.x1, c.x2, c.x3, c.x4, (c.c.n12).symm, (c.c.n13).symm, (c.c.n23).symm, (c.d.n13).symm, (c.d.n23).symm, (c.n34).symm, (c.c.ed1).symm, (c.c.ed2).symm, (c.c.ed3).symm, (c.d.ed1).symm, (c.d.ed2).symm, (c.d.ed3).symm, (c.x1).symm, (c.x2).symm, (c.x3).symm, (c.x4).symm] at hx
    · have hx := (hy (n1)).1 (by rw [ne_0]; simp)
      rw [ne_2] at hx
      simp [k_n1, k'_n1, (k_n1 _).symm, k'_n1.symm, k_n2, k'_n2, (k_n2 _).symm, k'_n2.symm, k_n3, k'_n3, (k_n3 _).symm, k'_n3.symm, k_n4, k'_n4, (k_n4 _).symm, k'_n4.symm, c.c.n12, c.c.n13, c.c.n23, c.d.n13, c.d.n23, c.n34, c.c.ed1, c.c.ed2, c.c.ed3, c.d.ed1, c.d.ed2, c.d.ed3, c.x1, c.x2, c.x3, c.x4, (c.c.n12).symm, (c.c.n13).symm, (c.c.n23).symm, (c.d.n13).symm, (c.d.n23).symm, (c.n34).symm, (c.c.ed1).symm, (c.c.ed2).symm, (c.c.ed3).symm, (c.d.ed1).symm, (c.d.ed2).symm, (c.d.ed3).symm, (c.x1).symm, (c.x2).symm, (c.x3).symm, (c.x4).symm] at hx
    · have hx := (hy (n1)).1 (by rw [ne_0]; simp)
      rw [ne_3] at hx
      simp [k_n1, k'_n1, (k_n1 _).symm, k'_n1.symm, k_n2, k'_n2, (k_n2 _).symm, k'_n2.symm, k_n3, k'_n3, (k_n3 _).symm, k'_n3.symm, k_n4, k'_n4, (k_n4 _).symm, k'_n4.symm, c.c.n12, c.c.n13, c.c.n23, c.d.n13, c.d.n23, c.n34, c.c.ed1, c.c.ed2, c.c.ed3, c.d.ed1, c.d.ed2, c.d.ed3, c.x1, c.x2, c.x3, c.x4, (c.c.n12).symm, (c.c.n13).symm, (c.c.n23).symm, (c.d.n13).symm, (c.d.n23).symm, (c.n34).symm, (c.c.ed1).symm, (c.c.ed2).symm, (c.c.ed3).symm, (c.d.ed1).symm, (c.d.ed2).symm, (c.d.ed3).symm, (c.x1).symm, (c.x2).symm, (c.x3).symm, (c.x4).symm] at hx
    · have hx := (hy (n2)).1 (by rw [ne_1]; simp)
      rw [ne_0] at hx
      simp [k_n1, k'_n1, (k_n1 _).symm, k'_n1.symm, k_n2, k'_n2, (k_n2 _).symm, k'_n2.symm, k_n3, k'_n3, (k_n3 _).symm, k'_n3.symm, k_n4, k'_n4, (k_n4 _).symm, k'_n4.symm, c.c.n12, c.c.n13, c.c.n23, c.d.n13, c.d.n23, c.n34, c.c.ed1, c.c.ed2, c.c.ed3, c.d.ed1, c.d.ed2, c.d.ed3, c.x1, c.x2, c.x3, c.x4, (c.c.n12).symm, (c.c.n13).symm, (c.c.n23).symm, (c.d.n13).symm, (c.d.n23).symm, (c.n34).symm, (c.c.ed1).symm, (c.c.ed2).symm, (c.c.ed3).symm, (c.d.ed1).symm, (c.d.ed2).symm, (c.d.ed3).symm, (c.x1).symm, (c.x2).symm, (c.x3).symm, (c.x4).symm] at hx
    · rfl
    · have hx := (hy (n2)).1 (by rw [ne_1]; simp)
      rw [ne_2] at hx
      simp [k_n1, k'_n1, (k_n1 _).symm, k'_n1.symm, k_n2, k'_n2, (k_n2 _).symm, k'_n2.symm, k_n3, k'_n3, (k_n3 _).symm, k'_n3.symm, k_n4, k'_n4, (k_n4 _).symm, k'_n4.symm, c.c.n12, c.c.n13, c.c.n23, c.d.n13, c.d.n23, c.n34, c.c.ed1, c.c.ed2, c.c.ed3, c.d.ed1, c.d.ed2, c.d.ed3, c.x1, c.x2, c.x3, c.x4, (c.c.n12).symm, (c.c.n13).symm, (c.c.n23).symm, (c.d.n13).symm, (c.d.n23).symm, (c.n34).symm, (c.c.ed1).symm, (c.c.ed2).symm, (c.c.ed3).symm, (c.d.ed1).symm, (c.d.ed2).symm, (c.d.ed3).symm, (c.x1).symm, (c.x2).symm, (c.x3).symm, (c.x4).symm] at hx
    · have hx := (hy (n2)).1 (by rw [ne_1]; simp)
      rw [ne_3] at hx
      simp [k_n1, k'_n1, (k_n1 _).symm, k'_n1.symm, k_n2, k'_n2, (k_n2 _).symm, k'_n2.symm, k_n3, k'_n3, (k_n3 _).symm, k'_n3.symm, k_n4, k'_n4, (k_n4 _).symm, k'_n4.symm, c.c.n12, c.c.n13, c.c.n23, c.d.n13, c.d.n23, c.n34, c.c.ed1, c.c.ed2, c.c.ed3, c.d.ed1, c.d.ed2, c.d.ed3, c.x1, c.x2, c.x3, c.x4, (c.c.n12).symm, (c.c.n13).symm, (c.c.n23).symm, (c.d.n13).symm, (c.d.n23).symm, (c.n34).symm, (c.c.ed1).symm, (c.c.ed2).symm, (c.c.ed3).symm, (c.d.ed1).symm, (c.d.ed2).symm, (c.d.ed3).symm, (c.x1).symm, (c.x2).symm, (c.x3).symm, (c.x4).symm] at hx
    · have hx := (hy (n3)).1 (by rw [ne_2]; simp)
      rw [ne_0] at hx
      simp [k_n1, k'_n1, (k_n1 _).symm, k'_n1.symm, k_n2, k'_n2, (k_n2 _).symm, k'_n2.symm, k_n3, k'_n3, (k_n3 _).symm, k'_n3.symm, k_n4, k'_n4, (k_n4 _).symm, k'_n4.symm, c.c.n12, c.c.n13, c.c.n23, c.d.n13, c.d.n23, c.n34, c.c.ed1, c.c.ed2, c.c.ed3, c.d.ed1, c.d.ed2, c.d.ed3, c.x1, c.x2, c.x3, c.x4, (c.c.n12).symm, (c.c.n13).symm, (c.c.n23).symm, (c.d.n13).symm, (c.d.n23).symm, (c.n34).symm, (c.c.ed1).symm, (c.c.ed2).symm, (c.c.ed3).symm, (c.d.ed1).symm, (c.d.ed2).symm, (c.d.ed3).symm, (c.x1).symm, (c.x2).symm, (c.x3).symm, (c.x4).symm] at hx
    · have hx := (hy (n3)).1 (by rw [ne_2]; simp)
      rw [ne_1] at hx
      simp [k_n1, k'_n1, (k_n1 _).symm, k'_n1.symm, k_n2, k'_n2, (k_n2 _).symm, k'_n2.symm, k_n3, k'_n3, (k_n3 _).symm, k'_n3.symm, k_n4, k'_n4, (k_n4 _).symm, k'_n4.symm, c.c.n12, c.c.n13, c.c.n23, c.d.n13, c.d.n23, c.n34, c.c.ed1, c.c.ed2, c.c.ed3, c.d.ed1, c.d.ed2, c.d.ed3, c.x1, c.x2, c.x3, c.x4, (c.c.n12).symm, (c.c.n13).symm, (c.c.n23).symm, (c.d.n13).symm, (c.d.n23).symm, (c.n34).symm, (c.c.ed1).symm, (c.c.ed2).symm, (c.c.ed3).symm, (c.d.ed1).symm, (c.d.ed2).symm, (c.d.ed3).symm, (c.x1).symm, (c.x2).symm, (c.x3).symm, (c.x4).symm] at hx
    · rfl
    · have hx := (hy (n3)).1 (by rw [ne_2]; simp)
      rw [ne_3] at hx
      simp [k_n1, k'_n1, (k_n1 _).symm, k'_n1.symm, k_n2, k'_n2, (k_n2 _).symm, k'_n2.symm, k_n3, k'_n3, (k_n3 _).symm, k'_n3.symm, k_n4, k'_n4, (k_n4 _).symm, k'_n4.symm, c.c.n12, c.c.n13, c.c.n23, c.d.n13, c.d.n23, c.n34, c.c.ed1, c.c.ed2, c.c.ed3, c.d.ed1, c.d.ed2, c.d.ed3, c.x1, c.x2, c.x3, c.x4, (c.c.n12).symm, (c.c.n13).symm, (c.c.n23).symm, (c.d.n13).symm, (c.d.n23).symm, (c.n34).symm, (c.c.ed1).symm, (c.c.ed2).symm, (c.c.ed3).symm, (c.d.ed1).symm, (c.d.ed2).symm, (c.d.ed3).symm, (c.x1).symm, (c.x2).symm, (c.x3).symm, (c.x4).symm] at hx
    · have hx := (hy (n4)).1 (by rw [ne_3]; simp)
      rw [ne_0] at hx
      simp [k_n1, k'_n1, (k_n1 _).symm, k'_n1.symm, k_n2, k'_n2, (k_n2 _).symm, k'_n2.symm, k_n3, k'_n3, (k_n3 _).symm, k'_n3.symm, k_n4, k'_n4, (k_n4 _).symm, k'_n4.symm, c.c.n12, c.c.n13, c.c.n23, c.d.n13, c.d.n23, c.n34, c.c.ed1, c.c.ed2, c.c.ed3, c.d.ed1, c.d.ed2, c.d.ed3, c.x1, c.x2, c.x3, c.x4, (c.c.n12).symm, (c.c.n13).symm, (c.c.n23).symm, (c.d.n13).symm, (c.d.n23).symm, (c.n34).symm, (c.c.ed1).symm, (c.c.ed2).symm, (c.c.ed3).symm, (c.d.ed1).symm, (c.d.ed2).symm, (c.d.ed3).symm, (c.x1).symm, (c.x2).symm, (c.x3).symm, (c.x4).symm] at hx
    · have hx := (hy (n4)).1 (by rw [ne_3]; simp)
      rw [ne_1] at hx
      simp [k_n1, k'_n1, (k_n1 _).symm, k'_n1.symm, k_n2, k'_n2, (k_n2 _).symm, k'_n2.symm, k_n3, k'_n3, (k_n3 _).symm, k'_n3.symm, k_n4, k'_n4, (k_n4 _).symm, k'_n4.symm, c.c.n12, c.c.n13, c.c.n23, c.d.n13, c.d.n23, c.n34, c.c.ed1, c.c.ed2, c.c.ed3, c.d.ed1, c.d.ed2, c.d.ed3, c.x1, c.x2, c.x3, c.x4, (c.c.n12).symm, (c.c.n13).symm, (c.c.n23).symm, (c.d.n13).symm, (c.d.n23).symm, (c.n34).symm, (c.c.ed1).symm, (c.c.ed2).symm, (c.c.ed3).symm, (c.d.ed1).symm, (c.d.ed2).symm, (c.d.ed3).symm, (c.x1).symm, (c.x2).symm, (c.x3).symm, (c.x4).symm] at hx
    · have hx := (hy (n4)).1 (by rw [ne_3]; simp)
      rw [ne_2] at hx
      simp [k_n1, k'_n1, (k_n1 _).symm, k'_n1.symm, k_n2, k'_n2, (k_n2 _).symm, k'_n2.symm, k_n3, k'_n3, (k_n3 _).symm, k'_n3.symm, k_n4, k'_n4, (k_n4 _).symm, k'_n4.symm, c.c.n12, c.c.n13, c.c.n23, c.d.n13, c.d.n23, c.n34, c.c.ed1, c.c.ed2, c.c.ed3, c.d.ed1, c.d.ed2, c.d.ed3, c.x1, c.x2, c.x3, c.x4, (c.c.n12).symm, (c.c.n13).symm, (c.c.n23).symm, (c.d.n13).symm, (c.d.n23).symm, (c.n34).symm, (c.c.ed1).symm, (c.c.ed2).symm, (c.c.ed3).symm, (c.d.ed1).symm, (c.d.ed2).symm, (c.d.ed3).symm, (c.x1).symm, (c.x2).symm, (c.x3).symm, (c.x4).symm] at hx
    · rfl
  · intro a ha b hb hbd hyp
    have h1 := fun i => (hyp (N + i)).1
    have h2 := fun i h => Nat.not_lt.2 (Nat.le_add_right N i) (aN (N + i) ((G.mesh.edge_nodes b hb).2.2 (N + i) h))
    have h3 : ∃ i, N + i ∈ fstOf (cutInnerPatch N E K f h e n1 n2 n3 n4 e13 e23 e14 e24).ne a := by
      change a ∈ [E, E + 1, E + 2, E + 3] at ha
      simp only [List.mem_cons, List.not_mem_nil, or_false] at ha
      rcases ha with rfl | rfl | rfl | rfl
      · exact ⟨0, by rw [ne_0]; simp⟩
      · exact ⟨0, by rw [ne_1]; simp⟩
      · exact ⟨0, by rw [ne_2]; simp⟩
      · exact ⟨0, by rw [ne_3]; simp⟩
    obtain ⟨i, h3⟩ := h3
    exact h2 i (h1 i h3)
  · intro a ha b hb hy
    change a ∈ [K, K + 2, K + 1, K + 3] at ha
    change b ∈ [K, K + 2, K + 1, K + 3] at hb
    simp only [List.mem_cons, List.not_mem_nil, or_false] at ha hb
    rcases ha with rfl | rfl | rfl | rfl <;> rcases hb with rfl | rfl | rfl | rfl
    · rfl
    · have hx := (hy (n2)).1 (by rw [nf_0]; simp)
      rw [nf_1] at hx
      simp [k_n1, k'_n1, (k_n1 _).symm, k'_n1.symm, k_n2, k'_n2, (k_n2 _).symm, k'_n2.symm, k_n3, k'_n3, (k_n3 _).symm, k'_n3.symm, k_n4, k'_n4, (k_n4 _).symm, k'_n4.symm, c.c.n12, c.c.n13, c.c.n23, c.d.n13, c.d.n23, c.n34, c.c.ed1, c.c.ed2, c.c.ed3, c.d.ed1, c.d.ed2, c.d.ed3, c.x1, c.x2, c.x3, c.x4, (c.c.n12).symm, (c.c.n13).symm, (c.c.n23).symm, (c.d.n13).symm, (c.d.n23).symm, (c.n34).symm, (c.c.ed1).symm, (c.c.ed2).symm, (c.c.ed3).symm, (c.d.ed1).symm, (c.d.ed2).symm, (c.d.ed3).symm, (c.x1).symm, (c.x2).symm, (c.x3).symm, (c.x4).symm] at hx
    · have hx := (hy (n2)).1 (by rw [nf_0]; simp)
      rw [nf_2] at hx
      simp [k_n1, k'_n1, (k_n1 _).symm, k'_n1.symm, k_n2, k'_n2, (k_n2 _).symm, k'_n2.symm, k_n3, k'_n3, (k_n3 _).symm, k'_n3.symm, k_n4, k'_n4, (k_n4 _).symm, k'_n4.symm, c.c.n12, c.c.n13, c.c.n23, c.d.n13, c.d.n23, c.n34, c.c.ed1, c.c.ed2, c.c.ed3, c.d.ed1, c.d.ed2, c.d.ed3, c.x1, c.x2, c.x3, c.x4, (c.c.n12).symm, (c.c.n13).symm, (c.c.n23).symm, (c.d.n13).symm, (c.d.n23).symm, (c.n34).symm, (c.c.ed1).symm, (c.c.ed2).symm, (c.c.ed3).symm, (c.d.ed1).symm, (c.d.ed2).symm, (c.d.ed3).symm, (c.x1).symm, (c.x2).symm, (c.x3).symm, (c.x4).symm] at hx
    · have hx := (hy (n3)).1 (by rw [nf_0]; simp)
      rw [nf_3] at hx
      simp [k_n1, k'_n1, (k_n1 _).symm, k'_n1.symm, k_n2, k'_n2, (k_n2 _).symm, k'_n2.symm, k_n3, k'_n3, (k_n3 _).symm, k'_n3.symm, k_n4, k'_n4, (k_n4 _).symm, k'_n4.symm, c.c.n12, c.c.n13, c.c.n23, c.d.n13, c.d.n23, c.n34, c.c.ed1, c.c.ed2, c.c.ed3, c.d.ed1, c.d.ed2, c.d.ed3, c.x1, c.x2, c.x3, c.x4, (c.c.n12).symm, (c.c.n13).symm, (c.c.n23).symm, (c.d.n13).symm, (c.d.n23).symm, (c.n34).symm, (c.c.ed1).symm, (c.c.ed2).symm, (c.c.ed3).symm, (c.d.ed1).symm, (c.d.ed2).symm, (c.d.ed3).symm, (c.x1).symm, (c.x2).symm, (c.x3).symm, (c.x4).symm] at hx
    · have hx := (hy (n1)).1 (by rw [nf_1]; simp)
      rw [nf_0] at hx
      simp [k_n1, k'_n1, (k_n1 _).symm, k'_n1.symm, k_n2, k'_n2, (k_n2 _).symm, k'_n2.symm, k_n3, k'_n3, (k_n3 _).symm, k'_n3.symm, k_n4, k'_n4, (k_n4 _).symm, k'_n4.symm, c.c.n12, c.c.n13, c.c.n23, c.d.n13, c.d.n23, c.n34, c.c.ed1, c.c.ed2, c.c.ed3, c.d.ed1, c.d.ed2, c.d.ed3, c.x1, c.x2, c.x3, c.x4, (c.c.n12).symm, (c.c.n13).symm, (c.c.n23).symm, (c.d.n13).symm, (c.d.n23).symm, (c.n34).symm, (c.c.ed1).symm, (c.c.ed2).symm, (c.c.ed3).symm, (c.d.ed1).symm, (c.d.ed2).symm, (c.d.ed3).symm, (c.x1).symm, (c.x2).symm, (c.x3).symm, (c.x4).symm] at hx
    · rfl
    · have hx := (hy (n4)).1 (by rw [nf_1]; simp)
      rw [nf_2] at hx
      simp [k_n1, k'_n1, (k_n1 _).symm, k'_n1.symm, k_n2, k'_n2, (k_n2 _).symm, k'_n2.symm, k_n3, k'_n3, (k_n3 _).symm, k'_n3.symm, k_n4, k'_n4, (k_n4 _).symm, k'_n4.symm, c.c.n12, c.c.n13, c.c.n23, c.d.n13, c.d.n23, c.n34, c.c.ed1, c.c.ed2, c.c.ed3, c.d.ed1, c.d.ed2, c.d.ed3, c.x1, c.x2, c.x3, c.x4, (c.c.n12).symm, (c.c.n13).symm, (c.c.n23).symm, (c.d.n13).symm, (c.d.n23).symm, (c.n34).symm, (c.c.ed1).symm, (c.c.ed2).symm, (c.c.ed3).symm, (c.d.ed1).symm, (c.d.ed2).symm, (c.d.ed3).symm, (c.x1).symm, (c.x2).symm, (c.x3).symm, (c.x4).symm] at hx
    · have hx := (hy (n1)).1 (by rw [nf_1]; simp)
      rw [nf_3] at hx
      simp [k_n1, k'_n1, (k_n1 _).symm, k'_n1.symm, k_n2, k'_n2, (k_n2 _).symm, k'_n2.symm, k_n3, k'_n3, (k_n3 _).symm, k'_n3.symm, k_n4, k'_n4, (k_n4 _).symm, k'_n4.symm, c.c.n12, c.c.n13, c.c.n23, c.d.n13, c.d.n23, c.n34, c.c.ed1, c.c.ed2, c.c.ed3, c.d.ed1, c.d.ed2, c.d.ed3, c.x1, c.x2, c.x3, c.x4, (c.c.n12).symm, (c.c.n13).symm, (c.c.n23).symm, (c.d.n13).symm, (c.d.n23).symm, (c.n34).symm, (c.c.ed1).symm, (c.c.ed2).symm, (c.c.ed3).symm, (c.d.ed1).symm, (c.d.ed2).symm, (c.d.ed3).symm, (c.x1).symm, (c.x2).symm, (c.x3).symm, (c.x4).symm] at hx
    · have hx := (hy (n1)).1 (by rw [nf_2]; simp)
      rw [nf_0] at hx
      simp [k_n1, k'_n1, (k_n1 _).symm, k'_n1.symm, k_n2, k'_n2, (k_n2 _).symm, k'_n2.symm, k_n3, k'_n3, (k_n3 _).symm, k'_n3.symm, k_n4, k'_n4, (k_n4 _).symm, k'_n4.symm, c.c.n12, c.c.n13, c.c.n23, c.d.n13, c.d.n23, c.n34, c.c.ed1, c.c.ed2, c.c.ed3, c.d.ed1, c.d.ed2, c.d.ed3, c.x1, c.x2, c.x3, c.x4, (c.c.n12).symm, (c.c.n13).symm, (c.c.n23).symm, (c.d.n13).symm, (c.d.n23).symm, (c.n34).symm, (c.c.ed1).symm, (c.c.ed2).symm, (c.c.ed3).symm, (c.d.ed1).symm, (c.d.ed2).symm, (c.d.ed3).symm, (c.x1).symm, (c.x2).symm, (c.x3).symm, (c.x4).symm] at hx
    · have hx := (hy (n3)).1 (by rw [nf_2]; simp)
      rw [nf_1] at hx
      simp [k_n1, k'_n1, (k_n1 _).symm, k'_n1.symm, k_n2, k'_n2, (k_n2 _).symm, k'_n2.symm, k_n3, k'_n3, (k_n3 _).symm, k'_n3.symm, k_n4, k'_n4, (k_n4 _).symm, k'_n4.symm, c.c.n12, c.c.n13, c.c.n23, c.d.n13, c.d.n23, c.n34, c.c.ed1, c.c.ed2, c.c.ed3, c.d.ed1, c.d.ed2, c.d.ed3, c.x1, c.x2, c.x3, c.x4, (c.c.n12).symm, (c.c.n13).symm, (c.c.n23).symm, (c.d.n13).symm, (c.d.n23).symm, (c.n34).symm, (c.c.ed1).symm, (c.c.ed2).symm, (c.c.ed3).symm, (c.d.ed1).symm, (c.d.ed2).symm, (c.d.ed3).symm, (c.x1).symm, (c.x2).symm, (c.x3).symm, (c.x4).symm] at hx
    · rfl
    · have hx := (hy (n1)).1 (by rw [nf_2]; simp)
      rw [nf_3] at hx
      simp [k_n1, k'_n1, (k_n1 _).symm, k'_n1.symm, k_n2, k'_n2, (k_n2 _).symm, k'_n2.symm, k_n3, k'_n3, (k_n3 _).symm, k'_n3.symm, k_n4, k'_n4, (k_n4 _).symm, k'_n4.symm, c.c.n12, c.c.n13, c.c.n23, c.d.n13, c.d.n23, c.n34, c.c.ed1, c.c.ed2, c.c.ed3, c.d.ed1, c.d.ed2, c.d.ed3, c.x1, c.x2, c.x3, c.x4, (c.c.n12).symm, (c.c.n13).symm, (c.c.n23).symm, (c.d.n13).symm, (c.d.n23).symm, (c.n34).symm, (c.c.ed1).symm, (c.c.ed2).symm, (c.c.ed3).symm, (c.d.ed1).symm, (c.d.ed2).symm, (c.d.ed3).symm, (c.x1).symm, (c.x2).symm, (c.x3).symm, (c.x4).symm] at hx
    · have hx := (hy (n4)).1 (by rw [nf_3]; simp)
      rw [nf_0] at hx
      simp [k_n1, k'_n1, (k_n1 _).symm, k'_n1.symm, k_n2, k'_n2, (k_n2 _).symm, k'_n2.symm, k_n3, k'_n3, (k_n3 _).symm, k'_n3.symm, k_n4, k'_n4, (k_n4 _).symm, k'_n4.symm, c.c.n12, c.c.n13, c.c.n23, c.d.n13, c.d.n23, c.n34, c.c.ed1, c.c.ed2, c.c.ed3, c.d.ed1, c.d.ed2, c.d.ed3, c.x1, c.x2, c.x3, c.x4, (c.c.n12).symm, (c.c.n13).symm, (c.c.n23).symm, (c.d.n13).symm, (c.d.n23).symm, (c.n34).symm, (c.c.ed1).symm, (c.c.ed2).symm, (c.c.ed3).symm, (c.d.ed1).symm, (c.d.ed2).symm, (c.d.ed3).symm, (c.x1).symm, (c.x2).symm, (c.x3).symm, (c.x4).symm] at hx
    · have hx := (hy (n2)).1 (by rw [nf_3]; simp)
      rw [nf_1] at hx
      simp [k_n1, k'_n1, (k_n1 _).symm, k'_n1.symm, k_n2, k'_n2, (k_n2 _).symm, k'_n2.symm, k_n3, k'_n3, (k_n3 _).symm, k'_n3.symm, k_n4, k'_n4, (k_n4 _).symm, k'_n4.symm, c.c.n12, c.c.n13, c.c.n23, c.d.n13, c.d.n23, c.n34, c.c.ed1, c.c.ed2, c.c.ed3, c.d.ed1, c.d.ed2, c.d.ed3, c.x1, c.x2, c.x3, c.x4, (c.c.n12).symm, (c.c.n13).symm, (c.c.n23).symm, (c.d.n13).symm, (c.d.n23).symm, (c.n34).symm, (c.c.ed1).symm, (c.c.ed2).symm, (c.c.ed3).symm, (c.d.ed1).symm, (c.d.ed2).symm, (c.d.ed3).symm, (c.x1).symm, (c.x2).symm, (c.x3).symm, (c.x4).symm] at hx
    · have hx := (hy (n2)).1 (by rw [nf_3]; simp)
      rw [nf_2] at hx
      simp [k_n1, k'_n1, (k_n1 _).symm, k'_n1.symm, k_n2, k'_n2, (k_n2 _).symm, k'_n2.symm, k_n3, k'_n3, (k_n3 _).symm, k'_n3.symm, k_n4, k'_n4, (k_n4 _).symm, k'_n4.symm, c.c.n12, c.c.n13, c.c.n23, c.d.n13, c.d.n23, c.n34, c.c.ed1, c.c.ed2, c.c.ed3, c.d.ed1, c.d.ed2, c.d.ed3, c.x1, c.x2, c.x3, c.x4, (c.c.n12).symm, (c.c.n13).symm, (c.c.n23).symm, (c.d.n13).symm, (c.d.n23).symm, (c.n34).symm, (c.c.ed1).symm, (c.c.ed2).symm, (c.c.ed3).symm, (c.d.ed1).symm, (c.d.ed2).symm, (c.d.ed3).symm, (c.x1).symm, (c.x2).symm, (c.x3).symm, (c.x4).symm] at hx
    · rfl
  · intro a ha b hb hbd hyp
    have h1 := fun i => (hyp (N + i)).1
    have h2 := fun i h => Nat.not_lt.2 (Nat.le_add_right N i) (aN (N + i) ((G.mesh.face_nodes b hb).2.2 (N + i) h))
    have h3 : ∃ i, N + i ∈ fstOf (cutInnerPatch N E K f h e n1 n2 n3 n4 e13 e23 e14 e24).nf a := by
      change a ∈ [K, K + 2, K + 1, K + 3] at ha
      simp only [List.mem_cons, List.not_mem_nil, or_false] at ha
      rcases ha with rfl | rfl | rfl | rfl
      · exact ⟨0, by rw [nf_0]; simp⟩
      · exact ⟨0, by rw [nf_1]; simp⟩
      · exact ⟨0, by rw [nf_2]; simp⟩
      · exact ⟨0, by rw [nf_3]; simp⟩
    obtain ⟨i, h3⟩ := h3
    exact h2 i (h1 i h3)

theorem cutInner_run {rc : Vec F → R} {g : Grid F R} (G : Good rc g) {e f h n1 n2 n3 n4 e13 e23 e14 e24 z : Nat} {p : Vec F}
    (he : e ∈ g.edges) (hf : g.eFaces e = [f, h]) (hn : g.eNodes e = [n1, n2])
    (c : Corner2 g f h e n1 n2 n3 n4 e13 e23 e14 e24) (hz : g.fZone f = some z) (hp_p : NewPlace rc g p) :
    ∃ g1 g', Deleted [f, h] [e] g g1 ∧ g.cutInner rc e p = .ok g' ∧
      Built (cutInnerPatch g.nNext g.eNext g.fNext f h e n1 n2 n3 n4 e13 e23 e14 e24) rc z [g.fNext, g.fNext + 1, g.fNext + 2, g.fNext + 3] g1 g' ∧
      (g'.fData g.fNext = g.fData f ∧ g'.fData (g.fNext + 1) = g.fData f ∧ g'.fData (g.fNext + 2) = g.fData h ∧
        g'.fData (g.fNext + 3) = g.fData h) ∧ g'.nP g.nNext = p ∧
      (cutInnerPatch g.nNext g.eNext g.fNext f h e n1 n2 n3 n4 e13 e23 e14 e24).fn.map g'.fGlo = [g.fGlo f, g.fGlo h, g.faces.length, g.faces.length + 1] ∧
      (cutInnerPatch g.nNext g.eNext g.fNext f h e n1 n2 n3 n4 e13 e23 e14 e24).en.map g'.eGlo = [g.eGlo e, g.edges.length, g.edges.length + 1, g.edges.length + 2] := by
  have hf_f := c.hf
  have hf_h := c.hh
  obtain ⟨ga0, ra, da, fa⟩ := (Deleted.refl g).face G.mesh G.zones hf_f (by simp)
  obtain ⟨gb0, rb', db, fb'⟩ := da.face G.mesh G.zones hf_h (by simpa using c.fh.symm)
  obtain ⟨g1, rb, d, _, fb⟩ := db.edge G.mesh G.zones.zones_nodup he (by simp) hn
  have hfe_f : g1.fEdges f = g.fEdges f := by rw [fb f (by simp), fb', fa]
  have hfe_h : g1.fEdges h = g.fEdges h := by rw [fb h (by simp), fb', fa]
  simp only [List.nil_append, List.cons_append] at d
  refine ⟨g1, ?_⟩
  unfold cutInner
  rw [hf]
  simp only [show Py.get [f, h] 0 = .ok f from rfl, show Py.get [f, h] 1 = .ok h from rfl, res_bind_ok, someZone, hz, ra, rb', rb]
  obtain ⟨g2, h2⟩ : ∃ g2, g2 = g1.newFaces [g.fData f, g.fData f, g.fData h, g.fData h] := ⟨_, rfl⟩
  obtain ⟨g3, h3⟩ : ∃ g3, g3 = g2.addFaces [(g1.fNext, some (g.fGlo f)), (g1.fNext + 2, some (g.fGlo h)), (g1.fNext + 1, none), (g1.fNext + 3, none)] := ⟨_, rfl⟩
  rw [← h2, ← h3]
  rw [newFaces_eq] at h2
  rw [addFaces_eq] at h3
  have en3 : g3.eNodes = g.eNodes := by simp only [h3, h2, d.eNodes]
  have fn3_f : g3.fNodes f = g.fNodes f := by
    simp only [h3, h2, d.fNodes]; rw [if_neg]; have := G.alloc.faces f hf_f; rw [d.fNext]; omega
  have fe3_f : g3.fEdges f = g.fEdges f := by
    simp only [h3, h2, hfe_f]; rw [if_neg]; have := G.alloc.faces f hf_f; rw [d.fNext]; omega
  have fn3_h : g3.fNodes h = g.fNodes h := by
    simp only [h3, h2, d.fNodes]; rw [if_neg]; have := G.alloc.faces h hf_h; rw [d.fNext]; omega
  have fe3_h : g3.fEdges h = g.fEdges h := by
    simp only [h3, h2, hfe_h]; rw [if_neg]; have := G.alloc.faces h hf_h; rw [d.fNext]; omega
  rw [en3, hn]
  simp only [show Py.get [n1, n2] 0 = .ok n1 from rfl, show Py.get [n1, n2] 1 = .ok n2 from rfl, res_bind_ok, thirdNode,
    fn3_f, c.c.third, show Py.get [n3] 0 = .ok n3 from rfl, fn3_h, c.d.third, show Py.get [n4] 0 = .ok n4 from rfl]
  have hb_p : rc p ∉ g3.bag := by
    simp only [h3, h2, d.bag]
    rw [G.merged.bag]
    rintro ⟨n, hn, h⟩
    rw [G.merged.key n hn] at h
    exact hp_p n hn h
  obtain ⟨g4, hg4⟩ : ∃ g4 : Grid F R, g4 = { g3 with
      nodes := g3.nodes ++ [g3.nNext]
      bag := g3.bag ++ [rc p]
      nGlo := upd g3.nGlo g3.nNext g3.nodes.length
      nP := upd g3.nP g3.nNext p
      nKey := upd g3.nKey g3.nNext (rc p)
      nEdges := upd g3.nEdges g3.nNext []
      nFaces := upd g3.nFaces g3.nNext []
      nBorder := upd g3.nBorder g3.nNext false
      nNext := g3.nNext + 1
      zNodes := upd g3.zNodes z (g3.zNodes z ++ [g3.nNext]) } := ⟨_, rfl⟩
  have nng3 : g3.nNext = g.nNext := by simp only [h3, h2, d.nNext]
  rw [placeNode_ok rc g3 z p hb_p, ← hg4, nng3]
  simp only [res_bind_ok]
  have fe4_f : g4.fEdges f = g.fEdges f := by simp only [hg4, fe3_f]
  obtain ⟨g5, hg5⟩ : ∃ g5 : Grid F R, g5 = { g4 with fEdges := upd g4.fEdges f ((g4.fEdges f).erase e) } := ⟨_, rfl⟩
  have r_g5 : faceDropEdge e g4 f = .ok g5 := by
    rw [hg5]; unfold faceDropEdge Py.remove; rw [if_pos (by rw [fe4_f]; exact (c.c.edges e).2 (Or.inl rfl))]; rfl
  have fe4_h : g5.fEdges h = g.fEdges h := by simp only [hg5, hg4]; rw [upd_ne _ _ c.fh.symm]; exact fe3_h
  obtain ⟨g5b, hg5b⟩ : ∃ g5b : Grid F R, g5b = { g5 with fEdges := upd g5.fEdges h ((g5.fEdges h).erase e) } := ⟨_, rfl⟩
  have r_g5b : faceDropEdge e g5 h = .ok g5b := by
    rw [hg5b]; unfold faceDropEdge Py.remove; rw [if_pos (by rw [fe4_h]; exact (c.d.edges e).2 (Or.inl rfl))]; rfl
  have en5 : g5b.eNodes = g.eNodes := by simp only [hg5b, hg5, hg4, en3]
  have fe5_h : g5b.fEdges h = (g.fEdges h).erase e := by rw [hg5b]; simp only [upd_self]; rw [fe4_h]
  have fe5_f : g5b.fEdges f = (g.fEdges f).erase e := by rw [hg5b]; simp only []; rw [upd_ne _ _ c.fh, hg5]; simp only [upd_self]; rw [fe4_f]
  simp only [r_g5, r_g5b, res_bind_ok, c.c.at1 G.mesh fe5_f en5, c.c.at2 G.mesh fe5_f en5, c.d.at1 G.mesh fe5_h en5, c.d.at2 G.mesh fe5_h en5]
  have e5 : g5b.eNext = g.eNext := by simp only [hg5b, hg5, hg4, h3, h2, d.eNext]
  have f1e : g1.fNext = g.fNext := d.fNext
  rw [e5, f1e]
  obtain ⟨g6, h6⟩ : ∃ g6 : Grid F R, g6 = g5b.newEdges 4 := ⟨_, rfl⟩
  rw [← h6]
  rw [newEdges_eq] at h6
  obtain ⟨P, hP⟩ : ∃ P, P = cutInnerPatch g.nNext g.eNext g.fNext f h e n1 n2 n3 n4 e13 e23 e14 e24 := ⟨_, rfl⟩
  have k : Plan P g := hP ▸ cutInner_plan G he hf c
  rw [← hP]
  have pne := congrArg Patch.ne hP
  have pnf := congrArg Patch.nf hP
  have pef := congrArg Patch.ef hP
  have pen := congrArg Patch.en hP
  have pfn := congrArg Patch.fn hP
  have pnn := congrArg Patch.nn hP
  have pdf := congrArg Patch.df hP
  have pde := congrArg Patch.de hP
  simp only [cutInnerPatch] at pne pnf pef pen pfn pnn pdf pde
  rw [← pne, ← pnf, ← pef, ← pen]
  rw [← pdf, ← pde] at d ⊢
  obtain ⟨g7, h7⟩ : ∃ g7 : Grid F R, g7 = g6.addEdges [(g.eNext, some (g6.eGlo e)), (g.eNext + 1, none), (g.eNext + 2, none), (g.eNext + 3, none)] := ⟨_, rfl⟩
  obtain ⟨g8, h8⟩ : ∃ g8 : Grid F R, g8 = g7.linkNE P.ne := ⟨_, rfl⟩
  obtain ⟨g9, h9⟩ : ∃ g9 : Grid F R, g9 = g8.linkNF P.nf := ⟨_, rfl⟩
  rw [← h7, ← h8, ← h9]
  rw [addEdges_eq] at h7
  rw [linkNE_eq] at h8
  rw [linkNF_eq] at h9
  have r7 := linkEF_ok _ g9 (ef_bound d k G.mesh (fun a ha => by
      simp only [h9, h8, h7, h6, hg5b, hg5, hg4, h3, h2, d.eNext]
      rw [if_neg]; have := G.alloc.edges a ha; omega) (fun a ha => by
      simp only [h9, h8, h7, h6, hg5b, hg5, hg4, h3, h2, d.eNext]
      rw [if_pos]; simp [pen] at ha; omega))
  obtain ⟨ga, ha⟩ : ∃ ga : Grid F R, ga = { g9 with eFaces := fun e => g9.eFaces e ++ sndOf P.ef e, fEdges := fun f => g9.fEdges f ++ fstOf P.ef f } := ⟨_, rfl⟩
  rw [r7, res_bind_ok, ← ha]
  have r8 := zoneAddFaces_ok z [g.fNext, g.fNext + 1, g.fNext + 2, g.fNext + 3] ga (by
    intro x hx; simp only [List.mem_cons, List.not_mem_nil, or_false] at hx
    simp only [ha, h9, h8, h7, h6, hg5b, hg5, hg4, h3, h2, d.fNext]; rw [if_pos]; simp; omega) (by simp)
  obtain ⟨gb, hb'⟩ : ∃ gb : Grid F R, gb = { ga with
      fZone := fun f => if f ∈ [g.fNext, g.fNext + 1, g.fNext + 2, g.fNext + 3] then some z else ga.fZone f
      zFaces := upd ga.zFaces z (ga.zFaces z ++ [g.fNext, g.fNext + 1, g.fNext + 2, g.fNext + 3]) } := ⟨_, rfl⟩
  rw [r8, res_bind_ok, ← hb', zoneAddEdges_eq]
  obtain ⟨g', hg'⟩ : ∃ g' : Grid F R, g' = { gb with zEdges := upd gb.zEdges z (gb.zEdges z ++ P.en) } := ⟨_, rfl⟩
  have hh := d.fNext
  have he' := d.eNext
  have hn' := d.nNext
  have hfl := G.alloc.faces
  have hel := G.alloc.edges e he
  have lf := length_without g.faces P.df
  have le := length_without g.edges P.de
  have lf' := k.length_df G.mesh
  have le' := k.length_de G.mesh
  rw [← d.faces] at lf'
  rw [← d.edges] at le'
  simp only [pdf, pde, List.length_cons, List.length_nil] at lf' le'
  refine ⟨g', d, by rw [hg'], ?_, ?_⟩
  swap
  · refine ⟨?_, ?_, ?_, ?_⟩
    · simp only [hg', hb', ha, h9, h8, h7, h6, hg5b, hg5, hg4, h3, h2, hh, List.length_cons, List.length_nil]; simp
    · simp only [hg', hb', ha, h9, h8, h7, h6, hg5b, hg5, hg4, h3, h2]; rw [← hn', upd_self]
    · rw [pfn]; simp only [hg', hb', ha, h9, h8, h7, h6, hg5b, hg5, hg4, h3, h2, hh, gloFold]; simp [upd]; omega
    · rw [pen]; simp only [hg', hb', ha, h9, h8, h7, h6, hg5b, hg5, hg4, h3, h2, he', gloFold, d.eGlo]; simp [upd]; omega

  constructor
  all_goals try simp only [hg', hb', ha, h9, h8, h7, h6, hg5b, hg5, hg4, h3, h2, nng3, pnn, pen, pfn, hh, he', hn']
  case edges => rfl
  case faces => rfl
  case nEdges => intro n hn; rw [upd_ne _ _ (by omega)]
  case nFaces => intro n hn; rw [upd_ne _ _ (by omega)]
  case nEdges_new => intro n hn; simp only [List.mem_cons, List.not_mem_nil, or_false] at hn; subst hn; rw [upd_self]; rfl
  case nFaces_new => intro n hn; simp only [List.mem_cons, List.not_mem_nil, or_false] at hn; subst hn; rw [upd_self]; rfl
  case eNodes => intro n hn; rw [if_neg (by omega)]
  case eFaces => intro n hn; rw [if_neg (by omega)]
  case eNodes_new => intro n hn; simp only [List.mem_cons, List.not_mem_nil, or_false] at hn; rw [if_pos (by omega)]; rfl
  case eFaces_new => intro n hn; simp only [List.mem_cons, List.not_mem_nil, or_false] at hn; rw [if_pos (by omega)]; rfl
  case fNodes => intro n hn; rw [if_neg (by omega)]
  case fNodes_new =>
    intro n hn; simp only [List.mem_cons, List.not_mem_nil, or_false] at hn
    rw [if_pos (by simp only [List.length_cons, List.length_nil]; omega)]; rfl
  case fEdges => 
    intro n hn hd
    rw [pdf] at hd
    simp at hd
    rw [upd_ne _ _ hd.2, upd_ne _ _ hd.1, if_neg (by omega)]
  case fEdges_new =>
    intro n hn; simp only [List.mem_cons, List.not_mem_nil, or_false] at hn
    rw [upd_ne _ _ (by have := hfl h hf_h; omega), upd_ne _ _ (by have := hfl f hf_f; omega), if_pos (by simp only [List.length_cons, List.length_nil]; omega)]; rfl
  case nn => simp
  case en => rfl
  case fn => exact (List.Perm.swap _ _ _).cons _
  case zfn_perm => exact (List.Perm.swap _ _ _).cons _
  case nNext => exact Nat.le_refl _
  case eNext => rfl
  case fNext => rfl
  case zFaces => intro w; by_cases hw : w = z <;> simp [upd, hw]
  case zNodes => intro w; by_cases hw : w = z <;> simp [upd, hw]
  case zEdges => intro w; by_cases hw : w = z <;> simp [upd, hw]
  case fZone =>
    intro n hn
    rw [if_neg (by simp only [List.mem_cons, List.not_mem_nil, or_false]; omega), if_neg (by omega)]
  case fZone_new =>
    intro n hn
    rw [if_pos (by simp only [List.mem_cons, List.not_mem_nil, or_false] at hn ⊢; omega)]
  case fData => intro n hn; rw [if_neg (by omega)]
  case nP => intro n hn; rw [upd_ne _ _ (by omega)]
  case nKey => intro n hn; rw [upd_ne _ _ (by omega)]
  case nGlo => intro n hn; rw [upd_ne _ _ (by omega)]
  case nBorder => intro n hn; rw [upd_ne _ _ (by omega)]
  case eGlo =>
    intro n hn
    rw [gloFold_ne, if_neg (by omega)]
    intro q hq; simp only [List.mem_cons, List.not_mem_nil, or_false] at hq
    rcases hq with rfl | rfl | rfl | rfl <;> show _ ≠ _ <;> simp only <;> omega
  case fGlo =>
    intro n hn
    rw [gloFold_ne, if_neg (by omega)]
    intro q hq; simp only [List.mem_cons, List.not_mem_nil, or_false] at hq
    rcases hq with rfl | rfl | rfl | rfl <;> show _ ≠ _ <;> simp only <;> omega
  case key_new => simp
  case key_inj => simp
  case key_fresh => simp only [h3, h2] at hb_p; simpa using hb_p
  case bag => intro k; simp [eq_comm]
  case glo_nodes => simp

end Grid
end Verif
