import Verif.Proofs.Local

/-! `collapse_face`. -/

namespace Verif
namespace Grid
variable {F R : Type}

/-- What is replaced by what in `flip`. -/
def flipPatch (E K f h e n1 n2 n3 n4 e13 e23 e14 e24 : Nat) : Patch where
  df := [f, h]
  de := [e]
  nn := []
  en := [E]
  fn := [K, K + 1]
  ne := [(n3, E), (n4, E)]
  nf := [(n1, K), (n3, K), (n4, K), (n2, K + 1), (n3, K + 1), (n4, K + 1)]
  ef := [(e13, K), (e14, K), (E, K), (e23, K + 1), (e24, K + 1), (E, K + 1)]

/-- The part of `Plan` which does not depend on which edges and faces stay. -/
structure Plan1 (P : Patch) (g : Grid F R) : Prop where
  df : (∀ f ∈ P.df, f ∈ g.faces) ∧ P.df.Nodup
  de : (∀ e ∈ P.de, e ∈ g.edges) ∧ P.de.Nodup
  de_faces : ∀ e ∈ P.de, ∀ f ∈ g.faces, e ∈ g.fEdges f → f ∈ P.df
  ne : (∀ p ∈ P.ne, (p.1 ∈ g.nodes ∨ p.1 ∈ P.nn) ∧ p.2 ∈ P.en) ∧ P.ne.Nodup
  nf : (∀ p ∈ P.nf, (p.1 ∈ g.nodes ∨ p.1 ∈ P.nn) ∧ p.2 ∈ P.fn) ∧ P.nf.Nodup
  ef : (∀ p ∈ P.ef, ((p.1 ∈ g.edges ∧ p.1 ∉ P.de) ∨ p.1 ∈ P.en) ∧ p.2 ∈ P.fn) ∧ P.ef.Nodup
  edge2 : ∀ e ∈ P.en, (fstOf P.ne e).length = 2
  face3 : ∀ f ∈ P.fn, (fstOf P.nf f).length = 3 ∧ (fstOf P.ef f).length = 3
  old_edge : ∀ e ∈ g.edges, e ∉ P.de → ((g.eFaces e).filter (fun f => decide (f ∈ P.df))).length = (sndOf P.ef e).length
  new_edge : ∀ e ∈ P.en, (sndOf P.ef e).length = 1 ∨ (sndOf P.ef e).length = 2
  tri : ∀ f ∈ P.fn, ∃ a b c x y w, (∀ n, n ∈ fstOf P.nf f ↔ n = a ∨ n = b ∨ n = c) ∧
    (∀ e, e ∈ fstOf P.ef f ↔ e = x ∨ e = y ∨ e = w) ∧ Ends P g x a b ∧ Ends P g y b c ∧ Ends P g w a c
  uniq_new : ∀ e ∈ P.en, ∀ e' ∈ P.en, (∀ n, n ∈ fstOf P.ne e ↔ n ∈ fstOf P.ne e') → e = e'
  simple_new : ∀ f ∈ P.fn, ∀ h ∈ P.fn, (∀ n, n ∈ fstOf P.nf f ↔ n ∈ fstOf P.nf h) → f = h

theorem Plan1.base {P : Patch} {g : Grid F R} (k : Plan1 P g) : Plan0 P g where
  df := k.df
  de := k.de
  de_faces := k.de_faces
  ne := fun p hp => (k.ne.1 p hp).2
  nf := fun p hp => (k.nf.1 p hp).2
  ef := k.ef.1
  old_edge := k.old_edge
  new_edge := k.new_edge

theorem flip_plan1 {rc : Vec F → R} {g : Grid F R} (G : Good rc g) {f h e n1 n2 n3 n4 e13 e23 e14 e24 : Nat}
    (he : e ∈ g.edges) (hf : ∀ x, x ∈ g.eFaces e ↔ x = f ∨ x = h) (c : Corner2 g f h e n1 n2 n3 n4 e13 e23 e14 e24) :
    Plan1 (flipPatch g.eNext g.fNext f h e n1 n2 n3 n4 e13 e23 e14 e24) g := by
  obtain ⟨N, hN⟩ : ∃ N, N = g.nNext := ⟨_, rfl⟩
  obtain ⟨E, hE⟩ : ∃ E, E = g.eNext := ⟨_, rfl⟩
  obtain ⟨K, hK⟩ : ∃ K, K = g.fNext := ⟨_, rfl⟩
  have aN := G.alloc.nodes
  have aE := G.alloc.edges
  have aF := G.alloc.faces
  rw [← hN] at aN
  rw [← hE] at aE ⊢
  rw [← hK] at aF ⊢
  have k_n1 : ∀ i, n1 ≠ N + i := by have := aN n1 c.c.nodes.1; intro i; omega
  have k'_n1 : n1 ≠ N := k_n1 0
  have k_n2 : ∀ i, n2 ≠ N + i := by have := aN n2 c.c.nodes.2.1; intro i; omega
  have k'_n2 : n2 ≠ N := k_n2 0
  have k_n3 : ∀ i, n3 ≠ N + i := by have := aN n3 c.c.nodes.2.2; intro i; omega
  have k'_n3 : n3 ≠ N := k_n3 0
  have k_n4 : ∀ i, n4 ≠ N + i := by have := aN n4 c.d.nodes.2.2; intro i; omega
  have k'_n4 : n4 ≠ N := k_n4 0
  have q_e13 : ∀ i, e13 ≠ E + i := by have := aE e13 c.c.mem.1; intro i; omega
  have q'_e13 : e13 ≠ E := q_e13 0
  have q_e23 : ∀ i, e23 ≠ E + i := by have := aE e23 c.c.mem.2; intro i; omega
  have q'_e23 : e23 ≠ E := q_e23 0
  have q_e14 : ∀ i, e14 ≠ E + i := by have := aE e14 c.d.mem.1; intro i; omega
  have q'_e14 : e14 ≠ E := q_e14 0
  have q_e24 : ∀ i, e24 ≠ E + i := by have := aE e24 c.d.mem.2; intro i; omega
  have q'_e24 : e24 ≠ E := q_e24 0
  have ne_0 : fstOf (flipPatch E K f h e n1 n2 n3 n4 e13 e23 e14 e24).ne (E) = [n3, n4] := by simp [flipPatch, fstOf_cons, fstOf_nil]
  have nf_0 : fstOf (flipPatch E K f h e n1 n2 n3 n4 e13 e23 e14 e24).nf (K) = [n1, n3, n4] := by simp [flipPatch, fstOf_cons, fstOf_nil]
  have ef_0 : fstOf (flipPatch E K f h e n1 n2 n3 n4 e13 e23 e14 e24).ef (K) = [e13, e14, E] := by simp [flipPatch, fstOf_cons, fstOf_nil]
  have nf_1 : fstOf (flipPatch E K f h e n1 n2 n3 n4 e13 e23 e14 e24).nf (K + 1) = [n2, n3, n4] := by simp [flipPatch, fstOf_cons, fstOf_nil]
  have ef_1 : fstOf (flipPatch E K f h e n1 n2 n3 n4 e13 e23 e14 e24).ef (K + 1) = [e23, e24, E] := by simp [flipPatch, fstOf_cons, fstOf_nil]
  have se_0 : sndOf (flipPatch E K f h e n1 n2 n3 n4 e13 e23 e14 e24).ef (E) = [K, K + 1] := by simp [flipPatch, sndOf_cons, sndOf_nil, q_e13, q'_e13, (q_e13 _).symm, q'_e13.symm, q_e23, q'_e23, (q_e23 _).symm, q'_e23.symm, q_e14, q'_e14, (q_e14 _).symm, q'_e14.symm, q_e24, q'_e24, (q_e24 _).symm, q'_e24.symm]
  refine { df := ?_, de := ?_, de_faces := ?_, ne := ?_, nf := ?_, ef := ?_, edge2 := ?_, face3 := ?_, old_edge := ?_, new_edge := ?_,
           tri := ?_, uniq_new := ?_, simple_new := ?_ }
  · simp [flipPatch, c.hf, c.hh, c.fh]
  · simp [flipPatch, he]
  · intro a ha h' hh ea
    simp [flipPatch] at ha ⊢
    subst ha
    have := (G.mesh.edge_face a he h').2 ⟨hh, ea⟩
    exact (hf h').1 this
  · simp [flipPatch, c.c.nodes.1, c.c.nodes.2.1, c.c.nodes.2.2, c.d.nodes.2.2, k_n1, k'_n1, (k_n1 _).symm, k'_n1.symm, k_n2, k'_n2, (k_n2 _).symm, k'_n2.symm, k_n3, k'_n3, (k_n3 _).symm, k'_n3.symm, k_n4, k'_n4, (k_n4 _).symm, k'_n4.symm, c.c.n12, c.c.n13, c.c.n23, c.d.n13, c.d.n23, c.n34, c.c.ed1, c.c.ed2, c.c.ed3, c.d.ed1, c.d.ed2, c.d.ed3, c.x1, c.x2, c.x3, c.x4, (c.c.n12).symm, (c.c.n13).symm, (c.c.n23).symm, (c.d.n13).symm, (c.d.n23).symm, (c.n34).symm, (c.c.ed1).symm, (c.c.ed2).symm, (c.c.ed3).symm, (c.d.ed1).symm, (c.d.ed2).symm, (c.d.ed3).symm, (c.x1).symm, (c.x2).symm, (c.x3).symm, (c.x4).symm]
  · simp [flipPatch, c.c.nodes.1, c.c.nodes.2.1, c.c.nodes.2.2, c.d.nodes.2.2, k_n1, k'_n1, (k_n1 _).symm, k'_n1.symm, k_n2, k'_n2, (k_n2 _).symm, k'_n2.symm, k_n3, k'_n3, (k_n3 _).symm, k'_n3.symm, k_n4, k'_n4, (k_n4 _).symm, k'_n4.symm, c.c.n12, c.c.n13, c.c.n23, c.d.n13, c.d.n23, c.n34, c.c.ed1, c.c.ed2, c.c.ed3, c.d.ed1, c.d.ed2, c.d.ed3, c.x1, c.x2, c.x3, c.x4, (c.c.n12).symm, (c.c.n13).symm, (c.c.n23).symm, (c.d.n13).symm, (c.d.n23).symm, (c.n34).symm, (c.c.ed1).symm, (c.c.ed2).symm, (c.c.ed3).symm, (c.d.ed1).symm, (c.d.ed2).symm, (c.d.ed3).symm, (c.x1).symm, (c.x2).symm, (c.x3).symm, (c.x4).symm]
  · simp [flipPatch, c.c.mem.1, c.c.mem.2, c.d.mem.1, c.d.mem.2, q_e13, q'_e13, (q_e13 _).symm, q'_e13.symm, q_e23, q'_e23, (q_e23 _).symm, q'_e23.symm, q_e14, q'_e14, (q_e14 _).symm, q'_e14.symm, q_e24, q'_e24, (q_e24 _).symm, q'_e24.symm, c.c.n12, c.c.n13, c.c.n23, c.d.n13, c.d.n23, c.n34, c.c.ed1, c.c.ed2, c.c.ed3, c.d.ed1, c.d.ed2, c.d.ed3, c.x1, c.x2, c.x3, c.x4, (c.c.n12).symm, (c.c.n13).symm, (c.c.n23).symm, (c.d.n13).symm, (c.d.n23).symm, (c.n34).symm, (c.c.ed1).symm, (c.c.ed2).symm, (c.c.ed3).symm, (c.d.ed1).symm, (c.d.ed2).symm, (c.d.ed3).symm, (c.x1).symm, (c.x2).symm, (c.x3).symm, (c.x4).symm]
  · intro a ha
    change a ∈ [E] at ha
    simp only [List.mem_cons, List.not_mem_nil, or_false] at ha
    rcases ha with rfl <;> simp only [ne_0] <;> rfl
  · intro a ha
    change a ∈ [K, K + 1] at ha
    simp only [List.mem_cons, List.not_mem_nil, or_false] at ha
    rcases ha with rfl | rfl <;> simp only [nf_0, nf_1, ef_0, ef_1] <;> exact ⟨rfl, rfl⟩
  · intro a ha hd
    change _ ∉ [e] at hd
    change ((g.eFaces a).filter (fun x => decide (x ∈ [f, h]))).length = (sndOf
      [(e13, K), (e14, K), (E, K), (e23, K + 1), (e24, K + 1), (E, K + 1)] a).length
    rw [count_df2 (G.mesh.edge_faces a ha).2 c.fh]
    have hq1 : f ∈ g.eFaces a ↔ a = e13 ∨ a = e23 := by
      rw [G.mesh.edge_face a ha f, c.c.edges a]
      constructor
      · rintro ⟨-, h | h⟩
        · exact absurd h (by simpa using hd)
        · exact h
      · intro h; exact ⟨c.hf, Or.inr h⟩
    have hq2 : h ∈ g.eFaces a ↔ a = e14 ∨ a = e24 := by
      rw [G.mesh.edge_face a ha h, c.d.edges a]
      constructor
      · rintro ⟨-, h | h⟩
        · exact absurd h (by simpa using hd)
        · exact h
      · intro h; exact ⟨c.hh, Or.inr h⟩
    have hA := aE a ha
    have r1 : ∀ i, E + i ≠ a := by intro i; omega
    have r2 : E ≠ a := by omega
    simp only [hq1, hq2, sndOf_cons, sndOf_nil, r1, r2, if_false, List.nil_append, List.append_nil]
    by_cases u : a = e13
    · subst u; simp [c.c.ed3.symm, c.c.ed3, c.x1, c.x2, c.x3, c.x4, c.x1.symm, c.x2.symm, c.x3.symm, c.x4.symm]
    · by_cases v : a = e23
      · subst v; simp [c.c.ed3.symm, c.c.ed3, c.x1, c.x2, c.x3, c.x4, c.x1.symm, c.x2.symm, c.x3.symm, c.x4.symm]
      · by_cases u' : a = e14
        · subst u'; simp [c.d.ed3.symm, c.d.ed3, c.x1, c.x2, c.x3, c.x4, c.x1.symm, c.x2.symm, c.x3.symm, c.x4.symm]
        · by_cases v' : a = e24
          · subst v'; simp [c.d.ed3.symm, c.d.ed3, c.x1, c.x2, c.x3, c.x4, c.x1.symm, c.x2.symm, c.x3.symm, c.x4.symm]
          · simp [u, v, u', v', Ne.symm u, Ne.symm v, Ne.symm u', Ne.symm v']
  · intro a ha
    change a ∈ [E] at ha
    simp only [List.mem_cons, List.not_mem_nil, or_false] at ha
    rcases ha with rfl
    · rw [se_0]; simp
  · intro a ha
    change a ∈ [K, K + 1] at ha
    simp only [List.mem_cons, List.not_mem_nil, or_false] at ha
    rcases ha with rfl | rfl
    · refine ⟨n1, n3, n4, e13, E, e14, ?_, ?_, Or.inr ⟨c.c.mem.1, ?_, c.c.j13⟩, Or.inl ⟨?_, ?_⟩, Or.inr ⟨c.d.mem.1, ?_, c.d.j13⟩⟩
      · intro n; rw [nf_0]; simp only [List.mem_cons, List.not_mem_nil, or_false] <;> tauto
      · intro n; rw [ef_0]; simp only [List.mem_cons, List.not_mem_nil, or_false] <;> tauto
      · show _ ∉ [e]; simp [c.c.n12, c.c.n13, c.c.n23, c.d.n13, c.d.n23, c.n34, c.c.ed1, c.c.ed2, c.c.ed3, c.d.ed1, c.d.ed2, c.d.ed3, c.x1, c.x2, c.x3, c.x4, (c.c.n12).symm, (c.c.n13).symm, (c.c.n23).symm, (c.d.n13).symm, (c.d.n23).symm, (c.n34).symm, (c.c.ed1).symm, (c.c.ed2).symm, (c.c.ed3).symm, (c.d.ed1).symm, (c.d.ed2).symm, (c.d.ed3).symm, (c.x1).symm, (c.x2).symm, (c.x3).symm, (c.x4).symm]
      · show _ ∈ [E]; simp
      · intro n; rw [ne_0]; simp only [List.mem_cons, List.not_mem_nil, or_false] <;> tauto
      · show _ ∉ [e]; simp [c.c.n12, c.c.n13, c.c.n23, c.d.n13, c.d.n23, c.n34, c.c.ed1, c.c.ed2, c.c.ed3, c.d.ed1, c.d.ed2, c.d.ed3, c.x1, c.x2, c.x3, c.x4, (c.c.n12).symm, (c.c.n13).symm, (c.c.n23).symm, (c.d.n13).symm, (c.d.n23).symm, (c.n34).symm, (c.c.ed1).symm, (c.c.ed2).symm, (c.c.ed3).symm, (c.d.ed1).symm, (c.d.ed2).symm, (c.d.ed3).symm, (c.x1).symm, (c.x2).symm, (c.x3).symm, (c.x4).symm]
    · refine ⟨n2, n3, n4, e23, E, e24, ?_, ?_, Or.inr ⟨c.c.mem.2, ?_, c.c.j23⟩, Or.inl ⟨?_, ?_⟩, Or.inr ⟨c.d.mem.2, ?_, c.d.j23⟩⟩
      · intro n; rw [nf_1]; simp only [List.mem_cons, List.not_mem_nil, or_false] <;> tauto
      · intro n; rw [ef_1]; simp only [List.mem_cons, List.not_mem_nil, or_false] <;> tauto
      · show _ ∉ [e]; simp [c.c.n12, c.c.n13, c.c.n23, c.d.n13, c.d.n23, c.n34, c.c.ed1, c.c.ed2, c.c.ed3, c.d.ed1, c.d.ed2, c.d.ed3, c.x1, c.x2, c.x3, c.x4, (c.c.n12).symm, (c.c.n13).symm, (c.c.n23).symm, (c.d.n13).symm, (c.d.n23).symm, (c.n34).symm, (c.c.ed1).symm, (c.c.ed2).symm, (c.c.ed3).symm, (c.d.ed1).symm, (c.d.ed2).symm, (c.d.ed3).symm, (c.x1).symm, (c.x2).symm, (c.x3).symm, (c.x4).symm]
      · show _ ∈ [E]; simp
      · intro n; rw [ne_0]; simp only [List.mem_cons, List.not_mem_nil, or_false] <;> tauto
      · show _ ∉ [e]; simp [c.c.n12, c.c.n13, c.c.n23, c.d.n13, c.d.n23, c.n34, c.c.ed1, c.c.ed2, c.c.ed3, c.d.ed1, c.d.ed2, c.d.ed3, c.x1, c.x2, c.x3, c.x4, (c.c.n12).symm, (c.c.n13).symm, (c.c.n23).symm, (c.d.n13).symm, (c.d.n23).symm, (c.n34).symm, (c.c.ed1).symm, (c.c.ed2).symm, (c.c.ed3).symm, (c.d.ed1).symm, (c.d.ed2).symm, (c.d.ed3).symm, (c.x1).symm, (c.x2).symm, (c.x3).symm, (c.x4).symm]
  · intro a ha b hb hy
    change a ∈ [E] at ha
    change b ∈ [E] at hb
    simp only [List.mem_cons, List.not_mem_nil, or_false] at ha hb
    rcases ha with rfl <;> rcases hb with rfl
    · rfl
  · intro a ha b hb hy
    change a ∈ [K, K + 1] at ha
    change b ∈ [K, K + 1] at hb
    simp only [List.mem_cons, List.not_mem_nil, or_false] at ha hb
    rcases ha with rfl | rfl <;> rcases hb with rfl | rfl
    · rfl
    · have hx := (hy (n1)).1 (by rw [nf_0]; simp)
      rw [nf_1] at hx
      simp [k_n1, k'_n1, (k_n1 _).symm, k'_n1.symm, k_n2, k'_n2, (k_n2 _).symm, k'_n2.symm, k_n3, k'_n3, (k_n3 _).symm, k'_n3.symm, k_n4, k'_n4, (k_n4 _).symm, k'_n4.symm, c.c.n12, c.c.n13, c.c.n23, c.d.n13, c.d.n23, c.n34, c.c.ed1, c.c.ed2, c.c.ed3, c.d.ed1, c.d.ed2, c.d.ed3, c.x1, c.x2, c.x3, c.x4, (c.c.n12).symm, (c.c.n13).symm, (c.c.n23).symm, (c.d.n13).symm, (c.d.n23).symm, (c.n34).symm, (c.c.ed1).symm, (c.c.ed2).symm, (c.c.ed3).symm, (c.d.ed1).symm, (c.d.ed2).symm, (c.d.ed3).symm, (c.x1).symm, (c.x2).symm, (c.x3).symm, (c.x4).symm] at hx
    · have hx := (hy (n2)).1 (by rw [nf_1]; simp)
      rw [nf_0] at hx
      simp [k_n1, k'_n1, (k_n1 _).symm, k'_n1.symm, k_n2, k'_n2, (k_n2 _).symm, k'_n2.symm, k_n3, k'_n3, (k_n3 _).symm, k'_n3.symm, k_n4, k'_n4, (k_n4 _).symm, k'_n4.symm, c.c.n12, c.c.n13, c.c.n23, c.d.n13, c.d.n23, c.n34, c.c.ed1, c.c.ed2, c.c.ed3, c.d.ed1, c.d.ed2, c.d.ed3, c.x1, c.x2, c.x3, c.x4, (c.c.n12).symm, (c.c.n13).symm, (c.c.n23).symm, (c.d.n13).symm, (c.d.n23).symm, (c.n34).symm, (c.c.ed1).symm, (c.c.ed2).symm, (c.c.ed3).symm, (c.d.ed1).symm, (c.d.ed2).symm, (c.d.ed3).symm, (c.x1).symm, (c.x2).symm, (c.x3).symm, (c.x4).symm] at hx
    · rfl

theorem flip_plan {rc : Vec F → R} {g : Grid F R} (G : Good rc g) {f h e n1 n2 n3 n4 e13 e23 e14 e24 : Nat}
    (he : e ∈ g.edges) (hf : ∀ x, x ∈ g.eFaces e ↔ x = f ∨ x = h) (c : Corner2 g f h e n1 n2 n3 n4 e13 e23 e14 e24)
    (hj : ∀ x ∈ g.edges, ¬ Joins g x n3 n4) :
    Plan (flipPatch g.eNext g.fNext f h e n1 n2 n3 n4 e13 e23 e14 e24) g := by
  unfold Joins at hj
  obtain ⟨E, hE⟩ : ∃ E, E = g.eNext := ⟨_, rfl⟩
  obtain ⟨K, hK⟩ : ∃ K, K = g.fNext := ⟨_, rfl⟩
  have k := flip_plan1 G he hf c
  rw [← hE, ← hK] at k ⊢
  have ne_0 : fstOf (flipPatch E K f h e n1 n2 n3 n4 e13 e23 e14 e24).ne (E) = [n3, n4] := by simp [flipPatch, fstOf_cons, fstOf_nil]
  have nf_0 : fstOf (flipPatch E K f h e n1 n2 n3 n4 e13 e23 e14 e24).nf (K) = [n1, n3, n4] := by simp [flipPatch, fstOf_cons, fstOf_nil]
  have nf_1 : fstOf (flipPatch E K f h e n1 n2 n3 n4 e13 e23 e14 e24).nf (K + 1) = [n2, n3, n4] := by simp [flipPatch, fstOf_cons, fstOf_nil]
  refine { k with uniq_old := ?_, simple_old := ?_ }
  · intro a ha b hb hbd hyp
    change a ∈ [E] at ha
    simp only [List.mem_cons, List.not_mem_nil, or_false] at ha
    subst ha
    refine hj b hb (fun n => ?_)
    rw [← hyp n, ne_0]; simp
  · intro a ha b hb hbd hyp
    have hs : ∀ x, x ∈ fstOf (flipPatch E K f h e n1 n2 n3 n4 e13 e23 e14 e24).nf a ↔ x ∈ g.fNodes b := hyp
    have hk : n3 ∈ fstOf (flipPatch E K f h e n1 n2 n3 n4 e13 e23 e14 e24).nf a ∧ n4 ∈ fstOf (flipPatch E K f h e n1 n2 n3 n4 e13 e23 e14 e24).nf a := by
      change a ∈ [K, K + 1] at ha
      simp only [List.mem_cons, List.not_mem_nil, or_false] at ha
      rcases ha with rfl | rfl
      · rw [nf_0]; simp
      · rw [nf_1]; simp
    obtain ⟨x, hx, hx3, hx4⟩ := G.mesh.sides b hb n3 ((hs n3).1 hk.1) n4 ((hs n4).1 hk.2) c.n34
    have hxe := (G.mesh.face_edges b hb).2.2 x hx
    exact hj x hxe (pair_iff (G.mesh.edge_nodes x hxe).1 (G.mesh.edge_nodes x hxe).2.1 hx3 hx4 c.n34)

theorem flip_run {rc : Vec F → R} {g : Grid F R} (G : Good rc g) {f h e n1 n2 n3 n4 e13 e23 e14 e24 z : Nat}
    (he : e ∈ g.edges) (hf : ∀ x, x ∈ g.eFaces e ↔ x = f ∨ x = h) (hn : g.eNodes e = [n1, n2])
    (c : Corner2 g f h e n1 n2 n3 n4 e13 e23 e14 e24) (hz : g.fZone f = some z) :
    ∃ g1 g', Deleted [f, h] [e] g g1 ∧ g.flipEdge f e = .ok g' ∧
      Built (flipPatch g.eNext g.fNext f h e n1 n2 n3 n4 e13 e23 e14 e24) rc z [g.fNext, g.fNext + 1] g1 g' ∧
      (g'.fData g.fNext = g.fData f ∧ g'.fData (g.fNext + 1) = g.fData f) ∧
      (flipPatch g.eNext g.fNext f h e n1 n2 n3 n4 e13 e23 e14 e24).fn.map g'.fGlo = [g.fGlo f, g.fGlo h] ∧
      (flipPatch g.eNext g.fNext f h e n1 n2 n3 n4 e13 e23 e14 e24).en.map g'.eGlo = [g.eGlo e] := by
  have hf_f := c.hf
  have hf_h := c.hh
  obtain ⟨ga0, ra, da, fa⟩ := (Deleted.refl g).face G.mesh G.zones hf_f (by simp)
  obtain ⟨gb0, rb, db, eb, fb⟩ := da.edge G.mesh G.zones.zones_nodup he (by simp) hn
  have hnd : ∀ x, x ∈ g.eFaces e ↔ x = f ∨ x = h := hf
  have heb : gb0.eFaces e = [h] := by
    rw [eb, da.eFaces e he (by simp)]
    refine List.perm_singleton.1 ((List.perm_ext_iff_of_nodup (nodup_without (G.mesh.edge_faces e he).2 _) (by simp)).2 fun x => ?_)
    rw [mem_without, hnd]
    simp only [List.nil_append, List.mem_singleton]
    constructor
    · rintro ⟨h1 | h1, h2⟩
      · exact absurd h1 h2
      · exact h1
    · rintro rfl; exact ⟨Or.inr rfl, c.fh.symm⟩
  obtain ⟨g1, rc', d, fc⟩ := db.face G.mesh G.zones hf_h (by simpa using c.fh.symm)
  have hfe_f : g1.fEdges f = g.fEdges f := by rw [fc, fb f (by simp), fa]
  have hfe_h : g1.fEdges h = (g.fEdges h).erase e := by
    rw [fc, db.fEdges h hf_h (by simpa using c.fh.symm), without_append_singleton (G.mesh.face_edges h hf_h).2.1, without_nil]
  simp only [List.nil_append, List.cons_append] at d
  refine ⟨g1, ?_⟩
  have hgl : gb0.fGlo = g.fGlo := db.fGlo
  unfold flipEdge
  simp only [someZone, hz, ra, res_bind_ok, rb, heb, show Py.get [h] 0 = .ok h from rfl, rc', hgl]
  obtain ⟨g2, h2⟩ : ∃ g2, g2 = g1.newFaces [g.fData f, g.fData f] := ⟨_, rfl⟩
  rw [← h2]
  rw [newFaces_eq] at h2
  have en3 : g2.eNodes = g.eNodes := by simp only [h2, d.eNodes]
  have fn3_f : g2.fNodes f = g.fNodes f := by
    simp only [h2, d.fNodes]; rw [if_neg]; have := G.alloc.faces f hf_f; rw [d.fNext]; omega
  have fe3_f : g2.fEdges f = g.fEdges f := by
    simp only [h2, hfe_f]; rw [if_neg]; have := G.alloc.faces f hf_f; rw [d.fNext]; omega
  have fn3_h : g2.fNodes h = g.fNodes h := by
    simp only [h2, d.fNodes]; rw [if_neg]; have := G.alloc.faces h hf_h; rw [d.fNext]; omega
  have fe3_h : g2.fEdges h = (g.fEdges h).erase e := by
    simp only [h2, hfe_h]; rw [if_neg]; have := G.alloc.faces h hf_h; rw [d.fNext]; omega
  rw [en3, hn]
  simp only [show Py.get [n1, n2] 0 = .ok n1 from rfl, show Py.get [n1, n2] 1 = .ok n2 from rfl, res_bind_ok, thirdNode,
    fn3_f, c.c.third, show Py.get [n3] 0 = .ok n3 from rfl, fn3_h, c.d.third, show Py.get [n4] 0 = .ok n4 from rfl]
  obtain ⟨g5, h5⟩ : ∃ g5 : Grid F R, g5 = { g2 with fEdges := upd g2.fEdges f ((g2.fEdges f).erase e) } := ⟨_, rfl⟩
  have r_g5 : faceDropEdge e g2 f = .ok g5 := by
    rw [h5]; unfold faceDropEdge Py.remove; rw [if_pos (by rw [fe3_f]; exact (c.c.edges e).2 (Or.inl rfl))]; rfl
  have en5 : g5.eNodes = g.eNodes := by simp only [h5, en3]
  have fe5_f : g5.fEdges f = (g.fEdges f).erase e := by rw [h5]; simp only [upd_self]; rw [fe3_f]
  have fe5_h : g5.fEdges h = (g.fEdges h).erase e := by rw [h5]; simp only []; rw [upd_ne _ _ c.fh.symm, fe3_h]
  simp only [r_g5, res_bind_ok, c.c.at1 G.mesh fe5_f en5, c.c.at2 G.mesh fe5_f en5, c.d.at1 G.mesh fe5_h en5, c.d.at2 G.mesh fe5_h en5]
  have e5 : g5.eNext = g.eNext := by simp only [h5, h2, d.eNext]
  have f1e : g1.fNext = g.fNext := d.fNext
  rw [e5, f1e]
  obtain ⟨g6, h6⟩ : ∃ g6 : Grid F R, g6 = g5.newEdges 1 := ⟨_, rfl⟩
  rw [← h6]
  rw [newEdges_eq] at h6
  obtain ⟨P, hP⟩ : ∃ P, P = flipPatch g.eNext g.fNext f h e n1 n2 n3 n4 e13 e23 e14 e24 := ⟨_, rfl⟩
  have k : Plan0 P g := hP ▸ (flip_plan1 G he hf c).base
  rw [← hP]
  have pne := congrArg Patch.ne hP
  have pnf := congrArg Patch.nf hP
  have pef := congrArg Patch.ef hP
  have pen := congrArg Patch.en hP
  have pfn := congrArg Patch.fn hP
  have pnn := congrArg Patch.nn hP
  have pdf := congrArg Patch.df hP
  have pde := congrArg Patch.de hP
  simp only [flipPatch] at pne pnf pef pen pfn pnn pdf pde
  rw [← pne, ← pnf, ← pef, ← pen]
  have d0 := d
  replace d : Deleted P.df P.de g g1 := by rw [pdf, pde]; exact d
  obtain ⟨g7, h7⟩ : ∃ g7 : Grid F R, g7 = g6.addEdges [(g.eNext, some (g6.eGlo e))] := ⟨_, rfl⟩
  obtain ⟨g8, h8⟩ : ∃ g8 : Grid F R, g8 = g7.linkNE P.ne := ⟨_, rfl⟩
  obtain ⟨g9, h9⟩ : ∃ g9 : Grid F R, g9 = g8.linkNF P.nf := ⟨_, rfl⟩
  rw [← h7, ← h8, ← h9]
  rw [addEdges_eq] at h7
  rw [linkNE_eq] at h8
  rw [linkNF_eq] at h9
  have r7 := linkEF_ok _ g9 (ef_bound d k G.mesh (fun a ha => by
      simp only [h9, h8, h7, h6, h5, h2, d.eNext]
      rw [if_neg]; have := G.alloc.edges a ha; omega) (fun a ha => by
      simp only [h9, h8, h7, h6, h5, h2, d.eNext]
      rw [if_pos]; simp [pen] at ha; omega))
  obtain ⟨ga, ha⟩ : ∃ ga : Grid F R, ga = { g9 with eFaces := fun e => g9.eFaces e ++ sndOf P.ef e, fEdges := fun f => g9.fEdges f ++ fstOf P.ef f } := ⟨_, rfl⟩
  rw [r7, res_bind_ok, ← ha]
  have r8 := zoneAddFaces_ok z [g.fNext, g.fNext + 1] ga (by
    intro x hx; simp only [List.mem_cons, List.not_mem_nil, or_false] at hx
    simp only [ha, h9, h8, h7, h6, h5, h2, d.fNext]; rw [if_pos]; simp; omega) (by simp)
  obtain ⟨gb, hb'⟩ : ∃ gb : Grid F R, gb = { ga with
      fZone := fun f => if f ∈ [g.fNext, g.fNext + 1] then some z else ga.fZone f
      zFaces := upd ga.zFaces z (ga.zFaces z ++ [g.fNext, g.fNext + 1]) } := ⟨_, rfl⟩
  rw [r8, res_bind_ok, ← hb']
  obtain ⟨gc, hgc⟩ : ∃ gc : Grid F R, gc = gb.zoneAddEdges z P.en := ⟨_, rfl⟩
  obtain ⟨g', hg'⟩ : ∃ g' : Grid F R, g' = gc.addFaces [(g.fNext, some (g.fGlo f)), (g.fNext + 1, some (g.fGlo h))] := ⟨_, rfl⟩
  rw [← hgc, ← hg']
  rw [zoneAddEdges_eq] at hgc
  rw [addFaces_eq] at hg'
  have hh := d.fNext
  have he' := d.eNext
  have hn' := d.nNext
  have hfl := G.alloc.faces
  have hel := G.alloc.edges e he
  refine ⟨g', d0, rfl, ?_, ?_⟩
  swap
  · refine ⟨?_, ?_, ?_⟩
    · simp only [hg', hgc, hb', ha, h9, h8, h7, h6, h5, h2, hh, List.length_cons, List.length_nil]; simp
    · rw [pfn]; simp only [hg', hgc, hb', ha, h9, h8, h7, h6, h5, h2, hh, gloFold]; simp [upd]
    · rw [pen]; simp only [hg', hgc, hb', ha, h9, h8, h7, h6, h5, h2, he', gloFold, d.eGlo]; simp [upd]; omega
  constructor
  all_goals try simp only [hg', hgc, hb', ha, h9, h8, h7, h6, h5, h2, pnn, pen, pfn, hh, he', hn']
  case edges => rfl
  case faces => rfl
  case nEdges_new => simp
  case nFaces_new => simp
  case eNodes => intro n hn; rw [if_neg (by omega)]
  case eFaces => intro n hn; rw [if_neg (by omega)]
  case eNodes_new => intro n hn; simp only [List.mem_cons, List.not_mem_nil, or_false] at hn; rw [if_pos (by omega)]; rfl
  case eFaces_new => intro n hn; simp only [List.mem_cons, List.not_mem_nil, or_false] at hn; rw [if_pos (by omega)]; rfl
  case fNodes => intro n hn; rw [if_neg (by omega)]
  case fNodes_new =>
    intro n hn; simp only [List.mem_cons, List.not_mem_nil, or_false] at hn
    rw [if_pos (by simp only [List.length_cons, List.length_nil]; omega)]; rfl
  case fEdges => 
    intro n hn hd
    rw [pdf] at hd
    simp at hd
    rw [upd_ne _ _ hd.1, if_neg (by omega)]
  case fEdges_new =>
    intro n hn; simp only [List.mem_cons, List.not_mem_nil, or_false] at hn
    rw [upd_ne _ _ (by have := hfl f hf_f; omega), if_pos (by simp only [List.length_cons, List.length_nil]; omega)]; rfl
  case nn => simp
  case nodes => simp
  case nP => simp
  case nKey => simp
  case nGlo => simp
  case nBorder => simp
  case nEdges => simp
  case nFaces => simp
  case en => rfl
  case fn => exact List.Perm.refl _
  case zfn_perm => exact List.Perm.refl _
  case nNext => simp
  case eNext => rfl
  case fNext => rfl
  case zFaces => intro w; by_cases hw : w = z <;> simp [upd, hw]
  case zNodes => intro w; by_cases hw : w = z <;> simp [upd, hw]
  case zEdges => intro w; by_cases hw : w = z <;> simp [upd, hw]
  case fZone =>
    intro n hn
    rw [if_neg (by simp only [List.mem_cons, List.not_mem_nil, or_false]; omega), if_neg (by omega)]
  case fZone_new =>
    intro n hn
    rw [if_pos (by simp only [List.mem_cons, List.not_mem_nil, or_false] at hn ⊢; omega)]
  case fData => intro n hn; rw [if_neg (by omega)]
  case eGlo =>
    intro n hn
    rw [gloFold_ne, if_neg (by omega)]
    intro q hq; simp only [List.mem_cons, List.not_mem_nil, or_false] at hq
    subst hq; show _ ≠ _; simp only; omega
  case fGlo =>
    intro n hn
    rw [gloFold_ne, if_neg (by omega)]
    intro q hq; simp only [List.mem_cons, List.not_mem_nil, or_false] at hq
    rcases hq with rfl | rfl <;> show _ ≠ _ <;> simp only <;> omega
  case key_new => simp
  case key_inj => simp
  case key_fresh => simp
  case bag => simp
  case glo_nodes => simp

end Grid
end Verif
