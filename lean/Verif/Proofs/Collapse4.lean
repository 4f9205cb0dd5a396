import Verif.Proofs.Collapse3

/-! `collapse_edge`: consistency of the grid and identifiers. -/

namespace Verif
namespace Grid
variable {F R : Type} [DecidableEq R] {rc : Vec F → R} {mid : Vec F → Vec F → Vec F} {g g' : Grid F R} {p : Vec F} {key : R}
  {e f h n1 n2 n3 n4 e13 e23 e14 e24 : Nat}

theorem two_disjoint {l l' : List Nat} {f h : Nat} (hl : (without l [f, h]).length ≤ 1) (hl' : (without l' [f, h]).length ≤ 1)
    (hn : l.Nodup) (hn' : l'.Nodup) (hd : ∀ k, k ∈ l → k ∈ l' → k ∈ [f, h])
    (hp : 0 < (without l [f, h]).length + (without l' [f, h]).length) :
    ((without l [f, h] ++ without l' [f, h]).length = 1 ∨ (without l [f, h] ++ without l' [f, h]).length = 2) ∧
      (without l [f, h] ++ without l' [f, h]).Nodup := by
  refine ⟨by rw [List.length_append]; omega, ?_⟩
  rw [List.nodup_append]
  refine ⟨nodup_without hn _, nodup_without hn' _, ?_⟩
  rintro a ha b hb rfl
  rw [mem_without] at ha hb
  exact ha.2 (hd a ha.1 hb.1)

theorem without_pos {l : List Nat} {f h : Nat} (hl : l.length = 2) (hn : l.Nodup) (hh : h ∉ l) : 0 < (without l [f, h]).length := by
  obtain ⟨a, b, hab⟩ := List.length_eq_two.1 hl
  rw [hab] at hn hh ⊢
  have hne : a ≠ b := by simpa using hn
  simp only [List.mem_cons, List.not_mem_nil, or_false, not_or] at hh
  rw [List.length_pos_iff_exists_mem]
  by_cases h1 : a = f
  · refine ⟨b, mem_without.2 ⟨by simp, ?_⟩⟩
    subst h1
    simp [hne.symm, Ne.symm hh.2]
  · exact ⟨a, mem_without.2 ⟨by simp, by simp [h1, Ne.symm hh.1]⟩⟩

theorem without_comm (l : List Nat) (f h : Nat) : without l [f, h] = without l [h, f] := by
  unfold without; congr 1; funext y; simp [and_comm]

theorem Shrunk.mesh (S : Shrunk f h e n1 n2 e13 e23 e14 e24 p key g g') (G : Good rc g) (C : Collapsible rc mid g e n1 n2)
    (hf : g.eFaces e = [f, h]) (c : Corner2 g f h e n1 n2 n3 n4 e13 e23 e14 e24) : Mesh g' := by
  have m := G.mesh
  have a := around m C.edge hf c
  have h12 := c.c.n12
  have hn2 := c.c.nodes.2.1
  have hn1 := c.c.nodes.1
  have sub_mem : ∀ n ∈ g.nodes, subN n1 n2 n ∈ g'.nodes := by
    intro n hn
    rw [S.memN m]
    by_cases hh : n = n2
    · subst hh; rw [subN_self]; exact ⟨hn1, h12⟩
    · rw [subN_ne hh]; exact ⟨hn, hh⟩
  have notE : ∀ k ∈ g'.faces, ∀ x ∈ g.fEdges k, x ≠ e := by
    intro k hk x hx
    obtain ⟨k1, k2⟩ := S.memF.1 hk
    rintro rfl; exact a.notE k k1 k2 hx
  -- the faces of the four sides
  have hF : ∀ x ∈ g.edges, x ≠ e → (f ∈ g.eFaces x ↔ x = e13 ∨ x = e23) := by
    intro x hx hxe
    rw [m.edge_face x hx, c.c.edges]; simp [hxe, c.hf]
  have hH : ∀ x ∈ g.edges, x ≠ e → (h ∈ g.eFaces x ↔ x = e14 ∨ x = e24) := by
    intro x hx hxe
    rw [m.edge_face x hx, c.d.edges]; simp [hxe, c.hh]
  have m13 := c.c.mem.1
  have m23 := c.c.mem.2
  have m14 := c.d.mem.1
  have m24 := c.d.mem.2
  have le13 := without_le_one (h := h) (m.edge_faces e13 m13).1 ((hF e13 m13 c.c.ed1.symm).2 (Or.inl rfl))
  have le23 := without_le_one (h := h) (m.edge_faces e23 m23).1 ((hF e23 m23 c.c.ed2.symm).2 (Or.inr rfl))
  have le14 := without_le_one (h := f) (m.edge_faces e14 m14).1 ((hH e14 m14 c.d.ed1.symm).2 (Or.inl rfl))
  have le24 := without_le_one (h := f) (m.edge_faces e24 m24).1 ((hH e24 m24 c.d.ed2.symm).2 (Or.inr rfl))
  rw [without_comm] at le14 le24
  have pos1 : 0 < (without (g.eFaces e13) [f, h]).length + (without (g.eFaces e23) [f, h]).length := by
    obtain ⟨x, x1, x2, x3⟩ := C.sides f (by rw [hf]; simp)
    rcases (c.c.edges x).1 x1 with rfl | rfl | rfl
    · exact absurd rfl x2
    · have := without_pos (f := f) (h := h) x3 (m.edge_faces x m13).2 (by rw [hH x m13 x2]; simp [c.x1, c.x2])
      omega
    · have := without_pos (f := f) (h := h) x3 (m.edge_faces x m23).2 (by rw [hH x m23 x2]; simp [c.x3, c.x4])
      omega
  have pos2 : 0 < (without (g.eFaces e14) [f, h]).length + (without (g.eFaces e24) [f, h]).length := by
    obtain ⟨x, x1, x2, x3⟩ := C.sides h (by rw [hf]; simp)
    rcases (c.d.edges x).1 x1 with rfl | rfl | rfl
    · exact absurd rfl x2
    · have := without_pos (f := h) (h := f) x3 (m.edge_faces x m14).2 (by rw [hF x m14 x2]; simp [c.x1.symm, c.x3.symm])
      rw [without_comm] at this
      omega
    · have := without_pos (f := h) (h := f) x3 (m.edge_faces x m24).2 (by rw [hF x m24 x2]; simp [c.x2.symm, c.x4.symm])
      rw [without_comm] at this
      omega
  have dis1 : ∀ k, k ∈ g.eFaces e13 → k ∈ g.eFaces e23 → k ∈ [f, h] := by
    intro k h1 h2
    rw [m.edge_face e13 m13] at h1
    rw [m.edge_face e23 m23] at h2
    by_contra hh
    exact a.not1 k h1.1 hh h1.2 h2.2
  have dis2 : ∀ k, k ∈ g.eFaces e14 → k ∈ g.eFaces e24 → k ∈ [f, h] := by
    intro k h1 h2
    rw [m.edge_face e14 m14] at h1
    rw [m.edge_face e24 m24] at h2
    by_contra hh
    exact a.not2 k h1.1 hh h1.2 h2.2
  refine { nodes_nodup := ?_, edges_nodup := ?_, faces_nodup := ?_, face_nodes := ?_, face_edges := ?_, edge_nodes := ?_, edge_faces := ?_,
           node_faces_nodup := ?_, node_edges_nodup := ?_, node_face := ?_, node_edge := ?_, edge_face := ?_, sides := ?_,
           edge_in_face := ?_, edge_unique := ?_ }
  · rw [S.nodes]; exact m.nodes_nodup.erase _
  · rw [S.edges]; exact nodup_without m.edges_nodup _
  · rw [S.faces]; exact nodup_without m.faces_nodup _
  · intro k hk
    obtain ⟨k1, k2⟩ := S.memF.1 hk
    obtain ⟨l1, l2, l3⟩ := m.face_nodes k k1
    refine ⟨?_, ?_, ?_⟩
    · rw [S.fNodes k k1 k2, length_sub, l1]
    · rw [S.fNodes k k1 k2]
      exact nodup_sub l2 (fun h2 h1 => k2 (a.face k k1 h1 h2))
    · intro n hn
      obtain ⟨b, hb, rfl⟩ := (S.mem_fNodes m h12 hk n).1 hn
      exact sub_mem b (l3 b hb)
  · intro k hk
    obtain ⟨k1, k2⟩ := S.memF.1 hk
    obtain ⟨l1, l2, l3⟩ := m.face_edges k k1
    have ne := a.notE k k1 k2
    refine ⟨?_, ?_, ?_⟩
    · rw [S.fEdges k k1 k2, without_erase l2 ne, List.length_append, List.length_append]
      by_cases i1 : e23 ∈ g.fEdges k <;> by_cases i2 : e24 ∈ g.fEdges k
      · rw [if_pos i1, if_pos i2, List.length_erase_of_mem ((List.mem_erase_of_ne c.x4.symm).2 i2), List.length_erase_of_mem i1, l1]; rfl
      · rw [if_pos i1, if_neg i2, List.erase_of_not_mem (fun hh => i2 (List.mem_of_mem_erase hh)), List.length_erase_of_mem i1, l1]; rfl
      · rw [if_neg i1, if_pos i2, List.length_erase_of_mem ((List.mem_erase_of_ne c.x4.symm).2 i2), List.erase_of_not_mem i1, l1]; rfl
      · rw [if_neg i1, if_neg i2, List.erase_of_not_mem (fun hh => i2 (List.mem_of_mem_erase hh)), List.erase_of_not_mem i1, l1]; rfl
    · rw [S.fEdges k k1 k2, List.append_assoc, List.nodup_append]
      refine ⟨nodup_without l2 _, ?_, ?_⟩
      · by_cases i1 : e23 ∈ g.fEdges k <;> by_cases i2 : e24 ∈ g.fEdges k <;> simp [i1, i2, c.x1]
      · rintro x hx y hy rfl
        rw [mem_without] at hx
        rw [List.mem_append] at hy
        rcases hy with hy | hy
        · split at hy
          · next i1 =>
            rw [List.mem_singleton] at hy; subst hy
            exact a.not1 k k1 k2 hx.1 i1
          · cases hy
        · split at hy
          · next i1 =>
            rw [List.mem_singleton] at hy; subst hy
            exact a.not2 k k1 k2 hx.1 i1
          · cases hy
    · intro y hy
      obtain ⟨x, hx, rfl⟩ := (S.mem_fEdges a c hk y).1 hy
      exact S.subE_mem c (l3 x hx) (notE k hk x hx)
  · intro x hx
    obtain ⟨x1, x2⟩ := S.memE.1 hx
    obtain ⟨l1, l2, l3⟩ := m.edge_nodes x x1
    refine ⟨?_, ?_, ?_⟩
    · rw [S.eNodes x x1 x2, length_sub, l1]
    · rw [S.eNodes x x1 x2]
      exact nodup_sub l2 (fun h2 h1 => x2 (by simp [a.edge x x1 h1 h2]))
    · intro n hn
      obtain ⟨b, hb, rfl⟩ := (S.mem_eNodes m h12 hx n).1 hn
      exact sub_mem b (l3 b hb)
  · intro x hx
    obtain ⟨x1, x2⟩ := S.memE.1 hx
    rw [S.eFaces x x1 x2]
    simp only [List.mem_cons, List.not_mem_nil, or_false, not_or] at x2
    by_cases i1 : x = e13
    · subst i1
      rw [if_pos rfl]
      exact two_disjoint le13 le23 (m.edge_faces x m13).2 (m.edge_faces e23 m23).2 dis1 pos1
    · rw [if_neg i1]
      by_cases i2 : x = e14
      · subst i2
        rw [if_pos rfl]
        exact two_disjoint le14 le24 (m.edge_faces x m14).2 (m.edge_faces e24 m24).2 dis2 pos2
      · rw [if_neg i2, List.append_nil]
        have : without (g.eFaces x) [f, h] = g.eFaces x := by
          unfold without
          rw [List.filter_eq_self]
          intro k hk
          simp only [List.mem_cons, List.not_mem_nil, or_false, not_or, decide_eq_true_eq]
          refine ⟨?_, ?_⟩
          · rintro rfl; rcases (hF x x1 x2.1).1 hk with h | h
            · exact i1 h
            · exact x2.2.1 h
          · rintro rfl; rcases (hH x x1 x2.1).1 hk with h | h
            · exact i2 h
            · exact x2.2.2 h
        rw [this]; exact m.edge_faces x x1
  · intro n hn
    obtain ⟨i1, i2⟩ := (S.memN m).1 hn
    rw [S.nFaces n i1 i2]
    by_cases i3 : n = n1
    · subst i3
      rw [if_pos rfl, List.nodup_append]
      refine ⟨nodup_without (m.node_faces_nodup n i1) _, nodup_without (m.node_faces_nodup n2 hn2) _, ?_⟩
      rintro k hk k' hk' rfl
      rw [mem_without, m.node_face n i1] at hk
      rw [mem_without, m.node_face n2 hn2] at hk'
      exact hk.2 (a.face k hk.1.1 hk.1.2 hk'.1.2)
    · rw [if_neg i3, List.append_nil]; exact nodup_without (m.node_faces_nodup n i1) _
  · intro n hn
    obtain ⟨i1, i2⟩ := (S.memN m).1 hn
    rw [S.nEdges n i1 i2]
    by_cases i3 : n = n1
    · subst i3
      rw [if_pos rfl, List.nodup_append]
      refine ⟨nodup_without (m.node_edges_nodup n i1) _, nodup_without (m.node_edges_nodup n2 hn2) _, ?_⟩
      rintro k hk k' hk' rfl
      rw [mem_without, m.node_edge n i1] at hk
      rw [mem_without, m.node_edge n2 hn2] at hk'
      exact hk.2 (by simp [a.edge k hk.1.1 hk.1.2 hk'.1.2])
    · rw [if_neg i3, List.append_nil]; exact nodup_without (m.node_edges_nodup n i1) _
  · intro n hn k
    obtain ⟨i1, i2⟩ := (S.memN m).1 hn
    rw [S.nFaces n i1 i2, List.mem_append, mem_without, m.node_face n i1, S.memF]
    constructor
    · rintro (⟨⟨h1, h2⟩, h3⟩ | h1)
      · exact ⟨⟨h1, h3⟩, (S.mem_fNodes m h12 (S.memF.2 ⟨h1, h3⟩) n).2 ⟨n, h2, subN_ne i2⟩⟩
      · split at h1
        · next h4 =>
          subst h4
          rw [mem_without, m.node_face n2 hn2] at h1
          exact ⟨⟨h1.1.1, h1.2⟩, (S.mem_fNodes m h12 (S.memF.2 ⟨h1.1.1, h1.2⟩) n).2 ⟨n2, h1.1.2, subN_self⟩⟩
        · cases h1
    · rintro ⟨⟨h1, h2⟩, h3⟩
      obtain ⟨b, hb, h4⟩ := (S.mem_fNodes m h12 (S.memF.2 ⟨h1, h2⟩) n).1 h3
      by_cases h5 : b = n2
      · subst h5
        rw [subN_self] at h4
        subst h4
        rw [if_pos rfl, mem_without, m.node_face b hn2]
        exact Or.inr ⟨⟨h1, hb⟩, h2⟩
      · rw [subN_ne h5] at h4
        subst h4
        exact Or.inl ⟨⟨h1, hb⟩, h2⟩
  · intro n hn k
    obtain ⟨i1, i2⟩ := (S.memN m).1 hn
    rw [S.nEdges n i1 i2, List.mem_append, mem_without, m.node_edge n i1, S.memE]
    constructor
    · rintro (⟨⟨h1, h2⟩, h3⟩ | h1)
      · exact ⟨⟨h1, h3⟩, (S.mem_eNodes m h12 (S.memE.2 ⟨h1, h3⟩) n).2 ⟨n, h2, subN_ne i2⟩⟩
      · split at h1
        · next h4 =>
          subst h4
          rw [mem_without, m.node_edge n2 hn2] at h1
          exact ⟨⟨h1.1.1, h1.2⟩, (S.mem_eNodes m h12 (S.memE.2 ⟨h1.1.1, h1.2⟩) n).2 ⟨n2, h1.1.2, subN_self⟩⟩
        · cases h1
    · rintro ⟨⟨h1, h2⟩, h3⟩
      obtain ⟨b, hb, h4⟩ := (S.mem_eNodes m h12 (S.memE.2 ⟨h1, h2⟩) n).1 h3
      by_cases h5 : b = n2
      · subst h5
        rw [subN_self] at h4
        subst h4
        rw [if_pos rfl, mem_without, m.node_edge b hn2]
        exact Or.inr ⟨⟨h1, hb⟩, h2⟩
      · rw [subN_ne h5] at h4
        subst h4
        exact Or.inl ⟨⟨h1, hb⟩, h2⟩
  · intro y hy k
    obtain ⟨y1, y2⟩ := S.memE.1 hy
    rw [S.mem_eFaces c hy, m.edge_face y y1, m.edge_face e23 m23, m.edge_face e24 m24]
    simp only [List.mem_cons, List.not_mem_nil, or_false, not_or] at y2
    constructor
    · rintro ⟨h1, h2⟩
      have hk : k ∈ g.faces := by tauto
      have hk' := S.memF.2 ⟨hk, h1⟩
      refine ⟨hk', (S.mem_fEdges a c hk' y).2 ?_⟩
      rcases h2 with h2 | ⟨rfl, h2⟩ | ⟨rfl, h2⟩
      · exact ⟨y, h2.2, by unfold subE; rw [if_neg y2.2.1, if_neg y2.2.2]⟩
      · exact ⟨e23, h2.2, by unfold subE; rw [if_pos rfl]⟩
      · exact ⟨e24, h2.2, by unfold subE; rw [if_neg c.x4.symm, if_pos rfl]⟩
    · rintro ⟨h1, h2⟩
      obtain ⟨k1, k2⟩ := S.memF.1 h1
      refine ⟨k2, ?_⟩
      obtain ⟨x, hx, h3⟩ := (S.mem_fEdges a c h1 y).1 h2
      unfold subE at h3
      split at h3
      · next h4 => subst h4; exact Or.inr (Or.inl ⟨h3.symm, k1, hx⟩)
      · split at h3
        · next h4 => subst h4; exact Or.inr (Or.inr ⟨h3.symm, k1, hx⟩)
        · subst h3; exact Or.inl ⟨k1, hx⟩
  · intro k hk b hb b' hb' hne
    obtain ⟨k1, k2⟩ := S.memF.1 hk
    obtain ⟨u, hu, rfl⟩ := (S.mem_fNodes m h12 hk b).1 hb
    obtain ⟨u', hu', rfl⟩ := (S.mem_fNodes m h12 hk b').1 hb'
    obtain ⟨x, hx, x1, x2⟩ := m.sides k k1 u hu u' hu' (by rintro rfl; exact hne rfl)
    have xe := (m.face_edges k k1).2.2 x hx
    have xn := notE k hk x hx
    exact ⟨subE e13 e23 e14 e24 x, (S.mem_fEdges a c hk _).2 ⟨x, hx, rfl⟩, (S.mem_subE m c xe xn _).2 ⟨u, x1, rfl⟩,
      (S.mem_subE m c xe xn _).2 ⟨u', x2, rfl⟩⟩
  · intro k hk y hy n hn
    obtain ⟨k1, k2⟩ := S.memF.1 hk
    obtain ⟨x, hx, rfl⟩ := (S.mem_fEdges a c hk y).1 hy
    obtain ⟨u, hu, rfl⟩ := (S.mem_subE m c ((m.face_edges k k1).2.2 x hx) (notE k hk x hx) n).1 hn
    exact (S.mem_fNodes m h12 hk _).2 ⟨u, m.edge_in_face k k1 x hx u hu, rfl⟩
  · intro y hy y' hy' hs
    obtain ⟨y1, y2⟩ := S.memE.1 hy
    obtain ⟨y1', y2'⟩ := S.memE.1 hy'
    have hs' : ∀ n, (∃ a ∈ g.eNodes y, subN n1 n2 a = n) ↔ ∃ a ∈ g.eNodes y', subN n1 n2 a = n := by
      intro n; rw [← S.mem_eNodes m h12 hy, ← S.mem_eNodes m h12 hy']; exact hs n
    refine m.edge_unique y y1 y' y1' (sub_inj (n1 := n1) (n2 := n2) ?_ ?_ ?_ hs')
    · intro h1 h2; exact y2 (by simp [a.edge y y1 h1 h2])
    · intro h1 h2; exact y2' (by simp [a.edge y' y1' h1 h2])
    · by_cases h1 : n2 ∈ g.eNodes y <;> by_cases h2 : n2 ∈ g.eNodes y'
      · simp [h1, h2]
      · exact (Shrunk.noClash m C hf c y1 y2 y1' h1 h2 hs').elim
      · exact (Shrunk.noClash m C hf c y1' y2' y1 h2 h1 (fun n => (hs' n).symm)).elim
      · simp [h1, h2]

theorem Shrunk.simple (S : Shrunk f h e n1 n2 e13 e23 e14 e24 p key g g') (G : Good rc g) (C : Collapsible rc mid g e n1 n2)
    (hf : g.eFaces e = [f, h]) (c : Corner2 g f h e n1 n2 n3 n4 e13 e23 e14 e24) : Simple g' := by
  have m := G.mesh
  have a := around m C.edge hf c
  have h12 := c.c.n12
  have clash : ∀ k ∈ g'.faces, ∀ k' ∈ g'.faces, n2 ∈ g.fNodes k → n2 ∉ g.fNodes k' →
      (∀ n, (∃ a ∈ g.fNodes k, subN n1 n2 a = n) ↔ ∃ a ∈ g.fNodes k', subN n1 n2 a = n) → False := by
    intro k hk k' hk' h1 h2 hs
    obtain ⟨k1, k2⟩ := S.memF.1 hk
    obtain ⟨k1', k2'⟩ := S.memF.1 hk'
    have im : ∀ n, n ∈ g.fNodes k' ↔ ∃ a ∈ g.fNodes k, subN n1 n2 a = n := by
      intro n
      rw [hs]
      constructor
      · intro hn; exact ⟨n, hn, subN_ne (by rintro rfl; exact h2 hn)⟩
      · rintro ⟨a, ha, rfl⟩; rw [subN_ne (by rintro rfl; exact h2 ha)]; exact ha
    refine C.twins k' k1' (by rw [hf]; exact k2') k k1 ((im n1).2 ⟨n2, h1, subN_self⟩) h1 (fun n i1 i2 => ?_)
    rw [im]
    constructor
    · rintro ⟨b, hb, h3⟩
      by_cases h5 : b = n2
      · subst h5; rw [subN_self] at h3; exact absurd h3.symm i1
      · rw [subN_ne h5] at h3; exact h3 ▸ hb
    · intro hn; exact ⟨n, hn, subN_ne i2⟩
  intro k hk k' hk' hs
  obtain ⟨k1, k2⟩ := S.memF.1 hk
  obtain ⟨k1', k2'⟩ := S.memF.1 hk'
  have hs' : ∀ n, (∃ a ∈ g.fNodes k, subN n1 n2 a = n) ↔ ∃ a ∈ g.fNodes k', subN n1 n2 a = n := by
    intro n; rw [← S.mem_fNodes m h12 hk, ← S.mem_fNodes m h12 hk']; exact hs n
  refine G.simple k k1 k' k1' (sub_inj (n1 := n1) (n2 := n2) ?_ ?_ ?_ hs')
  · intro h1 h2; exact k2 (a.face k k1 h1 h2)
  · intro h1 h2; exact k2' (a.face k' k1' h1 h2)
  · by_cases h1 : n2 ∈ g.fNodes k <;> by_cases h2 : n2 ∈ g.fNodes k'
    · simp [h1, h2]
    · exact (clash k hk k' hk' h1 h2 hs').elim
    · exact (clash k' hk' k hk h2 h1 (fun n => (hs' n).symm)).elim
    · simp [h1, h2]

theorem Shrunk.zonesOk (S : Shrunk f h e n1 n2 e13 e23 e14 e24 p key g g') (G : Good rc g) : ZonesOk g' := by
  refine ⟨by rw [S.zones]; exact G.zones.zones_nodup, ?_, ?_⟩
  · rw [S.zones, S.faces, show g.zones.flatMap g'.zFaces = g.zones.flatMap (fun w => without (g.zFaces w) [f, h]) from
      List.flatMap_congr S.zFaces, flatMap_without]
    exact G.zones.partition.filter _
  · intro z hz k hk
    rw [S.zones] at hz
    rw [S.zFaces z hz, mem_without] at hk
    rw [S.fZone]; exact G.zones.points z hz k hk.1

theorem Shrunk.mergedOk (S : Shrunk f h e n1 n2 e13 e23 e14 e24 p key g g') (G : Good rc g) (hk : key = rc p) (hp : NewPlace rc g p)
    (c : Corner2 g f h e n1 n2 n3 n4 e13 e23 e14 e24) : Merged rc g' := by
  have m := G.mesh
  have knew : ∀ n ∈ g.nodes, g.nKey n ≠ key := fun n hn' => by rw [G.merged.key n hn', hk]; exact hp n hn'
  refine ⟨?_, ?_, ?_⟩
  · intro n hn
    obtain ⟨i1, i2⟩ := (S.memN m).1 hn
    rw [S.nKey, S.nP]
    by_cases h1 : n = n1
    · subst h1; rw [upd_self, upd_self, hk]
    · rw [upd_ne _ _ h1, upd_ne _ _ h1]; exact G.merged.key n i1
  · intro n hn n' hn'
    obtain ⟨i1, i2⟩ := (S.memN m).1 hn
    obtain ⟨i1', i2'⟩ := (S.memN m).1 hn'
    rw [S.nKey]
    by_cases h1 : n = n1 <;> by_cases h2 : n' = n1
    · intro _; rw [h1, h2]
    · subst h1; rw [upd_self, upd_ne _ _ h2]; intro h3; exact absurd h3.symm (knew n' i1')
    · subst h2; rw [upd_self, upd_ne _ _ h1]; intro h3; exact absurd h3 (knew n i1)
    · rw [upd_ne _ _ h1, upd_ne _ _ h2]; exact G.merged.inj n i1 n' i1'
  · intro k
    rw [S.bag, S.nKey]
    constructor
    · rintro ⟨h1, rfl | ⟨h2, h3⟩⟩
      · exact ⟨n1, (S.memN m).2 ⟨c.c.nodes.1, c.c.n12⟩, upd_self _ _ _⟩
      · obtain ⟨n, hn, rfl⟩ := (G.merged.bag k).1 h2
        have j1 : n ≠ n1 := by rintro rfl; exact h3 rfl
        have j2 : n ≠ n2 := by rintro rfl; exact h1 rfl
        exact ⟨n, (S.memN m).2 ⟨hn, j2⟩, upd_ne _ _ j1⟩
    · rintro ⟨n, hn, h1⟩
      obtain ⟨i1, i2⟩ := (S.memN m).1 hn
      by_cases j1 : n = n1
      · subst j1
        rw [upd_self] at h1
        subst h1
        exact ⟨(knew n2 c.c.nodes.2.1).symm, Or.inl rfl⟩
      · rw [upd_ne _ _ j1] at h1
        subst h1
        exact ⟨fun hh => i2 (G.merged.inj n i1 n2 c.c.nodes.2.1 hh), Or.inr ⟨(G.merged.bag _).2 ⟨n, i1, rfl⟩,
          fun hh => j1 (G.merged.inj n i1 n1 c.c.nodes.1 hh)⟩⟩

theorem Shrunk.allocOk (S : Shrunk f h e n1 n2 e13 e23 e14 e24 p key g g') (G : Good rc g) : Alloc g' ∧ ZonesAlloc g' := by
  refine ⟨⟨?_, ?_, ?_⟩, ?_⟩
  · intro n hn; rw [S.nNext]; exact G.alloc.nodes n ((S.memN G.mesh).1 hn).1
  · intro n hn; rw [S.eNext]; exact G.alloc.edges n (S.memE.1 hn).1
  · intro n hn; rw [S.fNext]; exact G.alloc.faces n (S.memF.1 hn).1
  · intro z hz; rw [S.zNext]; rw [S.zones] at hz; exact G.zalloc z hz

end Grid
end Verif
