import Verif.Proofs.Collapse2

/-! `collapse_edge`: the grid stays consistent. -/

namespace Verif
namespace Grid
variable {F R : Type}

/-- The node that takes the place of `n`. -/
def subN (n1 n2 n : Nat) : Nat := if n = n2 then n1 else n

/-- The edge that takes the place of `x`. -/
def subE (e13 e23 e14 e24 x : Nat) : Nat := if x = e23 then e13 else if x = e24 then e14 else x

theorem subN_ne {n1 n2 n : Nat} (h : n ≠ n2) : subN n1 n2 n = n := if_neg h
theorem subN_self {n1 n2 : Nat} : subN n1 n2 n2 = n1 := if_pos rfl

theorem mem_sub {l : List Nat} {n1 n2 n : Nat} (hn : l.Nodup) (h12 : n1 ≠ n2) :
    n ∈ (if n2 ∈ l then l.erase n2 ++ [n1] else l) ↔ ∃ a ∈ l, subN n1 n2 a = n := by
  by_cases h : n2 ∈ l
  · rw [if_pos h, List.mem_append, List.mem_singleton, hn.mem_erase_iff]
    constructor
    · rintro (⟨h1, h2⟩ | rfl)
      · exact ⟨n, h2, subN_ne h1⟩
      · exact ⟨n2, h, subN_self⟩
    · rintro ⟨a, ha, rfl⟩
      by_cases h1 : a = n2
      · subst h1; exact Or.inr subN_self
      · rw [subN_ne h1]; exact Or.inl ⟨h1, ha⟩
  · rw [if_neg h]
    constructor
    · intro h1
      exact ⟨n, h1, subN_ne (by rintro rfl; exact h h1)⟩
    · rintro ⟨a, ha, rfl⟩
      rw [subN_ne (by rintro rfl; exact h ha)]; exact ha

theorem length_sub {l : List Nat} {n1 n2 : Nat} : (if n2 ∈ l then l.erase n2 ++ [n1] else l).length = l.length := by
  split
  · next h =>
    have := List.length_pos_of_mem h
    rw [List.length_append, List.length_erase_of_mem h, List.length_singleton]; omega
  · rfl

theorem nodup_sub {l : List Nat} {n1 n2 : Nat} (hn : l.Nodup) (h : n2 ∈ l → n1 ∉ l) :
    (if n2 ∈ l then l.erase n2 ++ [n1] else l).Nodup := by
  split
  · next h2 =>
    rw [List.nodup_append]
    refine ⟨hn.erase _, by simp, ?_⟩
    rintro a ha b hb rfl
    rw [List.mem_singleton] at hb
    subst hb
    exact h h2 (List.mem_of_mem_erase ha)
  · exact hn

/-- Facts about the neighbourhood of the edge which is shrunk. -/
structure Around (g : Grid F R) (f h e n1 n2 n3 n4 e13 e23 e14 e24 : Nat) : Prop where
  face : ∀ k ∈ g.faces, n1 ∈ g.fNodes k → n2 ∈ g.fNodes k → k ∈ [f, h]
  edge : ∀ x ∈ g.edges, n1 ∈ g.eNodes x → n2 ∈ g.eNodes x → x = e
  notE : ∀ k ∈ g.faces, k ∉ [f, h] → e ∉ g.fEdges k
  not1 : ∀ k ∈ g.faces, k ∉ [f, h] → e13 ∈ g.fEdges k → e23 ∉ g.fEdges k
  not2 : ∀ k ∈ g.faces, k ∉ [f, h] → e14 ∈ g.fEdges k → e24 ∉ g.fEdges k

theorem around {g : Grid F R} (m : Mesh g) {e f h n1 n2 n3 n4 e13 e23 e14 e24 : Nat} (he : e ∈ g.edges) (hf : g.eFaces e = [f, h])
    (c : Corner2 g f h e n1 n2 n3 n4 e13 e23 e14 e24) : Around g f h e n1 n2 n3 n4 e13 e23 e14 e24 := by
  have edge : ∀ x ∈ g.edges, n1 ∈ g.eNodes x → n2 ∈ g.eNodes x → x = e := by
    intro x hx h1 h2
    obtain ⟨l1, l2, _⟩ := m.edge_nodes x hx
    exact m.edge_unique x hx e he (fun n => by rw [pair_iff l1 l2 h1 h2 c.c.n12, c.c.j0])
  have face : ∀ k ∈ g.faces, n1 ∈ g.fNodes k → n2 ∈ g.fNodes k → k ∈ [f, h] := by
    intro k hk h1 h2
    obtain ⟨x, hx, x1, x2⟩ := m.sides k hk n1 h1 n2 h2 c.c.n12
    have := edge x ((m.face_edges k hk).2.2 x hx) x1 x2
    subst this
    rw [← hf, m.edge_face x he]; exact ⟨hk, hx⟩
  refine ⟨face, edge, ?_, ?_, ?_⟩
  · intro k hk hkd hh
    have := (m.edge_face e he k).2 ⟨hk, hh⟩
    rw [hf] at this; exact hkd this
  · intro k hk hkd h1 h2
    exact hkd (face k hk (m.edge_in_face k hk e13 h1 n1 ((c.c.j13 n1).2 (Or.inl rfl)))
      (m.edge_in_face k hk e23 h2 n2 ((c.c.j23 n2).2 (Or.inl rfl))))
  · intro k hk hkd h1 h2
    exact hkd (face k hk (m.edge_in_face k hk e14 h1 n1 ((c.d.j13 n1).2 (Or.inl rfl)))
      (m.edge_in_face k hk e24 h2 n2 ((c.d.j23 n2).2 (Or.inl rfl))))

theorem without_erase {l : List Nat} {e a b : Nat} (nd : l.Nodup) (h : e ∉ l) : without l [e, a, b] = (l.erase a).erase b := by
  rw [show [e, a, b] = [e, a] ++ [b] from rfl, ← erase_without nd, show [e, a] = [e] ++ [a] from rfl, ← erase_without nd]
  congr 2
  unfold without
  rw [List.filter_eq_self]
  intro x hx
  simp only [decide_eq_true_eq, List.mem_singleton]
  rintro rfl; exact h hx

section
variable [DecidableEq R] {rc : Vec F → R} {mid : Vec F → Vec F → Vec F} {g g' : Grid F R} {p : Vec F} {key : R}
  {e f h n1 n2 n3 n4 e13 e23 e14 e24 : Nat}

theorem Shrunk.memN (S : Shrunk f h e n1 n2 e13 e23 e14 e24 p key g g') (m : Mesh g) {n : Nat} : n ∈ g'.nodes ↔ n ∈ g.nodes ∧ n ≠ n2 := by
  rw [S.nodes, m.nodes_nodup.mem_erase_iff, and_comm]

theorem Shrunk.memE (S : Shrunk f h e n1 n2 e13 e23 e14 e24 p key g g') {x : Nat} : x ∈ g'.edges ↔ x ∈ g.edges ∧ x ∉ [e, e23, e24] := by
  rw [S.edges, mem_without]

theorem Shrunk.memF (S : Shrunk f h e n1 n2 e13 e23 e14 e24 p key g g') {k : Nat} : k ∈ g'.faces ↔ k ∈ g.faces ∧ k ∉ [f, h] := by
  rw [S.faces, mem_without]

theorem Shrunk.mem_fNodes (S : Shrunk f h e n1 n2 e13 e23 e14 e24 p key g g') (m : Mesh g) (h12 : n1 ≠ n2) {k : Nat} (hk : k ∈ g'.faces) (n : Nat) :
    n ∈ g'.fNodes k ↔ ∃ a ∈ g.fNodes k, subN n1 n2 a = n := by
  obtain ⟨h1, h2⟩ := S.memF.1 hk
  rw [S.fNodes k h1 h2, mem_sub (m.face_nodes k h1).2.1 h12]

theorem Shrunk.mem_eNodes (S : Shrunk f h e n1 n2 e13 e23 e14 e24 p key g g') (m : Mesh g) (h12 : n1 ≠ n2) {x : Nat} (hx : x ∈ g'.edges) (n : Nat) :
    n ∈ g'.eNodes x ↔ ∃ a ∈ g.eNodes x, subN n1 n2 a = n := by
  obtain ⟨h1, h2⟩ := S.memE.1 hx
  rw [S.eNodes x h1 h2, mem_sub (m.edge_nodes x h1).2.1 h12]

theorem Shrunk.mem_fEdges (S : Shrunk f h e n1 n2 e13 e23 e14 e24 p key g g') (a : Around g f h e n1 n2 n3 n4 e13 e23 e14 e24)
    (c : Corner2 g f h e n1 n2 n3 n4 e13 e23 e14 e24) {k : Nat} (hk : k ∈ g'.faces) (y : Nat) :
    y ∈ g'.fEdges k ↔ ∃ x ∈ g.fEdges k, subE e13 e23 e14 e24 x = y := by
  obtain ⟨h1, h2⟩ := S.memF.1 hk
  have ne := a.notE k h1 h2
  rw [S.fEdges k h1 h2, List.mem_append, List.mem_append, mem_without]
  constructor
  · rintro ((⟨h3, h4⟩ | h3) | h3)
    · refine ⟨y, h3, ?_⟩
      simp only [List.mem_cons, List.not_mem_nil, or_false, not_or] at h4
      unfold subE; rw [if_neg h4.2.1, if_neg h4.2.2]
    · split at h3
      · next h5 => rw [List.mem_singleton] at h3; subst h3; exact ⟨e23, h5, if_pos rfl⟩
      · cases h3
    · split at h3
      · next h5 =>
        rw [List.mem_singleton] at h3; subst h3; exact ⟨e24, h5, by unfold subE; rw [if_neg c.x4.symm, if_pos rfl]⟩
      · cases h3
  · rintro ⟨x, hx, rfl⟩
    unfold subE
    by_cases h3 : x = e23
    · subst h3; rw [if_pos rfl, if_pos hx]; simp
    · rw [if_neg h3]
      by_cases h4 : x = e24
      · subst h4; rw [if_pos rfl, if_pos hx]; simp
      · rw [if_neg h4]
        refine Or.inl (Or.inl ⟨hx, ?_⟩)
        simp only [List.mem_cons, List.not_mem_nil, or_false, not_or]
        exact ⟨by rintro rfl; exact ne hx, h3, h4⟩

/-- The edge in the place of `x` is an edge of the new grid. -/
theorem Shrunk.subE_mem (S : Shrunk f h e n1 n2 e13 e23 e14 e24 p key g g')
    (c : Corner2 g f h e n1 n2 n3 n4 e13 e23 e14 e24) {x : Nat} (hx : x ∈ g.edges) (hxe : x ≠ e) : subE e13 e23 e14 e24 x ∈ g'.edges := by
  rw [S.memE]
  unfold subE
  by_cases h3 : x = e23
  · rw [if_pos h3]; exact ⟨c.c.mem.1, by simp [c.c.ed1.symm, c.c.ed3, c.x2]⟩
  · rw [if_neg h3]
    by_cases h4 : x = e24
    · rw [if_pos h4]; exact ⟨c.d.mem.1, by simp [c.d.ed1.symm, c.d.ed3, c.x3.symm]⟩
    · rw [if_neg h4]; exact ⟨hx, by simp [hxe, h3, h4]⟩

theorem Shrunk.mem_subE (S : Shrunk f h e n1 n2 e13 e23 e14 e24 p key g g') (m : Mesh g)
    (c : Corner2 g f h e n1 n2 n3 n4 e13 e23 e14 e24) {x : Nat} (hx : x ∈ g.edges) (hxe : x ≠ e) (n : Nat) :
    n ∈ g'.eNodes (subE e13 e23 e14 e24 x) ↔ ∃ a ∈ g.eNodes x, subN n1 n2 a = n := by
  rw [S.mem_eNodes m c.c.n12 (S.subE_mem c hx hxe)]
  unfold subE
  by_cases h3 : x = e23
  · subst h3
    rw [if_pos rfl]
    constructor
    · rintro ⟨a, ha, rfl⟩
      rcases (c.c.j13 a).1 ha with rfl | rfl
      · exact ⟨n2, (c.c.j23 n2).2 (Or.inl rfl), by rw [subN_self, subN_ne c.c.n12]⟩
      · exact ⟨a, (c.c.j23 a).2 (Or.inr rfl), rfl⟩
    · rintro ⟨a, ha, rfl⟩
      rcases (c.c.j23 a).1 ha with rfl | rfl
      · exact ⟨n1, (c.c.j13 n1).2 (Or.inl rfl), by rw [subN_self, subN_ne c.c.n12]⟩
      · exact ⟨a, (c.c.j13 a).2 (Or.inr rfl), rfl⟩
  · rw [if_neg h3]
    by_cases h4 : x = e24
    · subst h4
      rw [if_pos rfl]
      constructor
      · rintro ⟨a, ha, rfl⟩
        rcases (c.d.j13 a).1 ha with rfl | rfl
        · exact ⟨n2, (c.d.j23 n2).2 (Or.inl rfl), by rw [subN_self, subN_ne c.c.n12]⟩
        · exact ⟨a, (c.d.j23 a).2 (Or.inr rfl), rfl⟩
      · rintro ⟨a, ha, rfl⟩
        rcases (c.d.j23 a).1 ha with rfl | rfl
        · exact ⟨n1, (c.d.j13 n1).2 (Or.inl rfl), by rw [subN_self, subN_ne c.c.n12]⟩
        · exact ⟨a, (c.d.j13 a).2 (Or.inr rfl), rfl⟩
    · rw [if_neg h4]

theorem Shrunk.mem_eFaces (S : Shrunk f h e n1 n2 e13 e23 e14 e24 p key g g') (c : Corner2 g f h e n1 n2 n3 n4 e13 e23 e14 e24)
    {y : Nat} (hy : y ∈ g'.edges) (k : Nat) :
    k ∈ g'.eFaces y ↔ k ∉ [f, h] ∧ (k ∈ g.eFaces y ∨ y = e13 ∧ k ∈ g.eFaces e23 ∨ y = e14 ∧ k ∈ g.eFaces e24) := by
  obtain ⟨h1, h2⟩ := S.memE.1 hy
  rw [S.eFaces y h1 h2, List.mem_append, mem_without]
  by_cases h3 : y = e13
  · subst h3
    rw [if_pos rfl, mem_without]
    have := c.x1
    tauto
  · rw [if_neg h3]
    by_cases h4 : y = e14
    · subst h4
      rw [if_pos rfl, mem_without]; tauto
    · rw [if_neg h4]
      have : k ∉ ([] : List Nat) := by simp
      tauto

/-- After shrinking, an edge at the old `n2` and another edge never join the same nodes. -/
theorem Shrunk.noClash (m : Mesh g) (C : Collapsible rc mid g e n1 n2) (hf : g.eFaces e = [f, h])
    (c : Corner2 g f h e n1 n2 n3 n4 e13 e23 e14 e24) {y y' : Nat} (hy : y ∈ g.edges) (hyd : y ∉ [e, e23, e24]) (hy' : y' ∈ g.edges)
    (h1 : n2 ∈ g.eNodes y) (h2 : n2 ∉ g.eNodes y')
    (hs : ∀ n, (∃ a ∈ g.eNodes y, subN n1 n2 a = n) ↔ ∃ a ∈ g.eNodes y', subN n1 n2 a = n) : False := by
  obtain ⟨l1, l2, _⟩ := m.edge_nodes y hy
  obtain ⟨k1, k2, _⟩ := m.edge_nodes y' hy'
  obtain ⟨q, hq, hq2⟩ : ∃ q ∈ g.eNodes y, q ≠ n2 := by
    obtain ⟨a, b, hab⟩ := List.length_eq_two.1 l1
    rw [hab] at l2 h1 ⊢
    have hne : a ≠ b := by simpa using l2
    simp only [List.mem_cons, List.not_mem_nil, or_false] at h1
    rcases h1 with rfl | rfl
    · exact ⟨b, by simp, hne.symm⟩
    · exact ⟨a, by simp, hne⟩
  have hq1 : q ≠ n1 := by
    rintro rfl
    exact hyd (by simp [(around m C.edge hf c).edge y hy hq h1])
  have im : ∀ n, n ∈ g.eNodes y' ↔ ∃ a ∈ g.eNodes y, subN n1 n2 a = n := by
    intro n
    rw [hs]
    constructor
    · intro hn; exact ⟨n, hn, subN_ne (by rintro rfl; exact h2 hn)⟩
    · rintro ⟨a, ha, rfl⟩; rw [subN_ne (by rintro rfl; exact h2 ha)]; exact ha
  have j' : Joins g y' n1 q := pair_iff k1 k2 ((im n1).2 ⟨n2, h1, subN_self⟩) ((im q).2 ⟨q, hq, subN_ne hq2⟩) hq1.symm
  have j : Joins g y n2 q := pair_iff l1 l2 h1 hq hq2.symm
  obtain ⟨k, hk, hkq⟩ := C.link q y' hy' y hy j' j
  rw [hf] at hk
  simp only [List.mem_cons, List.not_mem_nil, or_false] at hk
  rcases hk with rfl | rfl
  · rcases (c.c.corners q).1 hkq with h | h | h
    · exact hq1 h
    · exact hq2 h
    · subst h
      exact hyd (by simp [m.edge_unique y hy e23 c.c.mem.2 (fun n => by rw [j, c.c.j23])])
  · rcases (c.d.corners q).1 hkq with h | h | h
    · exact hq1 h
    · exact hq2 h
    · subst h
      exact hyd (by simp [m.edge_unique y hy e24 c.d.mem.2 (fun n => by rw [j, c.d.j23])])

theorem sub_inj {l l' : List Nat} (h1 : n1 ∈ l → n2 ∉ l) (h1' : n1 ∈ l' → n2 ∉ l')
    (h2 : n2 ∈ l ↔ n2 ∈ l')
    (hs : ∀ n, (∃ a ∈ l, subN n1 n2 a = n) ↔ ∃ a ∈ l', subN n1 n2 a = n) : ∀ n, n ∈ l ↔ n ∈ l' := by
  have key : ∀ {l l' : List Nat}, (n1 ∈ l → n2 ∉ l) → (n1 ∈ l' → n2 ∉ l') → (n2 ∈ l ↔ n2 ∈ l') →
      (∀ n, (∃ a ∈ l, subN n1 n2 a = n) ↔ ∃ a ∈ l', subN n1 n2 a = n) → ∀ n, n ∈ l → n ∈ l' := by
    intro l l' h1 h1' h2 hs n hn
    by_cases e2 : n = n2
    · subst e2; exact h2.1 hn
    · obtain ⟨a, ha, h3⟩ := (hs n).1 ⟨n, hn, subN_ne e2⟩
      by_cases e3 : a = n2
      · subst e3
        rw [subN_self] at h3
        subst h3
        exact absurd (h2.2 ha) (h1 hn)
      · rw [subN_ne e3] at h3; exact h3 ▸ ha
  exact fun n => ⟨key h1 h1' h2 hs n, key h1' h1 h2.symm (fun n => (hs n).symm) n⟩

end

end Grid
end Verif
