import Verif.Proofs.Build

/-! The neighbourhood of an edge in a mesh. -/

namespace Verif
namespace Grid
variable {F R : Type}

theorem pair_iff {l : List Nat} {a b : Nat} (h : l.length = 2) (hn : l.Nodup) (ha : a ∈ l) (hb : b ∈ l) (hab : a ≠ b) :
    ∀ n, n ∈ l ↔ n = a ∨ n = b := by
  match l, h with
  | [x, y], _ =>
    simp at ha hb hn ⊢
    intro n
    rcases ha with rfl | rfl <;> rcases hb with rfl | rfl <;> simp_all [or_comm]

theorem triple_iff {l : List Nat} {a b c : Nat} (h : l.length = 3) (hn : l.Nodup) (ha : a ∈ l) (hb : b ∈ l) (hc : c ∈ l)
    (hab : a ≠ b) (hac : a ≠ c) (hbc : b ≠ c) : ∀ n, n ∈ l ↔ n = a ∨ n = b ∨ n = c := by
  have hs : [a, b, c].Nodup := by simp [hab, hac, hbc]
  have hsub : [a, b, c] ⊆ l := by intro x hx; simp at hx; rcases hx with rfl | rfl | rfl <;> assumption
  have hp : [a, b, c].Perm l := (List.subperm_of_subset hs hsub).perm_of_length_le (by simp [h])
  intro n
  rw [← hp.mem_iff]; simp

/-- The edge of the face at a corner, as found by the list comprehension. -/
theorem pick_edge {l : List Nat} {en : Nat → List Nat} {x y n : Nat} (hl : l = [x, y] ∨ l = [y, x]) (hx : n ∈ en x)
    (hxn : (en x).Nodup) (hy : n ∉ en y) :
    Py.get (l.flatMap (fun e => ((en e).filter (fun k => decide (k = n))).map (fun _ => e))) 0 = .ok x := by
  have h1 : (en x).filter (fun k => decide (k = n)) = [n] := by
    have h2 : (en x).filter (fun k => decide (k = n)) = List.replicate ((en x).count n) n := by
      rw [← List.filter_beq]; congr 1
    rw [h2, List.count_eq_one_of_mem hxn hx]; rfl
  have h3 : (en y).filter (fun k => decide (k = n)) = [] := by
    rw [List.filter_eq_nil_iff]; intro a ha; simp; rintro rfl; exact hy ha
  rcases hl with rfl | rfl <;> simp [h1, h3] <;> rfl

theorem perm_pair {l : List Nat} {a b : Nat} (h : [a, b].Perm l) : l = [a, b] ∨ l = [b, a] := by
  match l, h.length_eq with
  | [x, y], _ =>
    have h1 := h.mem_iff (a := x)
    have h2 := List.perm_cons_erase (l := [x, y]) (a := a) (h.mem_iff.1 (by simp))
    by_cases e : x = a
    · subst e
      left
      have := (List.perm_cons x).1 h
      simp at this; simp [this]
    · have hx : x = b := by simp [e] at h1; exact h1
      subst hx
      right
      have := (h.trans (List.Perm.swap y x [])).trans (List.Perm.refl _)
      have h3 := (List.Perm.swap x a []).symm.trans this |>.trans (List.Perm.swap x y [])
      have := (List.perm_cons x).1 h3
      simp at this; simp [this]

/-- A face seen from one of its edges. -/
structure Corner (g : Grid F R) (f e n1 n2 n3 e13 e23 : Nat) : Prop where
  n13 : n1 ≠ n3
  n23 : n2 ≠ n3
  n12 : n1 ≠ n2
  nodes : n1 ∈ g.nodes ∧ n2 ∈ g.nodes ∧ n3 ∈ g.nodes
  corners : ∀ n, n ∈ g.fNodes f ↔ n = n1 ∨ n = n2 ∨ n = n3
  third : (g.fNodes f).filter (fun i => decide (i ≠ n1) && decide (i ≠ n2)) = [n3]
  edges : ∀ x, x ∈ g.fEdges f ↔ x = e ∨ x = e13 ∨ x = e23
  ed1 : e ≠ e13
  ed2 : e ≠ e23
  ed3 : e13 ≠ e23
  mem : e13 ∈ g.edges ∧ e23 ∈ g.edges
  j0 : ∀ n, n ∈ g.eNodes e ↔ n = n1 ∨ n = n2
  j13 : ∀ n, n ∈ g.eNodes e13 ↔ n = n1 ∨ n = n3
  j23 : ∀ n, n ∈ g.eNodes e23 ↔ n = n2 ∨ n = n3
  rest : (g.fEdges f).erase e = [e13, e23] ∨ (g.fEdges f).erase e = [e23, e13]

theorem corner {g : Grid F R} (m : Mesh g) {f e n1 n2 : Nat} (hf : f ∈ g.faces) (he : e ∈ g.fEdges f) (hn : g.eNodes e = [n1, n2]) :
    ∃ n3 e13 e23, Corner g f e n1 n2 n3 e13 e23 := by
  obtain ⟨fl, fnd, fin⟩ := m.face_nodes f hf
  obtain ⟨el, end', ein⟩ := m.face_edges f hf
  have heg := ein e he
  obtain ⟨_, nnd, nin⟩ := m.edge_nodes e heg
  rw [hn] at nnd nin
  have n12 : n1 ≠ n2 := by simpa using nnd
  have c1 : n1 ∈ g.fNodes f := m.edge_in_face f hf e he n1 (by simp [hn])
  have c2 : n2 ∈ g.fNodes f := m.edge_in_face f hf e he n2 (by simp [hn])
  obtain ⟨n3, c3, n13, n23⟩ : ∃ n3 ∈ g.fNodes f, n1 ≠ n3 ∧ n2 ≠ n3 := by
    by_contra hc
    push Not at hc
    have hsub : g.fNodes f ⊆ [n1, n2] := by
      intro x hx
      by_cases h : n1 = x
      · simp [h]
      · simp [hc x hx h]
    have := (List.subperm_of_subset fnd hsub).length_le
    rw [fl] at this; simp at this
  have hc := triple_iff fl fnd c1 c2 c3 n12 n13 n23
  obtain ⟨e13, h13, h13a, h13b⟩ := m.sides f hf n1 c1 n3 c3 n13
  obtain ⟨e23, h23, h23a, h23b⟩ := m.sides f hf n2 c2 n3 c3 n23
  have j13 := pair_iff (m.edge_nodes e13 (ein e13 h13)).1 (m.edge_nodes e13 (ein e13 h13)).2.1 h13a h13b n13
  have j23 := pair_iff (m.edge_nodes e23 (ein e23 h23)).1 (m.edge_nodes e23 (ein e23 h23)).2.1 h23a h23b n23
  have j0 : ∀ n, n ∈ g.eNodes e ↔ n = n1 ∨ n = n2 := by intro n; rw [hn]; simp
  have ed1 : e ≠ e13 := by
    intro h
    have := (j0 n3).1 (by rw [h]; exact h13b)
    rcases this with h | h
    · exact n13 h.symm
    · exact n23 h.symm
  have ed2 : e ≠ e23 := by
    intro h
    have := (j0 n3).1 (by rw [h]; exact h23b)
    rcases this with h | h
    · exact n13 h.symm
    · exact n23 h.symm
  have ed3 : e13 ≠ e23 := by
    intro h
    have := (j23 n1).1 (by rw [← h]; exact h13a)
    rcases this with h | h
    · exact n12 h
    · exact n13 h
  have hp : [e, e13, e23].Perm (g.fEdges f) := by
    refine (List.subperm_of_subset (by simp [ed1, ed2, ed3]) ?_).perm_of_length_le (by simp [el])
    intro x hx; simp at hx; rcases hx with rfl | rfl | rfl <;> assumption
  refine ⟨n3, e13, e23, n13, n23, n12, ⟨nin n1 (by simp), nin n2 (by simp), fin n3 c3⟩, hc, ?_, ?_, ed1, ed2, ed3,
    ⟨ein e13 h13, ein e23 h23⟩, j0, j13, j23, ?_⟩
  · have hpn : [n1, n2, n3].Perm (g.fNodes f) := by
      refine (List.subperm_of_subset (by simp [n12, n13, n23]) ?_).perm_of_length_le (by simp [fl])
      intro x hx; simp at hx; rcases hx with rfl | rfl | rfl <;> assumption
    have := hpn.filter (fun i => decide (i ≠ n1) && decide (i ≠ n2))
    have h2 : [n1, n2, n3].filter (fun i => decide (i ≠ n1) && decide (i ≠ n2)) = [n3] := by
      simp [n13.symm, n23.symm]
    rw [h2] at this
    exact (List.perm_singleton.1 this.symm)
  · intro x; rw [← hp.mem_iff]; simp
  · have := hp.erase e
    simp at this
    exact perm_pair this

/-- The two faces at an inner edge. -/
structure Corner2 (g : Grid F R) (f h e n1 n2 n3 n4 e13 e23 e14 e24 : Nat) : Prop where
  c : Corner g f e n1 n2 n3 e13 e23
  d : Corner g h e n1 n2 n4 e14 e24
  fh : f ≠ h
  n34 : n3 ≠ n4
  x1 : e13 ≠ e14
  x2 : e13 ≠ e24
  x3 : e23 ≠ e14
  x4 : e23 ≠ e24
  hf : f ∈ g.faces
  hh : h ∈ g.faces

theorem corner2 {g : Grid F R} (m : Mesh g) (s : Simple g) {f h e n1 n2 : Nat} (he : e ∈ g.edges) (hf : g.eFaces e = [f, h])
    (hn : g.eNodes e = [n1, n2]) : ∃ n3 n4 e13 e23 e14 e24, Corner2 g f h e n1 n2 n3 n4 e13 e23 e14 e24 := by
  obtain ⟨h1, h1e⟩ := (m.edge_face e he f).1 (by simp [hf])
  obtain ⟨h2, h2e⟩ := (m.edge_face e he h).1 (by simp [hf])
  obtain ⟨n3, e13, e23, c⟩ := corner m h1 h1e hn
  obtain ⟨n4, e14, e24, d⟩ := corner m h2 h2e hn
  have fh : f ≠ h := by have := (m.edge_faces e he).2; rw [hf] at this; simpa using this
  have n34 : n3 ≠ n4 := by
    rintro rfl
    exact fh (s f h1 h h2 (fun n => by rw [c.corners, d.corners]))
  refine ⟨n3, n4, e13, e23, e14, e24, c, d, fh, n34, ?_, ?_, ?_, ?_, h1, h2⟩
  · rintro rfl
    rcases (d.j13 n3).1 ((c.j13 n3).2 (Or.inr rfl)) with h | h
    · exact c.n13 h.symm
    · exact n34 h
  · rintro rfl
    rcases (d.j23 n1).1 ((c.j13 n1).2 (Or.inl rfl)) with h | h
    · exact c.n12 h
    · exact d.n13 h
  · rintro rfl
    rcases (d.j13 n2).1 ((c.j23 n2).2 (Or.inl rfl)) with h | h
    · exact c.n12 h.symm
    · exact d.n23 h
  · rintro rfl
    rcases (d.j23 n3).1 ((c.j23 n3).2 (Or.inr rfl)) with h | h
    · exact c.n23 h.symm
    · exact n34 h

theorem Corner.at1 {g g5 : Grid F R} {f e n1 n2 n3 e13 e23 : Nat} (c : Corner g f e n1 n2 n3 e13 e23) (m : Mesh g)
    (h1 : g5.fEdges f = (g.fEdges f).erase e) (h2 : g5.eNodes = g.eNodes) : g5.edgeAt f n1 = .ok e13 := by
  unfold edgeAt; rw [h1, h2]
  exact pick_edge c.rest ((c.j13 n1).2 (Or.inl rfl)) (m.edge_nodes e13 c.mem.1).2.1
    (fun h => by rcases (c.j23 n1).1 h with h | h; exact c.n12 h; exact c.n13 h)

theorem Corner.at2 {g g5 : Grid F R} {f e n1 n2 n3 e13 e23 : Nat} (c : Corner g f e n1 n2 n3 e13 e23) (m : Mesh g)
    (h1 : g5.fEdges f = (g.fEdges f).erase e) (h2 : g5.eNodes = g.eNodes) : g5.edgeAt f n2 = .ok e23 := by
  unfold edgeAt; rw [h1, h2]
  exact pick_edge c.rest.symm ((c.j23 n2).2 (Or.inl rfl)) (m.edge_nodes e23 c.mem.2).2.1
    (fun h => by rcases (c.j13 n2).1 h with h | h; exact c.n12 h.symm; exact c.n23 h)

/-- A face with its corners and sides. -/
structure Tri (g : Grid F R) (f n1 n2 n3 e12 e23 e13 : Nat) : Prop where
  n12 : n1 ≠ n2
  n13 : n1 ≠ n3
  n23 : n2 ≠ n3
  nodes : n1 ∈ g.nodes ∧ n2 ∈ g.nodes ∧ n3 ∈ g.nodes
  edges : ∀ x, x ∈ g.fEdges f ↔ x = e12 ∨ x = e23 ∨ x = e13
  ed1 : e12 ≠ e23
  ed2 : e12 ≠ e13
  ed3 : e23 ≠ e13
  mem : e12 ∈ g.edges ∧ e23 ∈ g.edges ∧ e13 ∈ g.edges
  j12 : ∀ n, n ∈ g.eNodes e12 ↔ n = n1 ∨ n = n2
  j23 : ∀ n, n ∈ g.eNodes e23 ↔ n = n2 ∨ n = n3
  j13 : ∀ n, n ∈ g.eNodes e13 ↔ n = n1 ∨ n = n3

theorem tri {g : Grid F R} (m : Mesh g) {f : Nat} (hf : f ∈ g.faces) :
    ∃ n1 n2 n3 e12 e23 e13, g.fNodes f = [n1, n2, n3] ∧ Tri g f n1 n2 n3 e12 e23 e13 := by
  obtain ⟨fl, fnd, fin⟩ := m.face_nodes f hf
  obtain ⟨el, end', ein⟩ := m.face_edges f hf
  obtain ⟨n1, n2, n3, hl⟩ : ∃ a b c, g.fNodes f = [a, b, c] := List.length_eq_three.1 fl
  rw [hl] at fnd fin
  simp only [List.nodup_cons, List.mem_cons, List.not_mem_nil, or_false, not_or, not_false_eq_true, List.nodup_nil, and_true] at fnd
  obtain ⟨⟨n12, n13⟩, n23⟩ := fnd
  have c1 : n1 ∈ g.fNodes f := by simp [hl]
  have c2 : n2 ∈ g.fNodes f := by simp [hl]
  have c3 : n3 ∈ g.fNodes f := by simp [hl]
  obtain ⟨e12, h12, h12a, h12b⟩ := m.sides f hf n1 c1 n2 c2 n12
  obtain ⟨e13, h13, h13a, h13b⟩ := m.sides f hf n1 c1 n3 c3 n13
  obtain ⟨e23, h23, h23a, h23b⟩ := m.sides f hf n2 c2 n3 c3 n23
  have j12 := pair_iff (m.edge_nodes e12 (ein e12 h12)).1 (m.edge_nodes e12 (ein e12 h12)).2.1 h12a h12b n12
  have j13 := pair_iff (m.edge_nodes e13 (ein e13 h13)).1 (m.edge_nodes e13 (ein e13 h13)).2.1 h13a h13b n13
  have j23 := pair_iff (m.edge_nodes e23 (ein e23 h23)).1 (m.edge_nodes e23 (ein e23 h23)).2.1 h23a h23b n23
  have ed1 : e12 ≠ e23 := by
    rintro rfl
    rcases (j23 n1).1 h12a with h | h
    · exact n12 h
    · exact n13 h
  have ed2 : e12 ≠ e13 := by
    rintro rfl
    rcases (j13 n2).1 h12b with h | h
    · exact n12 h.symm
    · exact n23 h
  have ed3 : e23 ≠ e13 := by
    rintro rfl
    rcases (j13 n2).1 h23a with h | h
    · exact n12 h.symm
    · exact n23 h
  refine ⟨n1, n2, n3, e12, e23, e13, hl, n12, n13, n23, ⟨fin n1 (by simp), fin n2 (by simp), fin n3 (by simp)⟩, ?_, ed1, ed2, ed3,
    ⟨ein _ h12, ein _ h23, ein _ h13⟩, j12, j23, j13⟩
  exact triple_iff el end' h12 h23 h13 ed1 ed2 ed3

/-- `find_edge` finds the edge between two nodes. -/
theorem findEdge_eq [DecidableEq R] {rc : Vec F → R} {g g4 : Grid F R} (m : Mesh g) (mg : Merged rc g) {a b e : Nat} (ha : a ∈ g.nodes) (hb : b ∈ g.nodes)
    (hab : a ≠ b) (he : e ∈ g.edges) (j : ∀ n, n ∈ g.eNodes e ↔ n = a ∨ n = b) (h1 : g4.eNodes = g.eNodes)
    (h2 : ∀ n ∈ g.nodes, g4.nEdges n = g.nEdges n) (h3 : ∀ n ∈ g.nodes, g4.nKey n = g.nKey n) : g4.findEdge a b = some e := by
  have key : ∀ x ∈ g.edges, (g4.nodeIn b (g4.eNodes x) = true ↔ b ∈ g.eNodes x) := by
    intro x hx
    unfold nodeIn nodeEq
    rw [List.any_eq_true, h1]
    constructor
    · rintro ⟨k, hk, h⟩
      have hkn := (m.edge_nodes x hx).2.2 k hk
      simp only [decide_eq_true_eq] at h
      rw [h3 k hkn, h3 b hb] at h
      rw [← mg.inj k hkn b hb h]; exact hk
    · intro h; exact ⟨b, h, by simp⟩
  unfold findEdge
  rw [h2 a ha]
  have hme : e ∈ g.nEdges a := (m.node_edge a ha e).2 ⟨he, (j a).2 (Or.inl rfl)⟩
  cases hc : (g.nEdges a).find? (fun e => g4.nodeIn b (g4.eNodes e)) with
  | none =>
    rw [List.find?_eq_none] at hc
    exact absurd ((key e he).2 ((j b).2 (Or.inr rfl))) (by simpa using hc e hme)
  | some x =>
    have hp := List.find?_some hc
    have hx := List.mem_of_find?_eq_some hc
    obtain ⟨hxe, hxa⟩ := (m.node_edge a ha x).1 hx
    have hxb := (key x hxe).1 hp
    congr 1
    refine m.edge_unique x hxe e he (fun n => ?_)
    rw [j, pair_iff (m.edge_nodes x hxe).1 (m.edge_nodes x hxe).2.1 hxa hxb hab]

theorem count_df1 {l : List Nat} {f : Nat} (h : l.Nodup) :
    (l.filter (fun x => decide (x ∈ [f]))).length = if f ∈ l then 1 else 0 := by
  have h1 : l.filter (fun x => decide (x ∈ [f])) = l.filter (fun x => x == f) := by
    refine List.filter_congr fun a _ => ?_
    by_cases h : a = f <;> simp [h]
  rw [h1, List.filter_beq, List.length_replicate]
  split
  · next h2 => exact List.count_eq_one_of_mem h h2
  · next h2 => exact List.count_eq_zero.2 h2

theorem count_df2 {l : List Nat} {f k : Nat} (h : l.Nodup) (hfk : f ≠ k) :
    (l.filter (fun x => decide (x ∈ [f, k]))).length = (if f ∈ l then 1 else 0) + if k ∈ l then 1 else 0 := by
  rw [← count_df1 h, ← count_df1 h]
  clear h
  induction l with
  | nil => rfl
  | cons a l ih =>
    by_cases h1 : a = f
    · subst h1; simp [hfk] at ih ⊢; omega
    · by_cases h2 : a = k
      · subst h2; simp [hfk.symm] at ih ⊢; omega
      · simp [h1, h2] at ih ⊢; omega

/-- There is room for the new faces at every edge. -/
theorem ef_bound {P : Patch} {g g1 g7 : Grid F R} (d : Deleted P.df P.de g g1) (k : Plan0 P g) (m : Mesh g)
    (h1 : ∀ e ∈ g.edges, g7.eFaces e = g1.eFaces e) (h2 : ∀ e ∈ P.en, g7.eFaces e = []) :
    ∀ e, ∀ p ∈ P.ef, p.1 = e → (g7.eFaces e).length + (sndOf P.ef e).length ≤ 2 := by
  rintro e p hp rfl
  rcases (k.ef p hp).1 with ⟨h3, h4⟩ | h3
  · rw [h1 _ h3, d.eFaces _ h3 h4, ← k.old_edge _ h3 h4, length_without]
    rcases (m.edge_faces _ h3).1 with h | h <;> omega
  · rw [h2 _ h3]
    rcases k.new_edge _ h3 with h | h <;> simp [h]

theorem Plan0.length_df {P : Patch} {g : Grid F R} (k : Plan0 P g) (m : Mesh g) :
    (without g.faces P.df).length + P.df.length = g.faces.length := by
  have := (perm_without m.faces_nodup k.df.2 k.df.1).length_eq; simpa using this

theorem Plan0.length_de {P : Patch} {g : Grid F R} (k : Plan0 P g) (m : Mesh g) :
    (without g.edges P.de).length + P.de.length = g.edges.length := by
  have := (perm_without m.edges_nodup k.de.2 k.de.1).length_eq; simpa using this

theorem Plan.length_df {P : Patch} {g : Grid F R} (k : Plan P g) (m : Mesh g) :
    (without g.faces P.df).length + P.df.length = g.faces.length := k.base.length_df m

theorem Plan.length_de {P : Patch} {g : Grid F R} (k : Plan P g) (m : Mesh g) :
    (without g.edges P.de).length + P.de.length = g.edges.length := k.base.length_de m

theorem bind_step {α β : Type _} {A : Res α} {f : α → Res β} {a : α} {r : Res β} (h : A = .ok a) (h2 : f a = r) :
    (A >>= f) = r := by rw [h]; exact h2

end Grid
end Verif
