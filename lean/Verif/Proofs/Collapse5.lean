import Verif.Proofs.Collapse4

/-! `collapse_edge`: the identifiers, and the whole run. -/

namespace Verif
namespace Grid
variable {F R : Type} [DecidableEq R] {rc : Vec F → R} {mid : Vec F → Vec F → Vec F} {g g' : Grid F R} {p : Vec F} {key : R}
  {e f h n1 n2 n3 n4 e13 e23 e14 e24 : Nat}

theorem perm_range_iff {A B : List Nat} {n : Nat} (hp : (A ++ B).Perm (List.range n)) :
    A.Perm (List.range A.length) ↔ ∀ b ∈ B, A.length ≤ b := by
  have hl : A.length + B.length = n := by have := hp.length_eq; simpa using this
  have hnd : (A ++ B).Nodup := hp.nodup_iff.2 List.nodup_range
  rw [List.nodup_append] at hnd
  constructor
  · intro h b hb
    by_contra hlt
    exact hnd.2.2 b (h.mem_iff.2 (List.mem_range.2 (by omega))) b hb rfl
  · intro h
    have hsub : B ⊆ List.range' A.length B.length := by
      intro b hb
      have h1 : b < n := List.mem_range.1 (hp.mem_iff.1 (List.mem_append_right _ hb))
      have h2 := h b hb
      rw [List.mem_range'_1]; omega
    have hB : B.Perm (List.range' A.length B.length) :=
      (List.subperm_of_subset hnd.2.1 hsub).perm_of_length_le (by simp)
    have hr : List.range n = List.range A.length ++ List.range' A.length B.length := by
      rw [← hl, List.range_eq_range', List.range_eq_range']
      have := List.range'_append_1 (s := 0) (m := A.length) (n := B.length)
      rw [Nat.zero_add] at this
      exact this.symm
    rw [hr] at hp
    exact (List.perm_append_right_iff _).1 (hp.trans ((List.perm_append_left_iff _).2 hB.symm))

/-- The objects `T` at the end of the list receive the identifiers of the removed objects `D`. -/
theorem glo_shrink {L D L0 T : List Nat} {gl gl' : Nat → Nat} (hg : (L.map gl).Perm (List.range L.length)) (hL : L.Nodup) (hD : D.Nodup)
    (hs : ∀ a ∈ D, a ∈ L) (hw : without L D = L0 ++ T) (hlen : T.length = D.length) (old : ∀ a ∈ L0, gl' a = gl a)
    (new : (T.map gl').Perm (D.map gl)) :
    ((L0 ++ T).map gl').Perm (List.range (L0 ++ T).length) ↔ ∀ t ∈ T, (L0 ++ T).length ≤ gl t := by
  have h1 := perm_without hL hD hs
  rw [hw] at h1
  have h2 : ((L0 ++ T).map gl').Perm (L0.map gl ++ D.map gl) := by
    rw [List.map_append, List.map_congr_left old]
    exact (List.perm_append_left_iff _).2 new
  have h3 : ((L0.map gl ++ D.map gl) ++ T.map gl).Perm (List.range L.length) := by
    refine List.Perm.trans ?_ ((h1.map gl).trans hg)
    rw [List.map_append, List.map_append, List.append_assoc, List.append_assoc]
    exact (List.perm_append_left_iff _).2 List.perm_append_comm
  have hlen' : (L0 ++ T).length = (L0.map gl ++ D.map gl).length := by simp [hlen]
  rw [hlen']
  constructor
  · intro h t ht
    exact (perm_range_iff h3).1 (h2.symm.trans h) _ (List.mem_map.2 ⟨t, ht, rfl⟩)
  · intro h
    refine h2.trans ((perm_range_iff h3).2 ?_)
    intro b hb
    obtain ⟨t, ht, rfl⟩ := List.mem_map.1 hb
    exact h t ht

theorem last1 {l : List Nat} (h : 1 ≤ l.length) : ∃ l0 a, l = l0 ++ [a] := by
  refine ⟨l.dropLast, l.getLast (by intro hh; simp [hh] at h), ?_⟩
  exact (List.dropLast_append_getLast _).symm

theorem last2 {l : List Nat} (h : 2 ≤ l.length) : ∃ l0 b a, l = l0 ++ [b, a] := by
  obtain ⟨l1, a, rfl⟩ := last1 (l := l) (by omega)
  obtain ⟨l0, b, rfl⟩ := last1 (l := l1) (by simp at h; omega)
  exact ⟨l0, b, a, by simp⟩

theorem last3 {l : List Nat} (h : 3 ≤ l.length) : ∃ l0 c b a, l = l0 ++ [c, b, a] := by
  obtain ⟨l1, b, a, rfl⟩ := last2 (l := l) (by omega)
  obtain ⟨l0, c, rfl⟩ := last1 (l := l1) (by simp at h; omega)
  exact ⟨l0, c, b, a, by simp⟩

/-- `Shrunk` does not speak about identifiers. -/
theorem Shrunk.setGlo (S : Shrunk f h e n1 n2 e13 e23 e14 e24 p key g g') (a b d : Nat → Nat) :
    Shrunk f h e n1 n2 e13 e23 e14 e24 p key g { g' with fGlo := a, eGlo := b, nGlo := d } :=
  ⟨S.nodes, S.edges, S.faces, S.nP, S.nKey, S.bag, S.nEdges, S.nFaces, S.eNodes, S.fNodes, S.eFaces, S.fEdges, S.zFaces, S.zEdges, S.zNodes,
    S.name, S.zones, S.fData, S.fZone, S.zId, S.zName, S.zFixed, S.nNext, S.eNext, S.fNext, S.zNext⟩

theorem Shrunk.counts (S : Shrunk f h e n1 n2 e13 e23 e14 e24 p key g g') (m : Mesh g) (he : e ∈ g.edges)
    (c : Corner2 g f h e n1 n2 n3 n4 e13 e23 e14 e24) :
    g'.nodes.length + 1 = g.nodes.length ∧ g'.edges.length + 3 = g.edges.length ∧ g'.faces.length + 2 = g.faces.length := by
  refine ⟨?_, ?_, ?_⟩
  · rw [S.nodes, List.length_erase_of_mem c.c.nodes.2.1]
    have := List.length_pos_of_mem c.c.nodes.2.1
    omega
  · have := (perm_without m.edges_nodup (d := [e, e23, e24]) (by simp [c.c.ed2, c.d.ed2, c.x4])
      (by simp [he, c.c.mem.2, c.d.mem.2])).length_eq
    rw [S.edges]; simpa using this
  · have := (perm_without m.faces_nodup (d := [f, h]) (by simp [c.fh]) (by simp [c.hf, c.hh])).length_eq
    rw [S.faces]; simpa using this

theorem without_one {l : List Nat} (hl : l.Nodup) (x : Nat) : without l [x] = l.erase x := by
  rw [hl.erase_eq_filter]; unfold without; congr 1; funext y; simp [bne, BEq.beq]

/-- The whole run. -/
theorem collapse_full (G : Good rc g) (C : Collapsible rc mid g e n1 n2) (hf : g.eFaces e = [f, h])
    (c : Corner2 g f h e n1 n2 n3 n4 e13 e23 e14 e24) :
    ∃ g', g.collapseInner rc mid e = .ok g' ∧
      Shrunk f h e n1 n2 e13 e23 e14 e24 (mid (g.nP n1) (g.nP n2)) (rc (mid (g.nP n1) (g.nP n2))) g g' ∧
      (GloPerm g' ↔ (∀ n ∈ g'.nodes.drop (g'.nodes.length - 1), g'.nodes.length ≤ g.nGlo n) ∧
        (∀ x ∈ g'.edges.drop (g'.edges.length - 3), g'.edges.length ≤ g.eGlo x) ∧
        (∀ k ∈ g'.faces.drop (g'.faces.length - 2), g'.faces.length ≤ g.fGlo k)) := by
  have m := G.mesh
  obtain ⟨g1, S, gf, ge, gn, hr⟩ := collapse_run G C hf c
  have hc := S.counts m C.edge c
  have M := S.mesh G C hf c
  have l2 : 2 ≤ g1.faces.length := by have := C.four; omega
  have l3 : 3 ≤ g1.edges.length := by
    obtain ⟨k, hk⟩ : ∃ k, k ∈ g1.faces := List.length_pos_iff_exists_mem.1 (by omega)
    obtain ⟨h1, h2, h3⟩ := M.face_edges k hk
    rw [← h1]
    exact (List.subperm_of_subset h2 h3).length_le
  have l1 : 1 ≤ g1.nodes.length := List.length_pos_of_mem ((S.memN m).2 ⟨c.c.nodes.1, c.c.n12⟩)
  obtain ⟨F0, fb, fa, hF⟩ := last2 l2
  obtain ⟨E0, ec, eb, ea, hE⟩ := last3 l3
  obtain ⟨N0, na, hN⟩ := last1 l1
  have fnd := M.faces_nodup
  rw [hF] at fnd
  have end' := M.edges_nodup
  rw [hE] at end'
  have nnd := M.nodes_nodup
  rw [hN] at nnd
  have nf : ∀ k, k ∈ F0 ++ [fb, fa] → k ≠ f ∧ k ≠ h := by
    intro k hk
    rw [← hF, S.memF] at hk
    simpa using hk.2
  have ne : ∀ k, k ∈ E0 ++ [ec, eb, ea] → k ≠ e ∧ k ≠ e23 ∧ k ≠ e24 := by
    intro k hk
    rw [← hE, S.memE] at hk
    simpa using hk.2
  have nn : ∀ k, k ∈ N0 ++ [na] → k ≠ n2 := by
    intro k hk
    rw [← hN, S.memN m] at hk
    exact hk.2
  have ga1 : Py.get g1.faces (-1) = .ok fa := by rw [hF, show F0 ++ [fb, fa] = (F0 ++ [fb]) ++ fa :: [] by simp]; exact get_neg (by simp)
  have ga2 : Py.get g1.faces (-2) = .ok fb := by rw [hF]; exact get_neg (by simp)
  have gb1 : Py.get g1.edges (-1) = .ok ea := by
    rw [hE, show E0 ++ [ec, eb, ea] = (E0 ++ [ec, eb]) ++ ea :: [] by simp]; exact get_neg (by simp)
  have gb2 : Py.get g1.edges (-2) = .ok eb := by
    rw [hE, show E0 ++ [ec, eb, ea] = (E0 ++ [ec]) ++ eb :: [ea] by simp]; exact get_neg (by simp)
  have gb3 : Py.get g1.edges (-3) = .ok ec := by rw [hE]; exact get_neg (by simp)
  have gc1 : Py.get g1.nodes (-1) = .ok na := by rw [hN]; exact get_neg (by simp)
  obtain ⟨GF, hGF⟩ : ∃ a, a = upd (upd g.fGlo fa (g.fGlo f)) fb (g.fGlo h) := ⟨_, rfl⟩
  obtain ⟨GE, hGE⟩ : ∃ a, a = upd (upd (upd g.eGlo ea (g.eGlo e)) eb (g.eGlo e23)) ec (g.eGlo e24) := ⟨_, rfl⟩
  obtain ⟨GN, hGN⟩ : ∃ a, a = upd g.nGlo na (g.nGlo n2) := ⟨_, rfl⟩
  have xf := nf fa (by simp)
  have xa := ne ea (by simp)
  have xb := ne eb (by simp)
  have run : g.collapseInner rc mid e = .ok { g1 with fGlo := GF, eGlo := GE, nGlo := GN } := by
    rw [hr]
    simp only [ga1, ga2, gb1, gb2, gb3, gc1, res_bind_ok, gf, ge, gn]
    rw [hGF, hGE, hGN, upd_ne _ _ xf.2.symm, upd_ne _ _ xa.2.1.symm, upd_ne _ _ xb.2.2.symm, upd_ne _ _ xa.2.2.symm]
  have dE : fa ≠ fb ∧ (∀ k ∈ F0, k ≠ fa ∧ k ≠ fb) := by
    simp only [List.nodup_append, List.nodup_cons, List.mem_cons, List.not_mem_nil, or_false, not_false_eq_true, List.nodup_nil, and_true] at fnd
    exact ⟨fun hh => fnd.2.1 hh.symm, fun k hk => ⟨fnd.2.2 k hk fa (Or.inr rfl), fnd.2.2 k hk fb (Or.inl rfl)⟩⟩
  have dD : ec ≠ eb ∧ ec ≠ ea ∧ eb ≠ ea ∧ (∀ k ∈ E0, k ≠ ea ∧ k ≠ eb ∧ k ≠ ec) := by
    simp only [List.nodup_append, List.nodup_cons, List.mem_cons, List.not_mem_nil, or_false, not_false_eq_true, List.nodup_nil, and_true, not_or] at end'
    exact ⟨end'.2.1.1.1, end'.2.1.1.2, end'.2.1.2, fun k hk => ⟨end'.2.2 k hk ea (by simp), end'.2.2 k hk eb (by simp), end'.2.2 k hk ec (by simp)⟩⟩
  have dN : ∀ k ∈ N0, k ≠ na := by
    simp only [List.nodup_append] at nnd
    exact fun k hk => nnd.2.2 k hk na (by simp)
  have pF := glo_shrink (L0 := F0) (T := [fb, fa]) (gl' := GF) G.glo.faces m.faces_nodup (D := [f, h]) (by simp [c.fh]) (by simp [c.hf, c.hh])
    (by rw [← S.faces, hF]) rfl
    (by intro k hk; rw [hGF, upd_ne _ _ (dE.2 k hk).2, upd_ne _ _ (dE.2 k hk).1])
    (by
      rw [hGF]; simp only [List.map_cons, List.map_nil, upd_self, upd_ne _ _ dE.1]
      exact List.Perm.swap _ _ _)
  have pE := glo_shrink (L0 := E0) (T := [ec, eb, ea]) (gl' := GE) G.glo.edges m.edges_nodup (D := [e, e23, e24]) (by simp [c.c.ed2, c.d.ed2, c.x4])
    (by simp [C.edge, c.c.mem.2, c.d.mem.2]) (by rw [← S.edges, hE]) rfl
    (by intro k hk; rw [hGE, upd_ne _ _ (dD.2.2.2 k hk).2.2, upd_ne _ _ (dD.2.2.2 k hk).2.1, upd_ne _ _ (dD.2.2.2 k hk).1])
    (by
      rw [hGE]; simp only [List.map_cons, List.map_nil, upd_self, upd_ne _ _ dD.1.symm, upd_ne _ _ dD.2.1.symm, upd_ne _ _ dD.2.2.1.symm]
      exact List.reverse_perm [g.eGlo e, g.eGlo e23, g.eGlo e24])
  have pN := glo_shrink (L0 := N0) (T := [na]) (gl' := GN) G.glo.nodes m.nodes_nodup (D := [n2]) (by simp) (by simp [c.c.nodes.2.1])
    (by rw [without_one m.nodes_nodup, ← S.nodes, hN]) rfl
    (by intro k hk; rw [hGN, upd_ne _ _ (dN k hk)])
    (by rw [hGN]; simp [upd_self])
  rw [← hF] at pF
  rw [← hE] at pE
  rw [← hN] at pN
  refine ⟨_, run, S.setGlo _ _ _, ?_⟩
  have tF : g1.faces.drop (g1.faces.length - 2) = [fb, fa] := by rw [hF]; simp
  have tE : g1.edges.drop (g1.edges.length - 3) = [ec, eb, ea] := by rw [hE]; simp
  have tN : g1.nodes.drop (g1.nodes.length - 1) = [na] := by rw [hN]; simp
  show _ ↔ (∀ n ∈ g1.nodes.drop (g1.nodes.length - 1), _) ∧ (∀ x ∈ g1.edges.drop (g1.edges.length - 3), _) ∧
    (∀ k ∈ g1.faces.drop (g1.faces.length - 2), _)
  rw [tF, tE, tN]
  constructor
  · intro hG
    exact ⟨pN.1 hG.nodes, pE.1 hG.edges, pF.1 hG.faces⟩
  · rintro ⟨h1, h2, h3⟩
    exact ⟨pN.2 h1, pE.2 h2, pF.2 h3⟩

theorem Shrunk.shrinks (S : Shrunk f h e n1 n2 e13 e23 e14 e24 p key g g') (G : Good rc g) (C : Collapsible rc mid g e n1 n2)
    (hf : g.eFaces e = [f, h]) (c : Corner2 g f h e n1 n2 n3 n4 e13 e23 e14 e24) : Shrinks g g' e n1 n2 p := by
  have m := G.mesh
  have h12 := c.c.n12
  have subs : ∀ l : List Nat, ∀ n, (∃ a ∈ l, subN n1 n2 a = n) ↔ n ≠ n2 ∧ (n ∈ l ∨ n = n1 ∧ n2 ∈ l) := by
    intro l n
    constructor
    · rintro ⟨a, ha, rfl⟩
      by_cases h1 : a = n2
      · subst h1; rw [subN_self]; exact ⟨h12, Or.inr ⟨rfl, ha⟩⟩
      · rw [subN_ne h1]; exact ⟨h1, Or.inl ha⟩
    · rintro ⟨h1, h2 | ⟨rfl, h2⟩⟩
      · exact ⟨n, h2, subN_ne h1⟩
      · exact ⟨n2, h2, subN_self⟩
  refine ⟨S.name, ⟨S.zones, S.zId, S.zName, S.zFixed⟩, ?_, ?_, ?_, S.counts m C.edge c, ?_, ?_, ?_, ?_, ?_⟩
  · rw [S.nodes, ← without_one m.nodes_nodup]; unfold without leftNodes; congr 1; funext y; simp
  · rw [S.edges]
    unfold without leftEdges
    refine List.filter_congr fun x hx => ?_
    rw [hf, decide_eq_decide]
    simp only [List.mem_cons, List.not_mem_nil, or_false, not_or, forall_eq_or_imp, forall_eq, c.c.edges, c.d.edges]
    have j13 : n2 ∉ g.eNodes e13 := by rw [c.c.j13]; simp [h12.symm, c.c.n23]
    have j14 : n2 ∉ g.eNodes e14 := by rw [c.d.j13]; simp [h12.symm, c.d.n23]
    have j23 : n2 ∈ g.eNodes e23 := by rw [c.c.j23]; simp
    have j24 : n2 ∈ g.eNodes e24 := by rw [c.d.j23]; simp
    constructor
    · rintro ⟨h2, h3, h4⟩
      refine ⟨h2, ?_, ?_⟩
      · rintro ⟨rfl | rfl | rfl, h6⟩
        · exact h2 rfl
        · exact j13 h6
        · exact h3 rfl
      · rintro ⟨rfl | rfl | rfl, h6⟩
        · exact h2 rfl
        · exact j14 h6
        · exact h4 rfl
    · rintro ⟨h2, h3, h4⟩
      refine ⟨h2, ?_, ?_⟩
      · rintro rfl; exact h3 ⟨Or.inr (Or.inr rfl), j23⟩
      · rintro rfl; exact h4 ⟨Or.inr (Or.inr rfl), j24⟩
  · rw [S.faces]; unfold without leftFaces; rw [hf]
  · rw [S.nP]; exact upd_self _ _ _
  · intro n _ h1; rw [S.nP]; exact upd_ne _ _ h1
  · intro k hk n; rw [S.mem_fNodes m h12 hk, subs]
  · intro k hk n; rw [S.mem_eNodes m h12 hk, subs]
  · intro k _; rw [S.fData, S.fZone]; exact ⟨rfl, rfl⟩

/-- `collapse_edge` as a whole. -/
theorem collapseEdge_ok (G : Good rc g) (C : Collapsible rc mid g e n1 n2) :
    ∃ g', g.collapseEdge rc mid e = .ok (g', true) ∧ Shrinks g g' e n1 n2 (mid (g.nP n1) (g.nP n2)) ∧ Mesh g' ∧ ZonesOk g' ∧ ZonesAlloc g' ∧
      Alloc g' ∧ Merged rc g' ∧ Simple g' ∧ (GloPerm g' ↔ LastIds g e n2) := by
  obtain ⟨f, h, hf⟩ := List.length_eq_two.1 C.inner
  obtain ⟨n3, n4, e13, e23, e14, e24, c⟩ := corner2 G.mesh G.simple C.edge hf C.ends
  obtain ⟨g', hr, S, hg⟩ := collapse_full G C hf c
  have s := S.shrinks G C hf c
  refine ⟨g', ?_, s, S.mesh G C hf c, S.zonesOk G, (S.allocOk G).2, (S.allocOk G).1, S.mergedOk G rfl C.place c, S.simple G C hf c, ?_⟩
  · unfold collapseEdge; rw [if_pos C.inner, hr]; rfl
  · rw [hg, s.nodes, s.edges, s.faces]; rfl

end Grid
end Verif
