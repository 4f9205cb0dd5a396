import Verif.Proofs.Collapse5
import Verif.Proofs.Mpi
import Verif.Proofs.Transform

/-! `collapse_edge`: the lists of the zones. -/

namespace Verif
namespace Grid
variable {F R : Type} [DecidableEq R] {rc : Vec F → R} {mid : Vec F → Vec F → Vec F} {g g' : Grid F R} {p : Vec F} {key : R}
  {e f h n1 n2 n3 n4 e13 e23 e14 e24 z : Nat}

theorem mem_zFaces_iff (zo : ZonesOk g) {k w : Nat} (hk : k ∈ g.faces) (hw : w ∈ g.zones) : k ∈ g.zFaces w ↔ g.fZone k = some w := by
  constructor
  · exact zo.points w hw k
  · intro h1
    obtain ⟨w', _, h2, h3⟩ := zone_of zo hk
    rw [h1] at h3
    rw [Option.some.inj h3]; exact h2

theorem without3 {l : List Nat} (hl : l.Nodup) (a b c : Nat) : ((l.erase a).erase b).erase c = without l [a, b, c] := by
  have h0 : without l [] = l := by unfold without; simp
  conv_lhs => rw [← h0]
  rw [erase_without hl, erase_without hl, erase_without hl]
  rfl

theorem Shrunk.zoneLists (S : Shrunk f h e n1 n2 e13 e23 e14 e24 p key g g') (G : Good rc g) (C : Collapsible rc mid g e n1 n2)
    (hf : g.eFaces e = [f, h]) (c : Corner2 g f h e n1 n2 n3 n4 e13 e23 e14 e24) (hk : key = rc p) (hp : NewPlace rc g p) (L : ZoneLists g)
    (hz : ∀ k ∈ g.faces, n1 ∈ g.fNodes k ∨ n2 ∈ g.fNodes k → g.fZone k = some z) : ZoneLists g' := by
  have m := G.mesh
  have a := around m C.edge hf c
  have M := S.mesh G C hf c
  have h12 := c.c.n12
  have zo := G.zones
  have zf := hz f c.hf (Or.inl ((c.c.corners n1).2 (Or.inl rfl)))
  have zh := hz h c.hh (Or.inl ((c.d.corners n1).2 (Or.inl rfl)))
  have zz : z ∈ g.zones := zone_mem G c.hf zf
  have inz : ∀ w ∈ g.zones, ∀ k, k ∈ g'.zFaces w ↔ k ∈ g'.faces ∧ k ∈ g.zFaces w := by
    intro w hw k
    rw [S.zFaces w hw, mem_without, S.memF]
    constructor
    · rintro ⟨h1, h2⟩
      exact ⟨⟨(zo.partition.mem_iff).1 (List.mem_flatMap.2 ⟨w, hw, h1⟩), h2⟩, h1⟩
    · rintro ⟨⟨_, h2⟩, h1⟩; exact ⟨h1, h2⟩
  have fmem : ∀ w ∈ g.zones, ∀ k ∈ g.zFaces w, k ∈ g.faces := fun w hw k hk => (zo.partition.mem_iff).1 (List.mem_flatMap.2 ⟨w, hw, hk⟩)
  -- a face which is left at a remaining side of a removed face
  have left : ∀ x, x = e13 ∨ x = e14 → ∃ k ∈ g'.zFaces z, x ∈ g'.fEdges k := by
    intro x hx
    have hxe : x ∈ g'.edges := by
      rw [S.memE]
      rcases hx with rfl | rfl
      · exact ⟨c.c.mem.1, by simp [c.c.ed1.symm, c.c.ed3, c.x2]⟩
      · exact ⟨c.d.mem.1, by simp [c.d.ed1.symm, c.d.ed3, c.x3.symm]⟩
    obtain ⟨k, hk⟩ : ∃ k, k ∈ g'.eFaces x := List.length_pos_iff_exists_mem.1 (by have := (M.edge_faces x hxe).1; omega)
    obtain ⟨k1, k2⟩ := (M.edge_face x hxe k).1 hk
    refine ⟨k, (inz z zz k).2 ⟨k1, ?_⟩, k2⟩
    have kf := (S.memF.1 k1).1
    rw [mem_zFaces_iff zo kf zz]
    have n1x : n1 ∈ g'.eNodes x := by
      rw [S.mem_eNodes m h12 hxe]
      refine ⟨n1, ?_, subN_ne h12⟩
      rcases hx with rfl | rfl
      · rw [c.c.j13]; simp
      · rw [c.d.j13]; simp
    obtain ⟨b, hb, h5⟩ := (S.mem_fNodes m h12 k1 n1).1 (M.edge_in_face k k1 x k2 n1 n1x)
    by_cases h6 : b = n2
    · exact hz k kf (Or.inr (h6 ▸ hb))
    · rw [subN_ne h6] at h5; exact hz k kf (Or.inl (h5 ▸ hb))
  have nodesIff : ∀ w ∈ g.zones, ∀ n ∈ g'.nodes, (∃ k ∈ g'.zFaces w, n ∈ g'.fNodes k) ↔ ∃ k ∈ g.zFaces w, n ∈ g.fNodes k := by
    intro w hw n hn
    have n2' := ((S.memN m).1 hn).2
    constructor
    · rintro ⟨k, h1, h2⟩
      obtain ⟨h3, h4⟩ := (inz w hw k).1 h1
      obtain ⟨b, hb, h5⟩ := (S.mem_fNodes m h12 h3 n).1 h2
      by_cases h6 : b = n2
      · have := hz k (fmem w hw k h4) (Or.inr (h6 ▸ hb))
        rw [zo.points w hw k h4] at this
        obtain rfl := Option.some.inj this
        subst h6
        rw [subN_self] at h5
        subst h5
        exact ⟨f, (mem_zFaces_iff zo c.hf hw).2 zf, (c.c.corners n1).2 (Or.inl rfl)⟩
      · rw [subN_ne h6] at h5
        exact ⟨k, h4, h5 ▸ hb⟩
    · rintro ⟨k, h1, h2⟩
      have kf := fmem w hw k h1
      by_cases h3 : k ∈ [f, h]
      · have hwz : w = z := by
          have h4 := zo.points w hw k h1
          simp only [List.mem_cons, List.not_mem_nil, or_false] at h3
          rcases h3 with rfl | rfl
          · rw [zf] at h4; exact (Option.some.inj h4).symm
          · rw [zh] at h4; exact (Option.some.inj h4).symm
        subst hwz
        have side : ∃ x, (x = e13 ∨ x = e14) ∧ n ∈ g.eNodes x := by
          simp only [List.mem_cons, List.not_mem_nil, or_false] at h3
          rcases h3 with rfl | rfl
          · refine ⟨e13, Or.inl rfl, ?_⟩
            rw [c.c.j13]
            rcases (c.c.corners n).1 h2 with h | h | h
            · exact Or.inl h
            · exact absurd h n2'
            · exact Or.inr h
          · refine ⟨e14, Or.inr rfl, ?_⟩
            rw [c.d.j13]
            rcases (c.d.corners n).1 h2 with h | h | h
            · exact Or.inl h
            · exact absurd h n2'
            · exact Or.inr h
        obtain ⟨x, hx, hnx⟩ := side
        obtain ⟨k', i1, i2⟩ := left x hx
        have i3 := ((inz w hw k').1 i1).1
        refine ⟨k', i1, M.edge_in_face k' i3 x i2 n ?_⟩
        rw [S.mem_eNodes m h12 ((M.face_edges k' i3).2.2 x i2)]
        exact ⟨n, hnx, subN_ne n2'⟩
      · have h4 := S.memF.2 ⟨kf, h3⟩
        exact ⟨k, (inz w hw k).2 ⟨h4, h1⟩, (S.mem_fNodes m h12 h4 n).2 ⟨n, h2, subN_ne n2'⟩⟩
  have edgesIff : ∀ w ∈ g.zones, ∀ x ∈ g'.edges, (∃ k ∈ g'.zFaces w, x ∈ g'.fEdges k) ↔ ∃ k ∈ g.zFaces w, x ∈ g.fEdges k := by
    intro w hw x hx
    obtain ⟨x1, x2⟩ := S.memE.1 hx
    simp only [List.mem_cons, List.not_mem_nil, or_false, not_or] at x2
    have atn2 : ∀ k ∈ g.faces, ∀ y, y = e23 ∨ y = e24 → y ∈ g.fEdges k → n2 ∈ g.fNodes k := by
      intro k hk y hy h1
      refine m.edge_in_face k hk y h1 n2 ?_
      rcases hy with rfl | rfl
      · rw [c.c.j23]; simp
      · rw [c.d.j23]; simp
    constructor
    · rintro ⟨k, h1, h2⟩
      obtain ⟨h3, h4⟩ := (inz w hw k).1 h1
      obtain ⟨y, hy, h5⟩ := (S.mem_fEdges a c h3 x).1 h2
      have kf := fmem w hw k h4
      have same : n2 ∈ g.fNodes k → w = z := by
        intro h6
        have := hz k kf (Or.inr h6)
        rw [zo.points w hw k h4] at this
        exact Option.some.inj this
      unfold subE at h5
      split at h5
      · next h6 =>
        subst h6
        obtain rfl := same (atn2 k kf y (Or.inl rfl) hy)
        exact ⟨f, (mem_zFaces_iff zo c.hf hw).2 zf, (c.c.edges x).2 (Or.inr (Or.inl h5.symm))⟩
      · split at h5
        · next h6 =>
          subst h6
          obtain rfl := same (atn2 k kf y (Or.inr rfl) hy)
          exact ⟨h, (mem_zFaces_iff zo c.hh hw).2 zh, (c.d.edges x).2 (Or.inr (Or.inl h5.symm))⟩
        · subst h5; exact ⟨k, h4, hy⟩
    · rintro ⟨k, h1, h2⟩
      have kf := fmem w hw k h1
      by_cases h3 : k ∈ [f, h]
      · have hwz : w = z := by
          have h4 := zo.points w hw k h1
          simp only [List.mem_cons, List.not_mem_nil, or_false] at h3
          rcases h3 with rfl | rfl
          · rw [zf] at h4; exact (Option.some.inj h4).symm
          · rw [zh] at h4; exact (Option.some.inj h4).symm
        subst hwz
        refine left x ?_
        simp only [List.mem_cons, List.not_mem_nil, or_false] at h3
        rcases h3 with rfl | rfl
        · rcases (c.c.edges x).1 h2 with h | h | h
          · exact absurd h x2.1
          · exact Or.inl h
          · exact absurd h x2.2.1
        · rcases (c.d.edges x).1 h2 with h | h | h
          · exact absurd h x2.1
          · exact Or.inr h
          · exact absurd h x2.2.2
      · have h4 := S.memF.2 ⟨kf, h3⟩
        refine ⟨k, (inz w hw k).2 ⟨h4, h1⟩, (S.mem_fEdges a c h4 x).2 ⟨x, h2, ?_⟩⟩
        unfold subE; rw [if_neg x2.2.1, if_neg x2.2.2]
  constructor
  · intro w hw
    rw [S.zones] at hw
    have e1 : g'.zNodes w = (g.zNodes w).erase n2 := by
      obtain ⟨k, k1, k2, k3, w', k4, k5⟩ := S.zNodes
      rw [hz k k1 (Or.inr k3)] at k4
      obtain rfl := Option.some.inj k4
      rw [k5]
      by_cases hwz : w = z
      · subst hwz
        rw [upd_self]
        refine erasekey fun y hy h3 => ?_
        have hyn := ((L.mem_nodes hw y).1 hy).1
        rw [S.nKey, upd_ne _ _ h12.symm] at h3
        by_cases h6 : y = n1
        · subst h6
          rw [upd_self, hk, G.merged.key n2 c.c.nodes.2.1] at h3
          exact absurd h3.symm (hp n2 c.c.nodes.2.1)
        · rw [upd_ne _ _ h6] at h3
          exact G.merged.inj y hyn n2 c.c.nodes.2.1 h3
      · rw [upd_ne _ _ hwz, List.erase_of_not_mem]
        intro h6
        obtain ⟨_, k, i1, i2⟩ := (L.mem_nodes hw n2).1 h6
        have := hz k (fmem w hw k i1) (Or.inr i2)
        rw [zo.points w hw k i1] at this
        exact hwz (Option.some.inj this)
    rw [e1, S.nodes, L.nodes w hw, (m.nodes_nodup.filter _).erase_eq_filter, m.nodes_nodup.erase_eq_filter, List.filter_filter, List.filter_filter]
    refine List.filter_congr fun n hn => ?_
    by_cases h6 : n = n2
    · subst h6; simp
    · have := nodesIff w hw n ((S.memN m).2 ⟨hn, h6⟩)
      have e2 : ((g'.zFaces w).any fun k => (g'.fNodes k).contains n) = (g.zFaces w).any fun k => (g.fNodes k).contains n := by
        rw [Bool.eq_iff_iff]
        simp only [List.any_eq_true, List.contains_iff_mem]
        exact this
      rw [e2, Bool.and_comm]
  · intro w hw
    rw [S.zones] at hw
    have nd : (g.zEdges w).Nodup := by rw [L.edges w hw]; exact m.edges_nodup.filter _
    rw [S.zEdges w hw, without3 nd, S.edges, L.edges w hw]
    unfold without
    rw [List.filter_filter, List.filter_filter]
    refine List.filter_congr fun x hx => ?_
    by_cases h6 : x ∈ [e, e23, e24]
    · simp [h6]
    · have := edgesIff w hw x (S.memE.2 ⟨hx, h6⟩)
      have e2 : ((g'.zFaces w).any fun k => (g'.fEdges k).contains x) = (g.zFaces w).any fun k => (g.fEdges k).contains x := by
        rw [Bool.eq_iff_iff]
        simp only [List.any_eq_true, List.contains_iff_mem]
        exact this
      rw [e2, Bool.and_comm]

end Grid
end Verif
