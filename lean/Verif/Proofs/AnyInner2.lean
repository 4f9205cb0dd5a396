import Verif.Proofs.Rename
import Verif.Proofs.CutInner2

/-! `cut_edge_with_two_nodes` at any two points, an edge with two faces. -/

namespace Verif
namespace Grid
variable {F R : Type} [DecidableEq R]

theorem cutInner2_any {rc : Vec F → R} {g : Grid F R} (G : Good rc g) {e f h n1 n2 n3 n4 e13 e23 e14 e24 z : Nat} {p1 p2 : Vec F}
    (he : e ∈ g.edges) (hf : g.eFaces e = [f, h]) (hn : g.eNodes e = [n1, n2])
    (c : Corner2 g f h e n1 n2 n3 n4 e13 e23 e14 e24) (hz : g.fZone f = some z) :
    ∃ g1 k1 k2 nn g', Deleted [f, h] [e] g g1 ∧ g.cutInner2 rc e p1 p2 = .ok g' ∧
      Built ((cutInner2Patch g.nNext g.eNext g.fNext f h e n1 n2 n3 n4 e13 e23 e14 e24).rename (moved2 g.nNext k1 k2) nn) rc z [g.fNext, g.fNext + 1, g.fNext + 2, g.fNext + 3, g.fNext + 4, g.fNext + 5] g1 g' ∧
      (g'.fData g.fNext = g.fData f ∧ g'.fData (g.fNext + 1) = g.fData f ∧ g'.fData (g.fNext + 2) = g.fData f ∧
        g'.fData (g.fNext + 3) = g.fData h ∧ g'.fData (g.fNext + 4) = g.fData h ∧ g'.fData (g.fNext + 5) = g.fData h) ∧
      ((k1 ∈ g'.nodes ∧ rc (g'.nP k1) = rc p1) ∧ (k2 ∈ g'.nodes ∧ rc (g'.nP k2) = rc p2)) ∧
      (∀ n, n ∈ nn ↔ (n = k1 ∨ n = k2) ∧ n ∉ g.nodes) ∧
      ((k1 ∉ g.nodes → g'.nP k1 = p1) ∧ (k2 ∉ g.nodes → k2 ≠ k1 → g'.nP k2 = p2)) ∧
      ((cutInner2Patch g.nNext g.eNext g.fNext f h e n1 n2 n3 n4 e13 e23 e14 e24).rename (moved2 g.nNext k1 k2) nn).fn.map g'.fGlo =
        [g.fGlo f, g.fGlo h, g.faces.length, g.faces.length + 1, g.faces.length + 2, g.faces.length + 3] ∧
      ((cutInner2Patch g.nNext g.eNext g.fNext f h e n1 n2 n3 n4 e13 e23 e14 e24).rename (moved2 g.nNext k1 k2) nn).en.map g'.eGlo = [g.eGlo e, g.edges.length, g.edges.length + 1,
        g.edges.length + 2, g.edges.length + 3, g.edges.length + 4, g.edges.length + 5] := by
  have hf_f := c.hf
  have hf_h := c.hh
  obtain ⟨ga0, ra, da, fa⟩ := (Deleted.refl g).face G.mesh G.zones hf_f (by simp)
  obtain ⟨gb0, rb', db, fb'⟩ := da.face G.mesh G.zones hf_h (by simpa using c.fh.symm)
  obtain ⟨g1, rb, d, _, fb⟩ := db.edge G.mesh G.zones.zones_nodup he (by simp) hn
  have hfe_f : g1.fEdges f = g.fEdges f := by rw [fb f (by simp), fb', fa]
  have hfe_h : g1.fEdges h = g.fEdges h := by rw [fb h (by simp), fb', fa]
  simp only [List.nil_append, List.cons_append] at d
  unfold cutInner2
  rw [hf]
  simp only [show Py.get [f, h] 0 = .ok f from rfl, show Py.get [f, h] 1 = .ok h from rfl, res_bind_ok, someZone, hz, ra, rb', rb]
  obtain ⟨g2, h2⟩ : ∃ g2, g2 = g1.newFaces [g.fData f, g.fData f, g.fData f, g.fData h, g.fData h, g.fData h] := ⟨_, rfl⟩
  obtain ⟨g3, h3⟩ : ∃ g3, g3 = g2.addFaces [(g1.fNext, some (g.fGlo f)), (g1.fNext + 1, some (g.fGlo h)), (g1.fNext + 2, none), (g1.fNext + 3, none), (g1.fNext + 4, none), (g1.fNext + 5, none)] := ⟨_, rfl⟩
  rw [← h2, ← h3]
  rw [newFaces_eq] at h2
  rw [addFaces_eq] at h3
  have en3 : g3.eNodes = g.eNodes := by simp only [h3, h2, d.eNodes]
  have fn3_f : g3.fNodes f = g.fNodes f := by
    simp only [h3, h2, d.fNodes]; rw [if_neg]; have := G.alloc.faces f hf_f; rw [d.fNext]; omega
  have fe3_f : g3.fEdges f = g.fEdges f := by
    simp only [h3, h2, hfe_f]; rw [if_neg]; have := G.alloc.faces f hf_f; rw [d.fNext]; omega
  have fn3_h : g3.fNodes h = g.fNodes h := by
    simp only [h3, h2, d.fNodes]; rw [if_neg]; have := G.alloc.faces h hf_h; rw [d.fNext]; omega
  have fe3_h : g3.fEdges h = g.fEdges h := by
    simp only [h3, h2, hfe_h]; rw [if_neg]; have := G.alloc.faces h hf_h; rw [d.fNext]; omega
  rw [en3, hn]
  simp only [show Py.get [n1, n2] 0 = .ok n1 from rfl, show Py.get [n1, n2] 1 = .ok n2 from rfl, res_bind_ok, thirdNode,
    fn3_f, c.c.third, show Py.get [n3] 0 = .ok n3 from rfl, fn3_h, c.d.third, show Py.get [n4] 0 = .ok n4 from rfl]
  obtain ⟨m3, al3⟩ : Merged rc g3 ∧ ∀ n ∈ g3.nodes, n < g3.nNext := by
    have e1 : g3.nodes = g.nodes := by simp only [h3, h2, d.nodes]
    have e2 : g3.nNext = g.nNext := by simp only [h3, h2, d.nNext]
    have e3 : g3.nKey = g.nKey := by simp only [h3, h2, d.nKey]
    have e4 : g3.nP = g.nP := by simp only [h3, h2, d.nP]
    have e5 : g3.bag = g.bag := by simp only [h3, h2, d.bag]
    refine ⟨⟨?_, ?_, ?_⟩, ?_⟩
    · rw [e1, e3, e4]; exact G.merged.key
    · rw [e1, e3]; exact G.merged.inj
    · rw [e1, e3, e5]; exact G.merged.bag
    · rw [e1, e2]; exact G.alloc.nodes
  obtain ⟨g4a, k1, nn1, r1, w1, hk1, hr1, o1⟩ := placeNode_placed m3 al3 z p1
  obtain ⟨m4, al4⟩ := w1.merged m3 al3
  obtain ⟨g4, k2, nn2, r2, w2, hk2, hr2, o2⟩ := placeNode_placed m4 al4 z p2
  obtain ⟨nn, hnn⟩ : ∃ nn, nn = nn1 ++ nn2 := ⟨_, rfl⟩
  have w : Placed rc z nn g3 g4 := hnn ▸ w1.trans w2
  have lk1 : k1 < g4a.nNext := al4 k1 hk1
  have e1 : g3.nodes = g.nodes := by simp only [h3, h2, d.nodes]
  have en3' : g3.nNext = g.nNext := by simp only [h3, h2, d.nNext]
  have eb3 : g3.bag = g.bag := by simp only [h3, h2, d.bag]
  have pl : (k1 ∈ g4.nodes ∧ rc (g4.nP k1) = rc p1) ∧ (k2 ∈ g4.nodes ∧ rc (g4.nP k2) = rc p2) := by
    refine ⟨⟨?_, ?_⟩, hk2, hr2⟩
    · rw [w2.nodes]; exact List.mem_append_left _ hk1
    · rw [w2.nP k1 lk1]; exact hr1
  obtain ⟨new, pt⟩ : (∀ n, n ∈ nn ↔ (n = k1 ∨ n = k2) ∧ n ∉ g.nodes) ∧
      ((k1 ∉ g.nodes → g4.nP k1 = p1) ∧ (k2 ∉ g.nodes → k2 ≠ k1 → g4.nP k2 = p2)) := by
    have fr : ∀ n ∈ nn, n ∉ g.nodes := by
      intro n hn h
      have := (w.fresh.2 n hn).1
      rw [← e1] at h
      have := al3 n h
      omega
    refine ⟨fun n => ⟨fun hn => ⟨?_, fr n hn⟩, ?_⟩, ?_, ?_⟩
    · rw [hnn, List.mem_append] at hn
      rcases hn with hn | hn
      · rcases o1 with ⟨_, h, h', _⟩ | ⟨_, h'⟩
        · rw [h', List.mem_singleton] at hn; exact Or.inl (hn.trans h.symm)
        · rw [h'] at hn; cases hn
      · rcases o2 with ⟨_, h, h', _⟩ | ⟨_, h'⟩
        · rw [h', List.mem_singleton] at hn; exact Or.inr (hn.trans h.symm)
        · rw [h'] at hn; cases hn
    · rintro ⟨h | h, hng⟩
      · rw [h] at hng ⊢
        have := pl.1.1
        rw [w.nodes, e1, List.mem_append] at this
        exact this.resolve_left hng
      · rw [h] at hng ⊢
        have := pl.2.1
        rw [w.nodes, e1, List.mem_append] at this
        exact this.resolve_left hng
    · intro h
      rcases o1 with ⟨_, _, _, h'⟩ | ⟨h', _⟩
      · rw [w2.nP k1 lk1]; exact h'
      · rw [e1] at h'; exact absurd h' h
    · intro h hne
      rcases o2 with ⟨_, _, _, h'⟩ | ⟨h', _⟩
      · exact h'
      · rw [w1.nodes, e1, List.mem_append] at h'
        rcases h' with h' | h'
        · exact absurd h' h
        · rcases o1 with ⟨_, a, b, _⟩ | ⟨_, b⟩
          · rw [b, List.mem_singleton] at h'; exact absurd (h'.trans a.symm) hne
          · rw [b] at h'; cases h'
  refine ⟨g1, k1, k2, nn, ?_⟩
  rw [r1]
  simp only [res_bind_ok]
  rw [r2]
  simp only [res_bind_ok]
  have fe4_f : g4.fEdges f = g.fEdges f := by simp only [w.fEdges, fe3_f]
  obtain ⟨g5, hg5⟩ : ∃ g5 : Grid F R, g5 = { g4 with fEdges := upd g4.fEdges f ((g4.fEdges f).erase e) } := ⟨_, rfl⟩
  have r_g5 : faceDropEdge e g4 f = .ok g5 := by
    rw [hg5]; unfold faceDropEdge Py.remove; rw [if_pos (by rw [fe4_f]; exact (c.c.edges e).2 (Or.inl rfl))]; rfl
  have fe4_h : g5.fEdges h = g.fEdges h := by simp only [hg5, w.fEdges]; rw [upd_ne _ _ c.fh.symm]; exact fe3_h
  obtain ⟨g5b, hg5b⟩ : ∃ g5b : Grid F R, g5b = { g5 with fEdges := upd g5.fEdges h ((g5.fEdges h).erase e) } := ⟨_, rfl⟩
  have r_g5b : faceDropEdge e g5 h = .ok g5b := by
    rw [hg5b]; unfold faceDropEdge Py.remove; rw [if_pos (by rw [fe4_h]; exact (c.d.edges e).2 (Or.inl rfl))]; rfl
  have en5 : g5b.eNodes = g.eNodes := by simp only [hg5b, hg5, w.eNodes, w.eFaces, w.fNodes, w.fEdges, w.fZone, w.fData, w.fGlo, w.eGlo, w.eNext, w.fNext, w.zNext, w.zones, w.zFaces, w.zEdges, w.edges, w.faces, w.name, w.borderCnt, w.zId, w.zName, w.zFixed, en3]
  have fe5_h : g5b.fEdges h = (g.fEdges h).erase e := by rw [hg5b]; simp only [upd_self]; rw [fe4_h]
  have fe5_f : g5b.fEdges f = (g.fEdges f).erase e := by rw [hg5b]; simp only []; rw [upd_ne _ _ c.fh, hg5]; simp only [upd_self]; rw [fe4_f]
  simp only [r_g5, r_g5b, res_bind_ok, c.c.at1 G.mesh fe5_f en5, c.c.at2 G.mesh fe5_f en5, c.d.at1 G.mesh fe5_h en5, c.d.at2 G.mesh fe5_h en5]
  have e5 : g5b.eNext = g.eNext := by simp only [hg5b, hg5, w.eNodes, w.eFaces, w.fNodes, w.fEdges, w.fZone, w.fData, w.fGlo, w.eGlo, w.eNext, w.fNext, w.zNext, w.zones, w.zFaces, w.zEdges, w.edges, w.faces, w.name, w.borderCnt, w.zId, w.zName, w.zFixed, h3, h2, d.eNext]
  have f1e : g1.fNext = g.fNext := d.fNext
  rw [e5, f1e]
  obtain ⟨g6, h6⟩ : ∃ g6 : Grid F R, g6 = g5b.newEdges 7 := ⟨_, rfl⟩
  rw [← h6]
  rw [newEdges_eq] at h6
  have l1 := G.alloc.nodes _ c.c.nodes.1
  have l2 := G.alloc.nodes _ c.c.nodes.2.1
  have l3 := G.alloc.nodes _ c.c.nodes.2.2
  have l4 := G.alloc.nodes _ c.d.nodes.2.2
  obtain ⟨P, hP⟩ : ∃ P, P = (cutInner2Patch g.nNext g.eNext g.fNext f h e n1 n2 n3 n4 e13 e23 e14 e24).rename (moved2 g.nNext k1 k2) nn := ⟨_, rfl⟩
  have k : Plan0 P g := hP ▸ (cutInner2_plan G he hf c).base.rename _ _
  rw [← hP]
  have pne := congrArg Patch.ne hP
  have pnf := congrArg Patch.nf hP
  have pef := congrArg Patch.ef hP
  have pen := congrArg Patch.en hP
  have pfn := congrArg Patch.fn hP
  have pnn := congrArg Patch.nn hP
  have pdf := congrArg Patch.df hP
  have pde := congrArg Patch.de hP
  simp only [cutInner2Patch, Patch.rename, List.map_cons, List.map_nil, moved2_fst, moved2_snd, moved2_lt _ _ l1, moved2_lt _ _ l2, moved2_lt _ _ l3, moved2_lt _ _ l4] at pne pnf pef pen pfn pnn pdf pde
  rw [← pne, ← pnf, ← pef, ← pen]
  rw [← pdf, ← pde] at d ⊢
  obtain ⟨g7, h7⟩ : ∃ g7 : Grid F R, g7 = g6.addEdges [(g.eNext, some (g6.eGlo e)), (g.eNext + 1, none), (g.eNext + 2, none), (g.eNext + 3, none), (g.eNext + 4, none), (g.eNext + 5, none), (g.eNext + 6, none)] := ⟨_, rfl⟩
  obtain ⟨g8, h8⟩ : ∃ g8 : Grid F R, g8 = g7.linkNE P.ne := ⟨_, rfl⟩
  obtain ⟨g9, h9⟩ : ∃ g9 : Grid F R, g9 = g8.linkNF P.nf := ⟨_, rfl⟩
  rw [← h7, ← h8, ← h9]
  rw [addEdges_eq] at h7
  rw [linkNE_eq] at h8
  rw [linkNF_eq] at h9
  have r7 := linkEF_ok _ g9 (ef_bound d k G.mesh (fun a ha => by
      simp only [h9, h8, h7, h6, hg5b, hg5, w.eNodes, w.eFaces, w.fNodes, w.fEdges, w.fZone, w.fData, w.fGlo, w.eGlo, w.eNext, w.fNext, w.zNext, w.zones, w.zFaces, w.zEdges, w.edges, w.faces, w.name, w.borderCnt, w.zId, w.zName, w.zFixed, h3, h2, d.eNext]
      rw [if_neg]; have := G.alloc.edges a ha; omega) (fun a ha => by
      simp only [h9, h8, h7, h6, hg5b, hg5, w.eNodes, w.eFaces, w.fNodes, w.fEdges, w.fZone, w.fData, w.fGlo, w.eGlo, w.eNext, w.fNext, w.zNext, w.zones, w.zFaces, w.zEdges, w.edges, w.faces, w.name, w.borderCnt, w.zId, w.zName, w.zFixed, h3, h2, d.eNext]
      rw [if_pos]; simp [pen] at ha; omega))
  obtain ⟨ga, ha⟩ : ∃ ga : Grid F R, ga = { g9 with eFaces := fun e => g9.eFaces e ++ sndOf P.ef e, fEdges := fun f => g9.fEdges f ++ fstOf P.ef f } := ⟨_, rfl⟩
  rw [r7, res_bind_ok, ← ha]
  have r8 := zoneAddFaces_ok z [g.fNext, g.fNext + 1, g.fNext + 2, g.fNext + 3, g.fNext + 4, g.fNext + 5] ga (by
    intro x hx; simp only [List.mem_cons, List.not_mem_nil, or_false] at hx
    simp only [ha, h9, h8, h7, h6, hg5b, hg5, w.eNodes, w.eFaces, w.fNodes, w.fEdges, w.fZone, w.fData, w.fGlo, w.eGlo, w.eNext, w.fNext, w.zNext, w.zones, w.zFaces, w.zEdges, w.edges, w.faces, w.name, w.borderCnt, w.zId, w.zName, w.zFixed, h3, h2, d.fNext]; rw [if_pos]; simp; omega) (by simp)
  obtain ⟨gb, hb'⟩ : ∃ gb : Grid F R, gb = { ga with
      fZone := fun f => if f ∈ [g.fNext, g.fNext + 1, g.fNext + 2, g.fNext + 3, g.fNext + 4, g.fNext + 5] then some z else ga.fZone f
      zFaces := upd ga.zFaces z (ga.zFaces z ++ [g.fNext, g.fNext + 1, g.fNext + 2, g.fNext + 3, g.fNext + 4, g.fNext + 5]) } := ⟨_, rfl⟩
  rw [r8, res_bind_ok, ← hb', zoneAddEdges_eq]
  obtain ⟨g', hg'⟩ : ∃ g' : Grid F R, g' = { gb with zEdges := upd gb.zEdges z (gb.zEdges z ++ P.en) } := ⟨_, rfl⟩
  have hh := d.fNext
  have he' := d.eNext
  have hn' := d.nNext
  have hfl := G.alloc.faces
  have hel := G.alloc.edges e he
  have lf := length_without g.faces P.df
  have le := length_without g.edges P.de
  have lf' := k.length_df G.mesh
  have le' := k.length_de G.mesh
  rw [← d.faces] at lf'
  rw [← d.edges] at le'
  simp only [pdf, pde, List.length_cons, List.length_nil] at lf' le'
  refine ⟨g', d, by rw [hg'], ?_, ?_⟩
  swap
  · refine ⟨?_, ?_, new, ?_, ?_, ?_⟩
    · simp only [hg', hb', ha, h9, h8, h7, h6, hg5b, hg5, w.eNodes, w.eFaces, w.fNodes, w.fEdges, w.fZone, w.fData, w.fGlo, w.eGlo, w.eNext, w.fNext, w.zNext, w.zones, w.zFaces, w.zEdges, w.edges, w.faces, w.name, w.borderCnt, w.zId, w.zName, w.zFixed, h3, h2, hh, List.length_cons, List.length_nil]; simp
    · simp only [hg', hb', ha, h9, h8, h7, h6, hg5b, hg5, w.eNodes, w.eFaces, w.fNodes, w.fEdges, w.fZone, w.fData, w.fGlo, w.eGlo, w.eNext, w.fNext, w.zNext, w.zones, w.zFaces, w.zEdges, w.edges, w.faces, w.name, w.borderCnt, w.zId, w.zName, w.zFixed, h3, h2]; exact pl
    · simp only [hg', hb', ha, h9, h8, h7, h6, hg5b, hg5, w.eNodes, w.eFaces, w.fNodes, w.fEdges, w.fZone, w.fData, w.fGlo, w.eGlo, w.eNext, w.fNext, w.zNext, w.zones, w.zFaces, w.zEdges, w.edges, w.faces, w.name, w.borderCnt, w.zId, w.zName, w.zFixed, h3, h2]; exact pt
    · rw [pfn]; simp only [hg', hb', ha, h9, h8, h7, h6, hg5b, hg5, w.eNodes, w.eFaces, w.fNodes, w.fEdges, w.fZone, w.fData, w.fGlo, w.eGlo, w.eNext, w.fNext, w.zNext, w.zones, w.zFaces, w.zEdges, w.edges, w.faces, w.name, w.borderCnt, w.zId, w.zName, w.zFixed, h3, h2, hh, gloFold]; simp [upd]; omega
    · rw [pen]; simp only [hg', hb', ha, h9, h8, h7, h6, hg5b, hg5, w.eNodes, w.eFaces, w.fNodes, w.fEdges, w.fZone, w.fData, w.fGlo, w.eGlo, w.eNext, w.fNext, w.zNext, w.zones, w.zFaces, w.zEdges, w.edges, w.faces, w.name, w.borderCnt, w.zId, w.zName, w.zFixed, h3, h2, he', gloFold, d.eGlo]; simp [upd]; omega

  have t0 : g3.nNext = g1.nNext := by simp only [h3, h2]
  have t1 : g3.nodes = g1.nodes := by simp only [h3, h2]
  have t2 : g3.bag = g1.bag := by simp only [h3, h2]
  have t3 : g3.nEdges = g1.nEdges := by simp only [h3, h2]
  have t4 : g3.nFaces = g1.nFaces := by simp only [h3, h2]
  have t5 : g3.nP = g1.nP := by simp only [h3, h2]
  have t6 : g3.nKey = g1.nKey := by simp only [h3, h2]
  have t7 : g3.nGlo = g1.nGlo := by simp only [h3, h2]
  have t8 : g3.nBorder = g1.nBorder := by simp only [h3, h2]
  have t9 : g3.zNodes = g1.zNodes := by simp only [h3, h2]
  constructor
  all_goals try simp only [hg', hb', ha, h9, h8, h7, h6, hg5b, hg5, w.eNodes, w.eFaces, w.fNodes, w.fEdges, w.fZone, w.fData, w.fGlo, w.eGlo, w.eNext, w.fNext, w.zNext, w.zones, w.zFaces, w.zEdges, w.edges, w.faces, w.name, w.borderCnt, w.zId, w.zName, w.zFixed, h3, h2, pnn, pen, pfn, hh, he', hn']
  case edges => rfl
  case faces => rfl
  case nEdges => intro n hn; rw [w.nEdges n (by omega), t3]
  case nFaces => intro n hn; rw [w.nFaces n (by omega), t4]
  case nEdges_new => intro n hn; rw [w.nEdges_new n hn]; rfl
  case nFaces_new => intro n hn; rw [w.nFaces_new n hn]; rfl
  case eNodes => intro n hn; rw [if_neg (by omega)]
  case eFaces => intro n hn; rw [if_neg (by omega)]
  case eNodes_new => intro n hn; simp only [List.mem_cons, List.not_mem_nil, or_false] at hn; rw [if_pos (by omega)]; rfl
  case eFaces_new => intro n hn; simp only [List.mem_cons, List.not_mem_nil, or_false] at hn; rw [if_pos (by omega)]; rfl
  case fNodes => intro n hn; rw [if_neg (by omega)]
  case fNodes_new =>
    intro n hn; simp only [List.mem_cons, List.not_mem_nil, or_false] at hn
    rw [if_pos (by simp only [List.length_cons, List.length_nil]; omega)]; rfl
  case fEdges => 
    intro n hn hd
    rw [pdf] at hd
    simp at hd
    rw [upd_ne _ _ hd.2, upd_ne _ _ hd.1, if_neg (by omega)]
  case fEdges_new =>
    intro n hn; simp only [List.mem_cons, List.not_mem_nil, or_false] at hn
    rw [upd_ne _ _ (by have := hfl h hf_h; omega), upd_ne _ _ (by have := hfl f hf_f; omega), if_pos (by simp only [List.length_cons, List.length_nil]; omega)]; rfl
  case nn => exact ⟨w.fresh.1, fun n hn => by have := w.fresh.2 n hn; omega⟩
  case en => rfl
  case fn => exact List.Perm.refl _
  case zfn_perm => exact List.Perm.refl _
  case nNext => have := w.nNext; omega
  case eNext => rfl
  case fNext => rfl
  case zFaces => intro w; by_cases hw : w = z <;> simp [upd, hw]
  case zNodes => intro v; rw [w.zNodes, t9]
  case zEdges => intro w; by_cases hw : w = z <;> simp [upd, hw]
  case fZone =>
    intro n hn
    rw [if_neg (by simp only [List.mem_cons, List.not_mem_nil, or_false]; omega), if_neg (by omega)]
  case fZone_new =>
    intro n hn
    rw [if_pos (by simp only [List.mem_cons, List.not_mem_nil, or_false] at hn ⊢; omega)]
  case fData => intro n hn; rw [if_neg (by omega)]
  case nP => intro n hn; rw [w.nP n (by omega), t5]
  case nKey => intro n hn; rw [w.nKey n (by omega), t6]
  case nGlo => intro n hn; rw [w.nGlo n (by omega), t7]
  case nBorder => intro n hn; rw [w.nBorder n (by omega), t8]
  case eGlo =>
    intro n hn
    rw [gloFold_ne, if_neg (by omega)]
    intro q hq; simp only [List.mem_cons, List.not_mem_nil, or_false] at hq
    rcases hq with rfl | rfl | rfl | rfl | rfl | rfl | rfl <;> show _ ≠ _ <;> simp only <;> omega
  case fGlo =>
    intro n hn
    rw [gloFold_ne, if_neg (by omega)]
    intro q hq; simp only [List.mem_cons, List.not_mem_nil, or_false] at hq
    rcases hq with rfl | rfl | rfl | rfl | rfl | rfl <;> show _ ≠ _ <;> simp only <;> omega
  case key_new => exact w.key_new
  case key_inj => exact w.key_inj
  case key_fresh => rw [← t2]; exact w.key_fresh
  case bag => rw [← t2]; exact w.bag
  case glo_nodes => rw [← t1]; exact w.glo
  case nodes => rw [w.nodes, t1]

end Grid
end Verif
