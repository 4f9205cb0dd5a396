import Verif.Proofs.Again
import Verif.Proofs.CutBorder

/-! `cut_single_edge` at a point which is an existing node. -/

namespace Verif
namespace Grid
variable {F R : Type} [DecidableEq R]

theorem cutBorder_again {rc : Vec F → R} {g : Grid F R} (G : Good rc g) {e f n1 n2 n3 e13 e23 z : Nat} {p : Vec F}
    (he : e ∈ g.edges) (hf : g.eFaces e = [f]) (hn : g.eNodes e = [n1, n2])
    (c : Corner g f e n1 n2 n3 e13 e23) (hz : g.fZone f = some z) {q : Nat} (hq : q ∈ g.nodes)
    (hp_p : rc (g.nP q) = rc p) :
    ∃ g1 g', Deleted [f] [e] g g1 ∧ g.cutBorder rc e p = .ok g' ∧
      Built ((cutBorderPatch g.nNext g.eNext g.fNext f e n1 n2 n3 e13 e23).move g.nNext q) rc z [g.fNext, g.fNext + 1] g1 g' ∧
      (g'.fData g.fNext = g.fData f ∧ g'.fData (g.fNext + 1) = g.fData f) ∧
      ((cutBorderPatch g.nNext g.eNext g.fNext f e n1 n2 n3 e13 e23).move g.nNext q).fn.map g'.fGlo = [g.fGlo f, g.faces.length] ∧
      ((cutBorderPatch g.nNext g.eNext g.fNext f e n1 n2 n3 e13 e23).move g.nNext q).en.map g'.eGlo = [g.eGlo e, g.edges.length, g.edges.length + 1] := by
  have hf_f : f ∈ g.faces := ((G.mesh.edge_face e he f).1 (by simp [hf])).1
  obtain ⟨ga0, ra, da, fa⟩ := (Deleted.refl g).face G.mesh G.zones hf_f (by simp)
  obtain ⟨g1, rb, d, _, fb⟩ := da.edge G.mesh G.zones.zones_nodup he (by simp) hn
  have hfe_f : g1.fEdges f = g.fEdges f := by rw [fb f (by simp), fa]
  simp only [List.nil_append] at d
  refine ⟨g1, ?_⟩
  unfold cutBorder
  rw [hf]
  simp only [show Py.get [f] 0 = .ok f from rfl, res_bind_ok, someZone, hz, ra, rb]
  obtain ⟨g2, h2⟩ : ∃ g2, g2 = g1.newFaces [g.fData f, g.fData f] := ⟨_, rfl⟩
  obtain ⟨g3, h3⟩ : ∃ g3, g3 = g2.addFaces [(g1.fNext, some (g.fGlo f)), (g1.fNext + 1, none)] := ⟨_, rfl⟩
  rw [← h2, ← h3]
  rw [newFaces_eq] at h2
  rw [addFaces_eq] at h3
  have en3 : g3.eNodes = g.eNodes := by simp only [h3, h2, d.eNodes]
  have fn3_f : g3.fNodes f = g.fNodes f := by
    simp only [h3, h2, d.fNodes]; rw [if_neg]; have := G.alloc.faces f hf_f; rw [d.fNext]; omega
  have fe3_f : g3.fEdges f = g.fEdges f := by
    simp only [h3, h2, hfe_f]; rw [if_neg]; have := G.alloc.faces f hf_f; rw [d.fNext]; omega
  rw [en3, hn]
  simp only [show Py.get [n1, n2] 0 = .ok n1 from rfl, show Py.get [n1, n2] 1 = .ok n2 from rfl, res_bind_ok, thirdNode,
    fn3_f, c.third, show Py.get [n3] 0 = .ok n3 from rfl]
  have hk_p : ∀ n ∈ g.nodes, g3.nKey n = g.nKey n := by intro n _; simp only [h3, h2, d.nKey]
  have nn_p : g3.nodes = g.nodes := by simp only [h3, h2, d.nodes]
  have hm_p : g3.nKey q = rc p := by rw [hk_p q hq, G.merged.key q hq, hp_p]
  have hb_p : rc p ∈ g3.bag := by
    simp only [h3, h2, d.bag]
    rw [G.merged.bag]
    exact ⟨q, hq, by rw [G.merged.key q hq, hp_p]⟩
  have hl_p : ∀ n ∈ g3.nodes, n < g3.nNext := by
    rw [nn_p]; intro n hn; simp only [h3, h2, d.nNext]; exact G.alloc.nodes n hn
  have hu_p : ∀ n ∈ g3.nodes, g3.nKey n = rc p → n = q := by
    rw [nn_p]
    intro n hn h
    rw [← hm_p, hk_p n hn, hk_p q hq] at h
    exact G.merged.inj n hn q hq h
  obtain ⟨g4, hg4⟩ : ∃ g4 : Grid F R, g4 = { g3 with
      nGlo := upd g3.nGlo g3.nNext 0
      nP := upd g3.nP g3.nNext p
      nKey := upd g3.nKey g3.nNext (rc p)
      nEdges := upd g3.nEdges g3.nNext []
      nFaces := upd g3.nFaces g3.nNext []
      nBorder := upd g3.nBorder g3.nNext false
      nNext := g3.nNext + 1 } := ⟨_, rfl⟩
  have nng3 : g3.nNext = g.nNext := by simp only [h3, h2, d.nNext]
  rw [placeNode_again rc g3 z p hb_p hl_p (by rw [nn_p]; exact hq) hm_p hu_p, ← hg4]
  simp only [res_bind_ok]
  have fe4_f : g4.fEdges f = g.fEdges f := by simp only [hg4, fe3_f]
  obtain ⟨g5, hg5⟩ : ∃ g5 : Grid F R, g5 = { g4 with fEdges := upd g4.fEdges f ((g4.fEdges f).erase e) } := ⟨_, rfl⟩
  have r_g5 : faceDropEdge e g4 f = .ok g5 := by
    rw [hg5]; unfold faceDropEdge Py.remove; rw [if_pos (by rw [fe4_f]; exact (c.edges e).2 (Or.inl rfl))]; rfl
  have en5 : g5.eNodes = g.eNodes := by simp only [hg5, hg4, en3]
  have fe5_f : g5.fEdges f = (g.fEdges f).erase e := by rw [hg5]; simp only [upd_self]; rw [fe4_f]
  simp only [r_g5, res_bind_ok, c.at1 G.mesh fe5_f en5, c.at2 G.mesh fe5_f en5]
  have e5 : g5.eNext = g.eNext := by simp only [hg5, hg4, h3, h2, d.eNext]
  have f1e : g1.fNext = g.fNext := d.fNext
  rw [e5, f1e]
  obtain ⟨g6, h6⟩ : ∃ g6 : Grid F R, g6 = g5.newEdges 3 := ⟨_, rfl⟩
  rw [← h6]
  rw [newEdges_eq] at h6
  have k_n1 : n1 ≠ g.nNext := Nat.ne_of_lt (G.alloc.nodes n1 c.nodes.1)
  have k_n2 : n2 ≠ g.nNext := Nat.ne_of_lt (G.alloc.nodes n2 c.nodes.2.1)
  have k_n3 : n3 ≠ g.nNext := Nat.ne_of_lt (G.alloc.nodes n3 c.nodes.2.2)
  obtain ⟨P, hP⟩ : ∃ P, P = (cutBorderPatch g.nNext g.eNext g.fNext f e n1 n2 n3 e13 e23).move g.nNext q := ⟨_, rfl⟩
  have k : Plan0 P g := hP ▸ (cutBorder_plan G he hf c).base.move _ _
  rw [← hP]
  have pne := congrArg Patch.ne hP
  have pnf := congrArg Patch.nf hP
  have pef := congrArg Patch.ef hP
  have pen := congrArg Patch.en hP
  have pfn := congrArg Patch.fn hP
  have pnn := congrArg Patch.nn hP
  have pdf := congrArg Patch.df hP
  have pde := congrArg Patch.de hP
  simp only [cutBorderPatch, Patch.move, List.map_cons, List.map_nil, moved_self, moved_ne _ k_n1, moved_ne _ k_n2, moved_ne _ k_n3] at pne pnf pef pen pfn pnn pdf pde
  rw [← pne, ← pnf, ← pef, ← pen]
  rw [← pdf, ← pde] at d ⊢
  obtain ⟨g7, h7⟩ : ∃ g7 : Grid F R, g7 = g6.addEdges [(g.eNext, some (g6.eGlo e)), (g.eNext + 1, none), (g.eNext + 2, none)] := ⟨_, rfl⟩
  obtain ⟨g8, h8⟩ : ∃ g8 : Grid F R, g8 = g7.linkNE P.ne := ⟨_, rfl⟩
  obtain ⟨g9, h9⟩ : ∃ g9 : Grid F R, g9 = g8.linkNF P.nf := ⟨_, rfl⟩
  rw [← h7, ← h8, ← h9]
  rw [addEdges_eq] at h7
  rw [linkNE_eq] at h8
  rw [linkNF_eq] at h9
  have r7 := linkEF_ok _ g9 (ef_bound d k G.mesh (fun a ha => by
      simp only [h9, h8, h7, h6, hg5, hg4, h3, h2, d.eNext]
      rw [if_neg]; have := G.alloc.edges a ha; omega) (fun a ha => by
      simp only [h9, h8, h7, h6, hg5, hg4, h3, h2, d.eNext]
      rw [if_pos]; simp [pen] at ha; omega))
  obtain ⟨ga, ha⟩ : ∃ ga : Grid F R, ga = { g9 with eFaces := fun e => g9.eFaces e ++ sndOf P.ef e, fEdges := fun f => g9.fEdges f ++ fstOf P.ef f } := ⟨_, rfl⟩
  rw [r7, res_bind_ok, ← ha]
  have r8 := zoneAddFaces_ok z [g.fNext, g.fNext + 1] ga (by
    intro x hx; simp only [List.mem_cons, List.not_mem_nil, or_false] at hx
    simp only [ha, h9, h8, h7, h6, hg5, hg4, h3, h2, d.fNext]; rw [if_pos]; simp; omega) (by simp)
  obtain ⟨gb, hb'⟩ : ∃ gb : Grid F R, gb = { ga with
      fZone := fun f => if f ∈ [g.fNext, g.fNext + 1] then some z else ga.fZone f
      zFaces := upd ga.zFaces z (ga.zFaces z ++ [g.fNext, g.fNext + 1]) } := ⟨_, rfl⟩
  rw [r8, res_bind_ok, ← hb', zoneAddEdges_eq]
  obtain ⟨g', hg'⟩ : ∃ g' : Grid F R, g' = { gb with zEdges := upd gb.zEdges z (gb.zEdges z ++ P.en) } := ⟨_, rfl⟩
  have hh := d.fNext
  have he' := d.eNext
  have hn' := d.nNext
  have hfl := G.alloc.faces
  have hel := G.alloc.edges e he
  have lf := length_without g.faces P.df
  have le := length_without g.edges P.de
  have lf' := k.length_df G.mesh
  have le' := k.length_de G.mesh
  rw [← d.faces] at lf'
  rw [← d.edges] at le'
  simp only [pdf, pde, List.length_cons, List.length_nil] at lf' le'
  refine ⟨g', d, by rw [hg'], ?_, ?_⟩
  swap
  · refine ⟨?_, ?_, ?_⟩
    · simp only [hg', hb', ha, h9, h8, h7, h6, hg5, hg4, h3, h2, hh, List.length_cons, List.length_nil]; simp
    · rw [pfn]; simp only [hg', hb', ha, h9, h8, h7, h6, hg5, hg4, h3, h2, hh, gloFold]; simp [upd]; omega
    · rw [pen]; simp only [hg', hb', ha, h9, h8, h7, h6, hg5, hg4, h3, h2, he', gloFold, d.eGlo]; simp [upd]; omega

  constructor
  all_goals try simp only [hg', hb', ha, h9, h8, h7, h6, hg5, hg4, h3, h2, nng3, pnn, pen, pfn, hh, he', hn']
  case edges => rfl
  case faces => rfl
  case nEdges => intro n hn; rw [upd_ne _ _ (by omega)]
  case nFaces => intro n hn; rw [upd_ne _ _ (by omega)]
  case nEdges_new => intro n hn; cases hn
  case nFaces_new => intro n hn; cases hn
  case eNodes => intro n hn; rw [if_neg (by omega)]
  case eFaces => intro n hn; rw [if_neg (by omega)]
  case eNodes_new => intro n hn; simp only [List.mem_cons, List.not_mem_nil, or_false] at hn; rw [if_pos (by omega)]; rfl
  case eFaces_new => intro n hn; simp only [List.mem_cons, List.not_mem_nil, or_false] at hn; rw [if_pos (by omega)]; rfl
  case fNodes => intro n hn; rw [if_neg (by omega)]
  case fNodes_new =>
    intro n hn; simp only [List.mem_cons, List.not_mem_nil, or_false] at hn
    rw [if_pos (by simp only [List.length_cons, List.length_nil]; omega)]; rfl
  case fEdges => 
    intro n hn hd
    rw [pdf] at hd
    rw [upd_ne _ _ (by simpa using hd), if_neg (by omega)]
  case fEdges_new =>
    intro n hn; simp only [List.mem_cons, List.not_mem_nil, or_false] at hn
    rw [upd_ne _ _ (by have := hfl f hf_f; omega), if_pos (by simp only [List.length_cons, List.length_nil]; omega)]; rfl
  case nodes => simp
  case nn => simp
  case en => rfl
  case fn => exact List.Perm.refl _
  case zfn_perm => exact List.Perm.refl _
  case nNext => exact Nat.le_succ _
  case eNext => rfl
  case fNext => rfl
  case zFaces => intro w; by_cases hw : w = z <;> simp [upd, hw]
  case zNodes => intro w; simp
  case zEdges => intro w; by_cases hw : w = z <;> simp [upd, hw]
  case fZone =>
    intro n hn
    rw [if_neg (by simp only [List.mem_cons, List.not_mem_nil, or_false]; omega), if_neg (by omega)]
  case fZone_new =>
    intro n hn
    rw [if_pos (by simp only [List.mem_cons, List.not_mem_nil, or_false] at hn ⊢; omega)]
  case fData => intro n hn; rw [if_neg (by omega)]
  case nP => intro n hn; rw [upd_ne _ _ (by omega)]
  case nKey => intro n hn; rw [upd_ne _ _ (by omega)]
  case nGlo => intro n hn; rw [upd_ne _ _ (by omega)]
  case nBorder => intro n hn; rw [upd_ne _ _ (by omega)]
  case eGlo =>
    intro n hn
    rw [gloFold_ne, if_neg (by omega)]
    intro y hy; simp only [List.mem_cons, List.not_mem_nil, or_false] at hy
    rcases hy with rfl | rfl | rfl <;> show _ ≠ _ <;> simp only <;> omega
  case fGlo =>
    intro n hn
    rw [gloFold_ne, if_neg (by omega)]
    intro y hy; simp only [List.mem_cons, List.not_mem_nil, or_false] at hy
    rcases hy with rfl | rfl <;> show _ ≠ _ <;> simp only <;> omega
  case key_new => simp
  case key_inj => simp
  case key_fresh => simp
  case bag => simp
  case glo_nodes => simp

end Grid
end Verif
