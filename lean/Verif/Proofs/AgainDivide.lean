import Verif.Proofs.Again
import Verif.Proofs.Divide

/-! `divide_face` at a point which is an existing node. -/

namespace Verif
namespace Grid
variable {F R : Type} [DecidableEq R]

theorem divideFace_again {rc : Vec F → R} {g : Grid F R} (G : Good rc g) {f n1 n2 n3 e12 e23 e13 z : Nat} {p : Vec F}
    (hf : f ∈ g.faces) (hn : g.fNodes f = [n1, n2, n3])
    (c : Tri g f n1 n2 n3 e12 e23 e13) (hz : g.fZone f = some z) {q : Nat} (hq : q ∈ g.nodes)
    (hp_p : rc (g.nP q) = rc p) :
    ∃ g1 g', Deleted [f] [] g g1 ∧ g.divideFace rc f p = .ok g' ∧
      Built ((divideFacePatch g.nNext g.eNext g.fNext f n1 n2 n3 e12 e23 e13).move g.nNext q) rc z [g.fNext, g.fNext + 1, g.fNext + 2] g1 g' ∧
      (g'.fData g.fNext = g.fData f ∧ g'.fData (g.fNext + 1) = g.fData f ∧ g'.fData (g.fNext + 2) = g.fData f) ∧
      ((divideFacePatch g.nNext g.eNext g.fNext f n1 n2 n3 e12 e23 e13).move g.nNext q).fn.map g'.fGlo = [g.fGlo f, g.faces.length, g.faces.length + 1] ∧
      ((divideFacePatch g.nNext g.eNext g.fNext f n1 n2 n3 e12 e23 e13).move g.nNext q).en.map g'.eGlo = [g.edges.length, g.edges.length + 1, g.edges.length + 2] := by
  obtain ⟨g1, ra, d, fa⟩ := (Deleted.refl g).face G.mesh G.zones hf (by simp)
  simp only [List.nil_append] at d
  refine ⟨g1, ?_⟩
  unfold divideFace
  rw [hn]
  simp only [someZone, hz, res_bind_ok, ra, show Py.get [n1, n2, n3] 0 = .ok n1 from rfl,
    show Py.get [n1, n2, n3] 1 = .ok n2 from rfl, show Py.get [n1, n2, n3] 2 = .ok n3 from rfl]
  obtain ⟨g3, h3⟩ : ∃ g3, g3 = g1.newFaces [g.fData f, g.fData f, g.fData f] := ⟨_, rfl⟩
  rw [← h3]
  rw [newFaces_eq] at h3
  have hk_p : ∀ n ∈ g.nodes, g3.nKey n = g.nKey n := by intro n _; simp only [h3, d.nKey]
  have nn_p : g3.nodes = g.nodes := by simp only [h3, d.nodes]
  have hm_p : g3.nKey q = rc p := by rw [hk_p q hq, G.merged.key q hq, hp_p]
  have hb_p : rc p ∈ g3.bag := by
    simp only [h3, d.bag]
    rw [G.merged.bag]
    exact ⟨q, hq, by rw [G.merged.key q hq, hp_p]⟩
  have hl_p : ∀ n ∈ g3.nodes, n < g3.nNext := by
    rw [nn_p]; intro n hn; simp only [h3, d.nNext]; exact G.alloc.nodes n hn
  have hu_p : ∀ n ∈ g3.nodes, g3.nKey n = rc p → n = q := by
    rw [nn_p]
    intro n hn h
    rw [← hm_p, hk_p n hn, hk_p q hq] at h
    exact G.merged.inj n hn q hq h
  obtain ⟨g4, hg4⟩ : ∃ g4 : Grid F R, g4 = { g3 with
      nGlo := upd g3.nGlo g3.nNext 0
      nP := upd g3.nP g3.nNext p
      nKey := upd g3.nKey g3.nNext (rc p)
      nEdges := upd g3.nEdges g3.nNext []
      nFaces := upd g3.nFaces g3.nNext []
      nBorder := upd g3.nBorder g3.nNext false
      nNext := g3.nNext + 1 } := ⟨_, rfl⟩
  have nng3 : g3.nNext = g.nNext := by simp only [h3, d.nNext]
  rw [placeNode_again rc g3 z p hb_p hl_p (by rw [nn_p]; exact hq) hm_p hu_p, ← hg4]
  simp only [res_bind_ok]
  have en4 : g4.eNodes = g.eNodes := by simp only [hg4, h3, d.eNodes]
  have nE4 : ∀ n ∈ g.nodes, g4.nEdges n = g.nEdges n := by
    intro n hn
    have := G.alloc.nodes n hn
    simp only [hg4]
    rw [nng3, upd_ne _ _ (by omega)]
    simp only [h3]; rw [d.nEdges n hn, without_nil]
  have nK4 : ∀ n ∈ g.nodes, g4.nKey n = g.nKey n := by
    intro n hn
    have := G.alloc.nodes n hn
    simp only [hg4]
    rw [nng3, upd_ne _ _ (by omega)]
    simp only [h3, d.nKey]
  have s1 := findEdge_eq G.mesh G.merged c.nodes.1 c.nodes.2.1 c.n12 c.mem.1 c.j12 en4 nE4 nK4
  have s2 := findEdge_eq G.mesh G.merged c.nodes.2.1 c.nodes.2.2 c.n23 c.mem.2.1 c.j23 en4 nE4 nK4
  have s3 := findEdge_eq G.mesh G.merged c.nodes.1 c.nodes.2.2 c.n13 c.mem.2.2 c.j13 en4 nE4 nK4
  simp only [s1, s2, s3, someEdge, res_bind_ok]
  have e5 : g4.eNext = g.eNext := by simp only [hg4, h3, d.eNext]
  have f1e : g1.fNext = g.fNext := d.fNext
  rw [e5, f1e]
  obtain ⟨g6, h6⟩ : ∃ g6 : Grid F R, g6 = g4.newEdges 3 := ⟨_, rfl⟩
  rw [← h6]
  rw [newEdges_eq] at h6
  have k_n1 : n1 ≠ g.nNext := Nat.ne_of_lt (G.alloc.nodes n1 c.nodes.1)
  have k_n2 : n2 ≠ g.nNext := Nat.ne_of_lt (G.alloc.nodes n2 c.nodes.2.1)
  have k_n3 : n3 ≠ g.nNext := Nat.ne_of_lt (G.alloc.nodes n3 c.nodes.2.2)
  obtain ⟨P, hP⟩ : ∃ P, P = (divideFacePatch g.nNext g.eNext g.fNext f n1 n2 n3 e12 e23 e13).move g.nNext q := ⟨_, rfl⟩
  have k : Plan0 P g := hP ▸ (divideFace_plan G hf c).base.move _ _
  rw [← hP]
  have pne := congrArg Patch.ne hP
  have pnf := congrArg Patch.nf hP
  have pef := congrArg Patch.ef hP
  have pen := congrArg Patch.en hP
  have pfn := congrArg Patch.fn hP
  have pnn := congrArg Patch.nn hP
  have pdf := congrArg Patch.df hP
  have pde := congrArg Patch.de hP
  simp only [divideFacePatch, Patch.move, List.map_cons, List.map_nil, moved_self, moved_ne _ k_n1, moved_ne _ k_n2, moved_ne _ k_n3] at pne pnf pef pen pfn pnn pdf pde
  rw [← pne, ← pnf, ← pef, ← pen]
  have d0 := d
  replace d : Deleted P.df P.de g g1 := by rw [pdf, pde]; exact d
  obtain ⟨g7, h7⟩ : ∃ g7 : Grid F R, g7 = g6.linkNE P.ne := ⟨_, rfl⟩
  rw [← h7]
  rw [linkNE_eq] at h7
  have r7 := linkEF_ok _ g7 (ef_bound d k G.mesh (fun a ha => by
      simp only [h7, h6, hg4, h3, d.eNext]
      rw [if_neg]; have := G.alloc.edges a ha; omega) (fun a ha => by
      simp only [h7, h6, hg4, h3, d.eNext]
      rw [if_pos]; simp [pen] at ha; omega))
  obtain ⟨ga, ha⟩ : ∃ ga : Grid F R, ga = { g7 with eFaces := fun e => g7.eFaces e ++ sndOf P.ef e, fEdges := fun f => g7.fEdges f ++ fstOf P.ef f } := ⟨_, rfl⟩
  rw [r7, res_bind_ok, ← ha]
  obtain ⟨g8, h8⟩ : ∃ g8 : Grid F R, g8 = ga.linkNF P.nf := ⟨_, rfl⟩
  obtain ⟨g9, h9⟩ : ∃ g9 : Grid F R, g9 = g8.addFaces [(g.fNext, some (g.fGlo f)), (g.fNext + 1, none), (g.fNext + 2, none)] := ⟨_, rfl⟩
  obtain ⟨g10, h10⟩ : ∃ g10 : Grid F R, g10 = g9.addEdges [(g.eNext, none), (g.eNext + 1, none), (g.eNext + 2, none)] := ⟨_, rfl⟩
  rw [← h8, ← h9, ← h10]
  rw [linkNF_eq] at h8
  rw [addFaces_eq] at h9
  rw [addEdges_eq] at h10
  have r8 := zoneAddFaces_ok z [g.fNext, g.fNext + 1, g.fNext + 2] g10 (by
    intro x hx; simp only [List.mem_cons, List.not_mem_nil, or_false] at hx
    simp only [h10, h9, h8, ha, h7, h6, hg4, h3, d.fNext]; rw [if_pos]; simp; omega) (by simp)
  obtain ⟨gb, hb'⟩ : ∃ gb : Grid F R, gb = { g10 with
      fZone := fun f => if f ∈ [g.fNext, g.fNext + 1, g.fNext + 2] then some z else g10.fZone f
      zFaces := upd g10.zFaces z (g10.zFaces z ++ [g.fNext, g.fNext + 1, g.fNext + 2]) } := ⟨_, rfl⟩
  rw [r8, res_bind_ok, ← hb', zoneAddEdges_eq]
  obtain ⟨g', hg'⟩ : ∃ g' : Grid F R, g' = { gb with zEdges := upd gb.zEdges z (gb.zEdges z ++ P.en) } := ⟨_, rfl⟩
  have hh := d.fNext
  have he' := d.eNext
  have hn' := d.nNext
  have hfl := G.alloc.faces
  have lf' := k.length_df G.mesh
  have le' := k.length_de G.mesh
  rw [← d.faces] at lf'
  rw [← d.edges] at le'
  simp only [pdf, pde, List.length_cons, List.length_nil] at lf' le'
  refine ⟨g', d0, by rw [hg'], ?_, ?_⟩
  swap
  · refine ⟨?_, ?_, ?_⟩
    · simp only [hg', hb', h10, h9, h8, ha, h7, h6, hg4, h3, hh, List.length_cons, List.length_nil]; simp
    · rw [pfn]; simp only [hg', hb', h10, h9, h8, ha, h7, h6, hg4, h3, hh, gloFold]; simp [upd]; omega
    · rw [pen]; simp only [hg', hb', h10, h9, h8, ha, h7, h6, hg4, h3, he', gloFold, d.eGlo]; simp [upd]; omega
  constructor
  all_goals try simp only [hg', hb', h10, h9, h8, ha, h7, h6, hg4, h3, nng3, pnn, pen, pfn, hh, he', hn']
  case edges => rfl
  case faces => rfl
  case nEdges => intro n hn; rw [upd_ne _ _ (by omega)]
  case nFaces => intro n hn; rw [upd_ne _ _ (by omega)]
  case nEdges_new => intro n hn; cases hn
  case nFaces_new => intro n hn; cases hn
  case eNodes => intro n hn; rw [if_neg (by omega)]
  case eFaces => intro n hn; rw [if_neg (by omega)]
  case eNodes_new => intro n hn; simp only [List.mem_cons, List.not_mem_nil, or_false] at hn; rw [if_pos (by omega)]; rfl
  case eFaces_new => intro n hn; simp only [List.mem_cons, List.not_mem_nil, or_false] at hn; rw [if_pos (by omega)]; rfl
  case fNodes => intro n hn; rw [if_neg (by omega)]
  case fNodes_new =>
    intro n hn; simp only [List.mem_cons, List.not_mem_nil, or_false] at hn
    rw [if_pos (by simp only [List.length_cons, List.length_nil]; omega)]; rfl
  case fEdges => 
    intro n hn hd
    rw [if_neg (by omega)]
  case fEdges_new =>
    intro n hn; simp only [List.mem_cons, List.not_mem_nil, or_false] at hn
    rw [if_pos (by simp only [List.length_cons, List.length_nil]; omega)]; rfl
  case nodes => simp
  case nn => simp
  case en => rfl
  case fn => exact List.Perm.refl _
  case zfn_perm => exact List.Perm.refl _
  case nNext => exact Nat.le_succ _
  case eNext => rfl
  case fNext => rfl
  case zFaces => intro w; by_cases hw : w = z <;> simp [upd, hw]
  case zNodes => intro w; simp
  case zEdges => intro w; by_cases hw : w = z <;> simp [upd, hw]
  case fZone =>
    intro n hn
    rw [if_neg (by simp only [List.mem_cons, List.not_mem_nil, or_false]; omega), if_neg (by omega)]
  case fZone_new =>
    intro n hn
    rw [if_pos (by simp only [List.mem_cons, List.not_mem_nil, or_false] at hn ⊢; omega)]
  case fData => intro n hn; rw [if_neg (by omega)]
  case nP => intro n hn; rw [upd_ne _ _ (by omega)]
  case nKey => intro n hn; rw [upd_ne _ _ (by omega)]
  case nGlo => intro n hn; rw [upd_ne _ _ (by omega)]
  case nBorder => intro n hn; rw [upd_ne _ _ (by omega)]
  case eGlo =>
    intro n hn
    rw [gloFold_ne, if_neg (by omega)]
    intro y hy; simp only [List.mem_cons, List.not_mem_nil, or_false] at hy
    rcases hy with rfl | rfl | rfl <;> show _ ≠ _ <;> simp only <;> omega
  case fGlo =>
    intro n hn
    rw [gloFold_ne, if_neg (by omega)]
    intro y hy; simp only [List.mem_cons, List.not_mem_nil, or_false] at hy
    rcases hy with rfl | rfl | rfl <;> show _ ≠ _ <;> simp only <;> omega
  case key_new => simp
  case key_inj => simp
  case key_fresh => simp
  case bag => simp
  case glo_nodes => simp

end Grid
end Verif
