import Verif.Proofs.Ops

/-! Deleting faces and edges: closed form relative to the consistent grid before the transformation. -/

namespace Verif
namespace Grid
variable {F R : Type}

/-- `g1` is `g` with faces `df` and edges `de` deleted. -/
structure Deleted (df de : List Nat) (g g1 : Grid F R) : Prop where
  edges : g1.edges = without g.edges de
  faces : g1.faces = without g.faces df
  nEdges : ∀ n ∈ g.nodes, g1.nEdges n = without (g.nEdges n) de
  nFaces : ∀ n ∈ g.nodes, g1.nFaces n = without (g.nFaces n) df
  eFaces : ∀ e ∈ g.edges, e ∉ de → g1.eFaces e = without (g.eFaces e) df
  fEdges : ∀ f ∈ g.faces, f ∉ df → g1.fEdges f = without (g.fEdges f) de
  fEdges_del : ∀ f ∈ g.faces, without (g1.fEdges f) de = without (g.fEdges f) de
  zFaces : ∀ z ∈ g.zones, g1.zFaces z = without (g.zFaces z) df
  zEdges : ∀ z ∈ g.zones, g1.zEdges z = (fun l => de.foldl List.erase l) (g.zEdges z)
  name : g1.name = g.name
  nodes : g1.nodes = g.nodes
  zones : g1.zones = g.zones
  bag : g1.bag = g.bag
  borderCnt : g1.borderCnt = g.borderCnt
  nGlo : g1.nGlo = g.nGlo
  nP : g1.nP = g.nP
  nKey : g1.nKey = g.nKey
  nBorder : g1.nBorder = g.nBorder
  eGlo : g1.eGlo = g.eGlo
  eNodes : g1.eNodes = g.eNodes
  fGlo : g1.fGlo = g.fGlo
  fData : g1.fData = g.fData
  fNodes : g1.fNodes = g.fNodes
  fZone : g1.fZone = g.fZone
  zId : g1.zId = g.zId
  zName : g1.zName = g.zName
  zNodes : g1.zNodes = g.zNodes
  zFixed : g1.zFixed = g.zFixed
  nNext : g1.nNext = g.nNext
  eNext : g1.eNext = g.eNext
  fNext : g1.fNext = g.fNext
  zNext : g1.zNext = g.zNext

theorem without_nil (l : List Nat) : without l [] = l := by simp [without]

theorem Deleted.refl (g : Grid F R) : Deleted [] [] g g := by
  constructor <;> intros <;> simp [without_nil]

theorem nodup_without {l : List Nat} (h : l.Nodup) (d : List Nat) : (without l d).Nodup := h.filter _

theorem erase_without {l d : List Nat} {x : Nat} (h : l.Nodup) : (without l d).erase x = without l (d ++ [x]) := by
  rw [List.Nodup.erase_eq_filter (nodup_without h d)]
  unfold without
  rw [List.filter_filter]
  congr 1; funext a; by_cases h1 : a = x <;> by_cases h2 : a ∈ d <;> simp [h1, h2]

theorem without_not_mem {l d : List Nat} {x : Nat} (h : x ∉ l) : without l (d ++ [x]) = without l d := by
  unfold without
  refine List.filter_congr ?_
  intro a ha
  have : a ≠ x := by rintro rfl; exact h ha
  simp [this]

theorem zone_of {g : Grid F R} (zo : ZonesOk g) {f : Nat} (hf : f ∈ g.faces) :
    ∃ z ∈ g.zones, f ∈ g.zFaces z ∧ g.fZone f = some z := by
  have := (zo.partition.mem_iff (a := f)).2 hf
  rw [List.mem_flatMap] at this
  obtain ⟨z, hz, h⟩ := this
  exact ⟨z, hz, h, zo.points z hz f h⟩

theorem zFaces_nodup {g : Grid F R} (zo : ZonesOk g) (m : Mesh g) {z : Nat} (hz : z ∈ g.zones) : (g.zFaces z).Nodup := by
  have := (zo.partition.nodup_iff).2 m.faces_nodup
  rw [List.nodup_flatMap] at this
  exact this.1 z hz

theorem Deleted.face {g g1 : Grid F R} {df de : List Nat} (h : Deleted df de g g1) (m : Mesh g) (zo : ZonesOk g)
    {f : Nat} (hf : f ∈ g.faces) (hd : f ∉ df) :
    ∃ g2, g1.delFace f = .ok g2 ∧ Deleted (df ++ [f]) de g g2 ∧ g2.fEdges = g1.fEdges := by
  obtain ⟨z, hz, hfz, hzf⟩ := zone_of zo hf
  have hr1 : Py.remove (g1.zFaces z) f = .ok ((g1.zFaces z).erase f) := by
    unfold Py.remove; rw [if_pos]; rw [h.zFaces z hz, mem_without]; exact ⟨hfz, hd⟩
  have hr2 : Py.remove g1.faces f = .ok (g1.faces.erase f) := by
    unfold Py.remove; rw [if_pos]; rw [h.faces, mem_without]; exact ⟨hf, hd⟩
  refine ⟨{ g1 with
    nFaces := (g1.fNodes f).foldl (dropFrom f) g1.nFaces
    eFaces := (g1.fEdges f).foldl (dropFrom f) g1.eFaces
    zFaces := upd g1.zFaces z ((g1.zFaces z).erase f)
    faces := g1.faces.erase f }, ?_, ?_, rfl⟩
  · unfold delFace
    simp only [h.fZone, hzf, hr1, hr2, res_bind_ok]
  have hne : (g1.fEdges f) = without (g.fEdges f) de := h.fEdges f hf hd
  constructor <;> try (first | exact h.name | exact h.nodes | exact h.zones | exact h.bag | exact h.borderCnt | exact h.nGlo | exact h.nP | exact h.nKey | exact h.nBorder | exact h.eGlo | exact h.eNodes | exact h.fGlo | exact h.fData | exact h.fNodes | exact h.fZone | exact h.zId | exact h.zName | exact h.zNodes | exact h.zFixed | exact h.nNext | exact h.eNext | exact h.fNext | exact h.zNext | exact h.edges | exact h.nEdges | exact h.fEdges_del | exact h.zEdges)
  case faces =>
    show g1.faces.erase f = _
    rw [h.faces, erase_without m.faces_nodup]
  case nFaces =>
    intro n hn
    show (g1.fNodes f).foldl (dropFrom f) g1.nFaces n = _
    rw [h.fNodes, dropFrom_fold _ _ _ (m.face_nodes f hf).2.1, h.nFaces n hn]
    split
    · exact erase_without (m.node_faces_nodup n hn)
    · next hnf =>
      refine (without_not_mem ?_).symm
      intro hh; exact hnf ((m.node_face n hn f).1 hh).2
  case eFaces =>
    intro e he hde
    show (g1.fEdges f).foldl (dropFrom f) g1.eFaces e = _
    rw [hne, dropFrom_fold _ _ _ (nodup_without (m.face_edges f hf).2.1 _), h.eFaces e he hde]
    split
    · exact erase_without (m.edge_faces e he).2
    · next hnf =>
      refine (without_not_mem ?_).symm
      intro hh; exact hnf (mem_without.2 ⟨((m.edge_face e he f).1 hh).2, hde⟩)
  case fEdges =>
    intro k hk hkd
    exact h.fEdges k hk (fun hh => hkd (List.mem_append_left _ hh))
  case zFaces =>
    intro w hw
    show upd g1.zFaces z ((g1.zFaces z).erase f) w = _
    simp only [upd]
    split
    · next hwz =>
      subst hwz; rw [h.zFaces w hw, erase_without (zFaces_nodup zo m hw)]
    · next hwz =>
      rw [h.zFaces w hw]
      refine (without_not_mem ?_).symm
      intro hh
      have := zo.points w hw f hh
      rw [hzf] at this
      exact hwz (Option.some.inj this).symm

theorem faceDropEdge_fold (e : Nat) (l : List Nat) : ∀ g : Grid F R, l.Nodup → (∀ f ∈ l, e ∈ g.fEdges f) →
    l.foldlM (faceDropEdge e) g = .ok { g with fEdges := fun f => if f ∈ l then (g.fEdges f).erase e else g.fEdges f } := by
  induction l with
  | nil => intros; simp
  | cons a l ih =>
    intro g hn h
    rw [List.nodup_cons] at hn
    have h1 : faceDropEdge e g a = .ok { g with fEdges := upd g.fEdges a ((g.fEdges a).erase e) } := by
      unfold faceDropEdge Py.remove
      rw [if_pos (h a List.mem_cons_self)]; rfl
    rw [List.foldlM_cons, h1, res_bind_ok, ih]
    · congr 2; funext k; simp only [upd, List.mem_cons]
      by_cases hk : k = a
      · subst hk; simp [hn.1]
      · simp [hk]
    · exact hn.2
    · intro k hk
      have : k ≠ a := by rintro rfl; exact hn.1 hk
      simp only [upd, this, if_false]; exact h k (List.mem_cons_of_mem _ hk)

theorem without_append_singleton {l d : List Nat} {x : Nat} (h : l.Nodup) : without l (d ++ [x]) = (without l d).erase x :=
  (erase_without h).symm

theorem Deleted.edge {g g1 : Grid F R} {df de : List Nat} (h : Deleted df de g g1) (m : Mesh g)
    (hzn : g.zones.Nodup) {e a b : Nat} (he : e ∈ g.edges) (hd : e ∉ de) (hab : g.eNodes e = [a, b]) :
    ∃ g2, g1.delEdge e = .ok g2 ∧ Deleted df (de ++ [e]) g g2 ∧ g2.eFaces = g1.eFaces ∧
      (∀ f ∈ df, g2.fEdges f = g1.fEdges f) := by
  obtain ⟨_, hnd, hin⟩ := m.edge_nodes e he
  rw [hab] at hnd hin
  have hne : a ≠ b := by simpa using hnd
  have ha := hin a (by simp)
  have hb := hin b (by simp)
  have ea : e ∈ g1.nEdges a := by
    rw [h.nEdges a ha, mem_without]; exact ⟨(m.node_edge a ha e).2 ⟨he, by simp [hab]⟩, hd⟩
  have eb : e ∈ g1.nEdges b := by
    rw [h.nEdges b hb, mem_without]; exact ⟨(m.node_edge b hb e).2 ⟨he, by simp [hab]⟩, hd⟩
  have h1 : g1.dropEdgeAt e 0 = .ok { g1 with nEdges := upd g1.nEdges a ((g1.nEdges a).erase e) } := by
    unfold dropEdgeAt; rw [h.eNodes, hab]
    show (Py.remove (g1.nEdges a) e >>= _) = _
    unfold Py.remove; rw [if_pos ea]; rfl
  obtain ⟨ga, hga⟩ : ∃ ga, ga = { g1 with nEdges := upd g1.nEdges a ((g1.nEdges a).erase e) } := ⟨_, rfl⟩
  rw [← hga] at h1
  have h2 : ga.dropEdgeAt e 1 = .ok { g1 with nEdges := upd (upd g1.nEdges a ((g1.nEdges a).erase e)) b ((g1.nEdges b).erase e) } := by
    unfold dropEdgeAt
    rw [show ga.eNodes e = [a, b] by rw [hga]; show g1.eNodes e = _; rw [h.eNodes, hab]]
    show (Py.remove (ga.nEdges b) e >>= _) = _
    rw [show ga.nEdges b = g1.nEdges b by rw [hga]; exact upd_ne _ _ hne.symm]
    unfold Py.remove; rw [if_pos eb]
    rw [hga]; rfl
  have hef : g1.eFaces e = without (g.eFaces e) df := h.eFaces e he hd
  have h3 := faceDropEdge_fold e (g1.eFaces e)
    { g1 with nEdges := upd (upd g1.nEdges a ((g1.nEdges a).erase e)) b ((g1.nEdges b).erase e) }
    (by rw [hef]; exact (m.edge_faces e he).2.filter _)
    (by
      intro f hf
      rw [hef, mem_without, m.edge_face e he] at hf
      show e ∈ g1.fEdges f
      rw [h.fEdges f hf.1.1 hf.2, mem_without]; exact ⟨hf.1.2, hd⟩)
  have h4 : Py.remove g1.edges e = .ok (g1.edges.erase e) := by
    unfold Py.remove; rw [if_pos]; rw [h.edges, mem_without]; exact ⟨he, hd⟩
  refine ⟨{ g1 with
    nEdges := upd (upd g1.nEdges a ((g1.nEdges a).erase e)) b ((g1.nEdges b).erase e)
    fEdges := fun f => if f ∈ g1.eFaces e then (g1.fEdges f).erase e else g1.fEdges f
    zEdges := g1.zones.foldl (dropFrom e) g1.zEdges
    edges := g1.edges.erase e }, ?_, ?_, rfl, ?_⟩
  · unfold delEdge
    rw [h1, res_bind_ok, h2, res_bind_ok]
    show (List.foldlM (faceDropEdge e) _ (g1.eFaces e) >>= _) = _
    rw [h3, res_bind_ok]
    simp only
    rw [h4, res_bind_ok]
  · constructor <;> try (first | exact h.name | exact h.nodes | exact h.zones | exact h.bag | exact h.borderCnt | exact h.nGlo | exact h.nP | exact h.nKey | exact h.nBorder | exact h.eGlo | exact h.eNodes | exact h.fGlo | exact h.fData | exact h.fNodes | exact h.fZone | exact h.zId | exact h.zName | exact h.zNodes | exact h.zFixed | exact h.nNext | exact h.eNext | exact h.fNext | exact h.zNext | exact h.faces | exact h.nFaces | exact h.zFaces)
    case edges =>
      show g1.edges.erase e = _
      rw [h.edges, erase_without m.edges_nodup]
    case nEdges =>
      intro n hn
      show upd (upd g1.nEdges a ((g1.nEdges a).erase e)) b ((g1.nEdges b).erase e) n = _
      rw [without_append_singleton (m.node_edges_nodup n hn), ← h.nEdges n hn]
      simp only [upd]
      by_cases hb' : n = b
      · subst hb'; simp
      · by_cases ha' : n = a
        · subst ha'; simp [hb']
        · simp only [ha', hb', if_false]
          refine (List.erase_of_not_mem ?_).symm
          intro hh
          rw [h.nEdges n hn, mem_without, m.node_edge n hn, hab] at hh
          simp [ha', hb'] at hh
    case eFaces =>
      intro x hx hxd
      exact h.eFaces x hx (fun hh => hxd (List.mem_append_left _ hh))
    case fEdges =>
      intro f hf hfd
      show (if f ∈ g1.eFaces e then (g1.fEdges f).erase e else g1.fEdges f) = _
      rw [without_append_singleton (m.face_edges f hf).2.1, ← h.fEdges f hf hfd]
      split
      · rfl
      · next hh =>
        refine (List.erase_of_not_mem ?_).symm
        intro h5
        rw [h.fEdges f hf hfd, mem_without] at h5
        exact hh (by rw [hef, mem_without, m.edge_face e he]; exact ⟨⟨hf, h5.1⟩, hfd⟩)
    case fEdges_del =>
      intro f hf
      show without (if f ∈ g1.eFaces e then (g1.fEdges f).erase e else g1.fEdges f) (de ++ [e]) = _
      have key : without (g1.fEdges f) (de ++ [e]) = without (g.fEdges f) (de ++ [e]) := by
        have := congrArg (fun l => without l [e]) (h.fEdges_del f hf)
        simp only [without, List.filter_filter] at this ⊢
        convert this using 2 <;> (funext y; simp [Bool.and_comm])
      split
      · rw [← key]
        unfold without
        generalize g1.fEdges f = l
        induction l with
        | nil => rfl
        | cons y l ih =>
          by_cases hy : y = e
          · subst hy; simp
          · rw [List.erase_cons_tail (by simpa using hy), List.filter_cons, List.filter_cons, ih]
      · exact key
    case zEdges =>
      intro z hz
      show g1.zones.foldl (dropFrom e) g1.zEdges z = _
      rw [dropFrom_fold _ _ _ (by rw [h.zones]; exact hzn), if_pos (by rw [h.zones]; exact hz), h.zEdges z hz]
      simp
  · intro f hf
    show (if f ∈ g1.eFaces e then (g1.fEdges f).erase e else g1.fEdges f) = _
    rw [if_neg]
    rw [hef, mem_without]; exact fun hh => hh.2 hf

end Grid
end Verif
