import Verif.Proofs.Collapse

/-! `collapse_edge`: what a run does. -/

namespace Verif
namespace Grid
variable {F R : Type}

/-- The grid after shrinking the edge `e` from `n1` to `n2`; identifiers aside. -/
structure Shrunk [DecidableEq R] (f h e n1 n2 e13 e23 e14 e24 : Nat) (p : Vec F) (key : R) (g g' : Grid F R) : Prop where
  nodes : g'.nodes = g.nodes.erase n2
  edges : g'.edges = without g.edges [e, e23, e24]
  faces : g'.faces = without g.faces [f, h]
  nP : g'.nP = upd g.nP n1 p
  nKey : g'.nKey = upd g.nKey n1 key
  bag : ∀ k, k ∈ g'.bag ↔ k ≠ g.nKey n2 ∧ (k = key ∨ k ∈ g.bag ∧ k ≠ g.nKey n1)
  nEdges : ∀ n ∈ g.nodes, n ≠ n2 → g'.nEdges n = without (g.nEdges n) [e, e23, e24] ++
    if n = n1 then without (g.nEdges n2) [e, e23, e24] else []
  nFaces : ∀ n ∈ g.nodes, n ≠ n2 → g'.nFaces n = without (g.nFaces n) [f, h] ++
    if n = n1 then without (g.nFaces n2) [f, h] else []
  eNodes : ∀ x ∈ g.edges, x ∉ [e, e23, e24] → g'.eNodes x =
    if n2 ∈ g.eNodes x then (g.eNodes x).erase n2 ++ [n1] else g.eNodes x
  fNodes : ∀ k ∈ g.faces, k ∉ [f, h] → g'.fNodes k =
    if n2 ∈ g.fNodes k then (g.fNodes k).erase n2 ++ [n1] else g.fNodes k
  eFaces : ∀ x ∈ g.edges, x ∉ [e, e23, e24] → g'.eFaces x = without (g.eFaces x) [f, h] ++
    if x = e13 then without (g.eFaces e23) [f, h] else if x = e14 then without (g.eFaces e24) [f, h] else []
  fEdges : ∀ k ∈ g.faces, k ∉ [f, h] → g'.fEdges k = without (g.fEdges k) [e, e23, e24] ++
    (if e23 ∈ g.fEdges k then [e13] else []) ++ if e24 ∈ g.fEdges k then [e14] else []
  zFaces : ∀ z ∈ g.zones, g'.zFaces z = without (g.zFaces z) [f, h]
  zEdges : ∀ z ∈ g.zones, g'.zEdges z = (((g.zEdges z).erase e).erase e23).erase e24
  zNodes : ∃ k ∈ g.faces, k ∉ [f, h] ∧ n2 ∈ g.fNodes k ∧ ∃ z, g.fZone k = some z ∧
    g'.zNodes = upd g.zNodes z ((g.zNodes z).eraseP (fun m => decide (g'.nKey m = g'.nKey n2)))
  name : g'.name = g.name
  zones : g'.zones = g.zones
  fData : g'.fData = g.fData
  fZone : g'.fZone = g.fZone
  zId : g'.zId = g.zId
  zName : g'.zName = g.zName
  zFixed : g'.zFixed = g.zFixed
  nNext : g'.nNext = g.nNext
  eNext : g'.eNext = g.eNext
  fNext : g'.fNext = g.fNext
  zNext : g'.zNext = g.zNext

theorem without_le_one {l : List Nat} {f h : Nat} (hl : l.length = 1 ∨ l.length = 2) (hf : f ∈ l) : (without l [f, h]).length ≤ 1 := by
  have := length_without l [f, h]
  have h2 : 0 < (l.filter (fun x => decide (x ∈ [f, h]))).length := by
    refine List.length_pos_iff_exists_mem.2 ⟨f, ?_⟩
    simp [hf]
  omega

/-- `collapse_edge` up to the identifiers. -/
theorem collapse_run [DecidableEq R] {rc : Vec F → R} {mid : Vec F → Vec F → Vec F} {g : Grid F R} (G : Good rc g)
    {e f h n1 n2 n3 n4 e13 e23 e14 e24 : Nat} (C : Collapsible rc mid g e n1 n2) (hf : g.eFaces e = [f, h])
    (c : Corner2 g f h e n1 n2 n3 n4 e13 e23 e14 e24) :
    ∃ g', Shrunk f h e n1 n2 e13 e23 e14 e24 (mid (g.nP n1) (g.nP n2)) (rc (mid (g.nP n1) (g.nP n2))) g g' ∧
      g'.fGlo = g.fGlo ∧ g'.eGlo = g.eGlo ∧ g'.nGlo = g.nGlo ∧
      g.collapseInner rc mid e = (do
        let g := g'
        let fa ← Py.get g.faces (-1)
        let g := { g with fGlo := upd g.fGlo fa (g.fGlo f) }
        let fb ← Py.get g.faces (-2)
        let g := { g with fGlo := upd g.fGlo fb (g.fGlo h) }
        let ea ← Py.get g.edges (-1)
        let g := { g with eGlo := upd g.eGlo ea (g.eGlo e) }
        let eb ← Py.get g.edges (-2)
        let g := { g with eGlo := upd g.eGlo eb (g.eGlo e23) }
        let ec ← Py.get g.edges (-3)
        let g := { g with eGlo := upd g.eGlo ec (g.eGlo e24) }
        let na ← Py.get g.nodes (-1)
        .ok { g with nGlo := upd g.nGlo na (g.nGlo n2) }) := by
  have he := C.edge
  have hn := C.ends
  have m := G.mesh
  obtain ⟨p, hp⟩ : ∃ p, p = mid (g.nP n1) (g.nP n2) := ⟨_, rfl⟩
  have hplace : NewPlace rc g p := hp ▸ C.place
  obtain ⟨ga0, ra, da, fa⟩ := (Deleted.refl g).face m G.zones c.hf (by simp)
  obtain ⟨gb0, rb', db, fb'⟩ := da.face m G.zones c.hh (by simpa using c.fh.symm)
  obtain ⟨g3, rb, d, _, fb⟩ := db.edge m G.zones.zones_nodup he (by simp) hn
  have hfe_f : g3.fEdges f = g.fEdges f := by rw [fb f (by simp), fb', fa]
  have hfe_h : g3.fEdges h = g.fEdges h := by rw [fb h (by simp), fb', fa]
  simp only [List.nil_append, List.cons_append] at d
  have hn1 := c.c.nodes.1
  have hn2 := c.c.nodes.2.1
  have hn12 := c.c.n12
  have hfh := c.fh
  have e_f : e ∈ g.fEdges f := (c.c.edges e).2 (Or.inl rfl)
  have e_h : e ∈ g.fEdges h := (c.d.edges e).2 (Or.inl rfl)
  rw [← hp]
  have knew : ∀ n ∈ g.nodes, g.nKey n ≠ rc p := fun n hn' => by rw [G.merged.key n hn']; exact hplace n hn'
  have kbag : g.nKey n1 ∈ g.bag := (G.merged.bag _).2 ⟨n1, hn1, rfl⟩
  have knb : rc p ∉ g.bag := fun hh => by
    obtain ⟨n, h1, h2⟩ := (G.merged.bag _).1 hh; exact knew n h1 h2
  obtain ⟨g4, h4⟩ : ∃ g4 : Grid F R, g4 = { g3 with
    nP := upd g.nP n1 p
    nKey := upd g.nKey n1 (rc p)
    bag := g.bag.filter (fun k => decide (k ≠ g.nKey n1)) ++ [rc p] } := ⟨_, rfl⟩
  have h4n : g4.eNodes = g.eNodes := by rw [h4]; exact d.eNodes
  obtain ⟨g5, h5⟩ : ∃ g5 : Grid F R, g5 = { g4 with fEdges := upd g4.fEdges f ((g.fEdges f).erase e) } := ⟨_, rfl⟩
  obtain ⟨g6, h6⟩ : ∃ g6 : Grid F R, g6 = { g5 with fEdges := upd g5.fEdges h ((g.fEdges h).erase e) } := ⟨_, rfl⟩
  have r5 : g4.faceDropEdge e f = .ok g5 := by
    unfold faceDropEdge Py.remove
    rw [show g4.fEdges f = g.fEdges f by rw [h4]; exact hfe_f, if_pos e_f, res_bind_ok, h5]
  have r6 : g5.faceDropEdge e h = .ok g6 := by
    unfold faceDropEdge Py.remove
    rw [show g5.fEdges h = g.fEdges h by rw [h5]; show upd g4.fEdges f _ h = _; rw [upd_ne _ _ hfh.symm, h4]; exact hfe_h,
      if_pos e_h, res_bind_ok, h6]
  have e1r : g5.edgeAt f n2 = .ok e23 :=
    c.c.at2 m (by rw [h5]; exact upd_self _ _ _) (by rw [h5]; exact h4n)
  have h6f : g6.fEdges f = (g.fEdges f).erase e := by
    rw [h6]; show upd g5.fEdges h _ f = _; rw [upd_ne _ _ hfh, h5]; exact upd_self _ _ _
  have h6h : g6.fEdges h = (g.fEdges h).erase e := by rw [h6]; exact upd_self _ _ _
  have h6n : g6.eNodes = g.eNodes := by rw [h6, h5]; exact h4n
  have e2r : g6.edgeAt h n2 = .ok e24 := c.d.at2 m h6h h6n
  have h6ef : ∀ x ∈ g.edges, x ≠ e → g6.eFaces x = without (g.eFaces x) [f, h] := by
    intro x hx hxe
    rw [h6, h5, h4]; exact d.eFaces x hx (by simpa using hxe)
  have h6fe : ∀ k ∈ g.faces, k ∉ [f, h] → g6.fEdges k = g.fEdges k := by
    intro k hk hkd
    have h1 : k ≠ f := by rintro rfl; simp at hkd
    have h2 : k ≠ h := by rintro rfl; simp at hkd
    rw [h6]; show upd g5.fEdges h _ k = _
    rw [upd_ne _ _ h2, h5]; show upd g4.fEdges f _ k = _
    rw [upd_ne _ _ h1, h4]; show g3.fEdges k = _
    rw [d.fEdges k hk hkd]
    unfold without
    rw [List.filter_eq_self]
    intro x hx
    simp only [decide_eq_true_eq, List.mem_singleton]
    rintro rfl
    have := (m.edge_face x he k).2 ⟨hk, hx⟩
    rw [hf] at this
    exact hkd this
  -- the four sides
  have inF : ∀ x, x = e13 ∨ x = e23 → x ∈ g.edges ∧ f ∈ g.eFaces x := by
    intro x hx
    have hxe : x ∈ g.edges := by rcases hx with rfl | rfl; exact c.c.mem.1; exact c.c.mem.2
    exact ⟨hxe, (m.edge_face x hxe f).2 ⟨c.hf, (c.c.edges x).2 (Or.inr hx)⟩⟩
  have inH : ∀ x, x = e14 ∨ x = e24 → x ∈ g.edges ∧ h ∈ g.eFaces x := by
    intro x hx
    have hxe : x ∈ g.edges := by rcases hx with rfl | rfl; exact c.d.mem.1; exact c.d.mem.2
    exact ⟨hxe, (m.edge_face x hxe h).2 ⟨c.hh, (c.d.edges x).2 (Or.inr hx)⟩⟩
  have leF : ∀ x, x = e13 ∨ x = e23 → (without (g.eFaces x) [f, h]).length ≤ 1 := fun x hx =>
    without_le_one (m.edge_faces x (inF x hx).1).1 (inF x hx).2
  have leH : ∀ x, x = e14 ∨ x = e24 → (without (g.eFaces x) [f, h]).length ≤ 1 := by
    intro x hx
    have := without_le_one (h := f) (m.edge_faces x (inH x hx).1).1 (inH x hx).2
    rwa [show without (g.eFaces x) [f, h] = without (g.eFaces x) [h, f] by
      unfold without; congr 1; funext y; simp [and_comm]]
  obtain ⟨L1, hL1⟩ : ∃ L, L = without (g.eFaces e23) [f, h] := ⟨_, rfl⟩
  obtain ⟨L2, hL2⟩ : ∃ L, L = without (g.eFaces e24) [f, h] := ⟨_, rfl⟩
  have q23 : g6.eFaces e23 = L1 := by rw [hL1]; exact h6ef e23 c.c.mem.2 c.c.ed2.symm
  have q13 : g6.eFaces e13 = without (g.eFaces e13) [f, h] := h6ef e13 c.c.mem.1 c.c.ed1.symm
  have q24 : g6.eFaces e24 = L2 := by rw [hL2]; exact h6ef e24 c.d.mem.2 c.d.ed2.symm
  have q14 : g6.eFaces e14 = without (g.eFaces e14) [f, h] := h6ef e14 c.d.mem.1 c.d.ed1.symm
  have memL1 : ∀ k, k ∈ L1 ↔ k ∈ g.faces ∧ e23 ∈ g.fEdges k ∧ k ∉ [f, h] := by
    intro k; rw [hL1, mem_without, m.edge_face e23 c.c.mem.2, and_assoc]
  have memL2 : ∀ k, k ∈ L2 ↔ k ∈ g.faces ∧ e24 ∈ g.fEdges k ∧ k ∉ [f, h] := by
    intro k; rw [hL2, mem_without, m.edge_face e24 c.d.mem.2, and_assoc]
  obtain ⟨g7, h7⟩ : ∃ g7 : Grid F R, g7 = { g6 with
      eFaces := upd g6.eFaces e13 (g6.eFaces e13 ++ L1)
      fEdges := fun k => if k ∈ L1 then g6.fEdges k ++ [e13] else g6.fEdges k } := ⟨_, rfl⟩
  have r7 : g6.relink f n1 e23 = .ok g7 := by
    rw [relink_eq (e3 := e13) (by rw [q23, hL1]; exact leF _ (Or.inr rfl)) (c.c.at1 m h6f h6n) (by rw [q13]; exact leF _ (Or.inl rfl)), q23, h7]
  have h7h : g7.fEdges h = (g.fEdges h).erase e := by
    rw [h7]; show (if h ∈ L1 then _ else _) = _
    rw [if_neg (fun hh => ((memL1 h).1 hh).2.2 (by simp)), h6h]
  have q24' : g7.eFaces e24 = L2 := by rw [h7]; show upd g6.eFaces e13 _ e24 = _; rw [upd_ne _ _ c.x2.symm, q24]
  have q14' : g7.eFaces e14 = without (g.eFaces e14) [f, h] := by
    rw [h7]; show upd g6.eFaces e13 _ e14 = _; rw [upd_ne _ _ c.x1.symm, q14]
  obtain ⟨g8, h8⟩ : ∃ g8 : Grid F R, g8 = { g7 with
      eFaces := upd g7.eFaces e14 (g7.eFaces e14 ++ L2)
      fEdges := fun k => if k ∈ L2 then g7.fEdges k ++ [e14] else g7.fEdges k } := ⟨_, rfl⟩
  have r8 : g7.relink h n1 e24 = .ok g8 := by
    rw [relink_eq (e3 := e14) (by rw [q24', hL2]; exact leH _ (Or.inr rfl)) (c.d.at1 m h7h (by rw [h7]; exact h6n))
      (by rw [q14']; exact leH _ (Or.inl rfl)), q24', h8]
  have h8n : g8.eNodes = g.eNodes := by rw [h8, h7]; exact h6n
  have h8ne : ∀ n ∈ g.nodes, g8.nEdges n = without (g.nEdges n) [e] := by
    intro n hn'; rw [h8, h7, h6, h5, h4]; exact d.nEdges n hn'
  have h8ed : g8.edges = without g.edges [e] := by rw [h8, h7, h6, h5, h4]; exact d.edges
  have h8e23 : g8.eFaces e23 = L1 := by
    rw [h8]; show upd g7.eFaces e14 _ e23 = _; rw [upd_ne _ _ c.x3, h7]; show upd g6.eFaces e13 _ e23 = _
    rw [upd_ne _ _ c.c.ed3.symm, q23]
  have h8e24 : g8.eFaces e24 = L2 := by
    rw [h8]; show upd g7.eFaces e14 _ e24 = _; rw [upd_ne _ _ c.d.ed3.symm, q24']
  have h8fe : ∀ k ∈ g.faces, k ∉ [f, h] → g8.fEdges k = g.fEdges k ++ (if e23 ∈ g.fEdges k then [e13] else []) ++
      if e24 ∈ g.fEdges k then [e14] else [] := by
    intro k hk hkd
    rw [h8]; show (if k ∈ L2 then g7.fEdges k ++ [e14] else g7.fEdges k) = _
    have h1 : g7.fEdges k = g.fEdges k ++ if e23 ∈ g.fEdges k then [e13] else [] := by
      rw [h7]; show (if k ∈ L1 then g6.fEdges k ++ [e13] else g6.fEdges k) = _
      rw [h6fe k hk hkd]
      by_cases h2 : e23 ∈ g.fEdges k
      · rw [if_pos ((memL1 k).2 ⟨hk, h2, hkd⟩), if_pos h2]
      · rw [if_neg (fun hh => h2 ((memL1 k).1 hh).2.1), if_neg h2, List.append_nil]
    rw [h1]
    by_cases h2 : e24 ∈ g.fEdges k
    · rw [if_pos ((memL2 k).2 ⟨hk, h2, hkd⟩), if_pos h2]
    · rw [if_neg (fun hh => h2 ((memL2 k).1 hh).2.1), if_neg h2, List.append_nil]
  obtain ⟨g9, h9⟩ : ∃ g9 : Grid F R, g9 = { g8 with
      nEdges := fun n => if n ∈ g8.eNodes e23 then (g8.nEdges n).erase e23 else g8.nEdges n
      fEdges := fun f => if f ∈ g8.eFaces e23 then (g8.fEdges f).erase e23 else g8.fEdges f
      zEdges := g8.zones.foldl (dropFrom e23) g8.zEdges
      edges := g8.edges.erase e23 } := ⟨_, rfl⟩
  have r9 : g8.delEdge e23 = .ok g9 := by
    obtain ⟨l1, l2, l3⟩ := m.edge_nodes e23 c.c.mem.2
    rw [delEdge_eq, h9]
    · rw [h8n]; exact l1
    · rw [h8n]; exact l2
    · intro n hn'
      rw [h8n] at hn'
      rw [h8ne n (l3 n hn'), mem_without, m.node_edge n (l3 n hn')]
      exact ⟨⟨c.c.mem.2, hn'⟩, by simpa using c.c.ed2.symm⟩
    · rw [h8e23, hL1]; exact nodup_without (m.edge_faces e23 c.c.mem.2).2 _
    · intro k hk
      rw [h8e23] at hk
      obtain ⟨k1, k2, k3⟩ := (memL1 k).1 hk
      rw [h8fe k k1 k3]; simp [k2]
    · rw [h8ed, mem_without]; exact ⟨c.c.mem.2, by simpa using c.c.ed2.symm⟩
  have h9n : g9.eNodes = g.eNodes := by rw [h9]; exact h8n
  have h9ne : ∀ n ∈ g.nodes, g9.nEdges n = without (g.nEdges n) [e, e23] := by
    intro n hn'
    rw [h9]; show (if n ∈ g8.eNodes e23 then (g8.nEdges n).erase e23 else g8.nEdges n) = _
    rw [h8n, h8ne n hn', show [e, e23] = [e] ++ [e23] from rfl]
    split
    · exact erase_without (m.node_edges_nodup n hn')
    · next hh => exact (without_not_mem (fun h' => hh ((m.node_edge n hn' e23).1 h').2)).symm
  have h9ed : g9.edges = without g.edges [e, e23] := by
    rw [h9]; show g8.edges.erase e23 = _
    rw [h8ed, erase_without m.edges_nodup]; rfl
  have h9e24 : g9.eFaces e24 = L2 := by rw [h9]; exact h8e24
  have h9fe : ∀ k ∈ g.faces, k ∉ [f, h] → g9.fEdges k = (g.fEdges k).erase e23 ++ (if e23 ∈ g.fEdges k then [e13] else []) ++
      if e24 ∈ g.fEdges k then [e14] else [] := by
    intro k hk hkd
    rw [h9]; show (if k ∈ g8.eFaces e23 then (g8.fEdges k).erase e23 else g8.fEdges k) = _
    rw [h8e23, h8fe k hk hkd]
    by_cases h2 : e23 ∈ g.fEdges k
    · rw [if_pos ((memL1 k).2 ⟨hk, h2, hkd⟩), List.append_assoc, List.erase_append_left _ h2, List.append_assoc]
    · rw [if_neg (fun hh => h2 ((memL1 k).1 hh).2.1), List.erase_of_not_mem h2]
  obtain ⟨g10, h10⟩ : ∃ g10 : Grid F R, g10 = { g9 with
      nEdges := fun n => if n ∈ g9.eNodes e24 then (g9.nEdges n).erase e24 else g9.nEdges n
      fEdges := fun f => if f ∈ g9.eFaces e24 then (g9.fEdges f).erase e24 else g9.fEdges f
      zEdges := g9.zones.foldl (dropFrom e24) g9.zEdges
      edges := g9.edges.erase e24 } := ⟨_, rfl⟩
  have hde : e24 ∉ [e, e23] := by simp [c.d.ed2.symm, c.x4.symm]
  have r10 : g9.delEdge e24 = .ok g10 := by
    obtain ⟨l1, l2, l3⟩ := m.edge_nodes e24 c.d.mem.2
    rw [delEdge_eq, h10]
    · rw [h9n]; exact l1
    · rw [h9n]; exact l2
    · intro n hn'
      rw [h9n] at hn'
      rw [h9ne n (l3 n hn'), mem_without, m.node_edge n (l3 n hn')]
      exact ⟨⟨c.d.mem.2, hn'⟩, hde⟩
    · rw [h9e24, hL2]; exact nodup_without (m.edge_faces e24 c.d.mem.2).2 _
    · intro k hk
      rw [h9e24] at hk
      obtain ⟨k1, k2, k3⟩ := (memL2 k).1 hk
      rw [h9fe k k1 k3]
      simp [(List.mem_erase_of_ne c.x4.symm).2 k2]
    · rw [h9ed, mem_without]; exact ⟨c.d.mem.2, hde⟩
  have h10n : g10.eNodes = g.eNodes := by rw [h10]; exact h9n
  have h10ne : ∀ n ∈ g.nodes, g10.nEdges n = without (g.nEdges n) [e, e23, e24] := by
    intro n hn'
    rw [h10]; show (if n ∈ g9.eNodes e24 then (g9.nEdges n).erase e24 else g9.nEdges n) = _
    rw [h9n, h9ne n hn', show [e, e23, e24] = [e, e23] ++ [e24] from rfl]
    split
    · exact erase_without (m.node_edges_nodup n hn')
    · next hh => exact (without_not_mem (fun h' => hh ((m.node_edge n hn' e24).1 h').2)).symm
  have h10ed : g10.edges = without g.edges [e, e23, e24] := by
    rw [h10]; show g9.edges.erase e24 = _
    rw [h9ed, erase_without m.edges_nodup]; rfl
  have h10fe : ∀ k ∈ g.faces, k ∉ [f, h] → g10.fEdges k = without (g.fEdges k) [e, e23, e24] ++
      (if e23 ∈ g.fEdges k then [e13] else []) ++ if e24 ∈ g.fEdges k then [e14] else [] := by
    intro k hk hkd
    have hw : without (g.fEdges k) [e, e23, e24] = ((g.fEdges k).erase e23).erase e24 := by
      have nd := (m.face_edges k hk).2.1
      rw [show [e, e23, e24] = [e, e23] ++ [e24] from rfl, ← erase_without nd,
        show [e, e23] = [e] ++ [e23] from rfl, ← erase_without nd]
      congr 2
      unfold without
      rw [List.filter_eq_self]
      intro x hx
      simp only [decide_eq_true_eq, List.mem_singleton]
      rintro rfl
      have := (m.edge_face x he k).2 ⟨hk, hx⟩
      rw [hf] at this
      exact hkd this
    rw [hw, h10]; show (if k ∈ g9.eFaces e24 then (g9.fEdges k).erase e24 else g9.fEdges k) = _
    rw [h9e24, h9fe k hk hkd]
    by_cases h2 : e24 ∈ g.fEdges k
    · rw [if_pos ((memL2 k).2 ⟨hk, h2, hkd⟩), List.append_assoc,
        List.erase_append_left _ ((List.mem_erase_of_ne c.x4.symm).2 h2), List.append_assoc]
    · rw [if_neg (fun hh => h2 ((memL2 k).1 hh).2.1), List.erase_of_not_mem (fun hh => h2 (List.mem_of_mem_erase hh))]
  have h10nf : ∀ n ∈ g.nodes, g10.nFaces n = without (g.nFaces n) [f, h] := by
    intro n hn'; rw [h10, h9, h8, h7, h6, h5, h4]; exact d.nFaces n hn'
  have h10fn : g10.fNodes = g.fNodes := by rw [h10, h9, h8, h7, h6, h5, h4]; exact d.fNodes
  have h10k : g10.nKey = upd g.nKey n1 (rc p) := by rw [h10, h9, h8, h7, h6, h5, h4]
  have key2 : ∀ k ∈ g.nodes, upd g.nKey n1 (rc p) k = upd g.nKey n1 (rc p) n2 → k = n2 := by
    intro k hk
    rw [upd_ne _ _ hn12.symm]
    by_cases h1 : k = n1
    · subst h1; rw [upd_self]; intro h2; exact absurd h2.symm (knew n2 hn2)
    · rw [upd_ne _ _ h1]; exact G.merged.inj k hk n2 hn2
  have key1 : upd g.nKey n1 (rc p) n1 ≠ upd g.nKey n1 (rc p) n2 := by
    intro hh; exact hn12 (key2 n1 hn1 hh)
  obtain ⟨g11, h11⟩ : ∃ g11 : Grid F R, g11 = { g10 with
      nEdges := upd g10.nEdges n1 (g10.nEdges n1 ++ g10.nEdges n2)
      nFaces := upd g10.nFaces n1 (g10.nFaces n1 ++ g10.nFaces n2)
      eNodes := fun o => if o ∈ g10.nEdges n2 then (g.eNodes o).erase n2 ++ [n1] else g.eNodes o
      fNodes := fun o => if o ∈ g10.nFaces n2 then (g.fNodes o).erase n2 ++ [n1] else g.fNodes o } := ⟨_, rfl⟩
  have mE : ∀ x, x ∈ g10.nEdges n2 ↔ x ∈ g.edges ∧ n2 ∈ g.eNodes x ∧ x ∉ [e, e23, e24] := by
    intro x; rw [h10ne n2 hn2, mem_without, m.node_edge n2 hn2, and_assoc]
  have mF : ∀ k, k ∈ g10.nFaces n2 ↔ k ∈ g.faces ∧ n2 ∈ g.fNodes k ∧ k ∉ [f, h] := by
    intro x; rw [h10nf n2 hn2, mem_without, m.node_face n2 hn2, and_assoc]
  have r11 : g10.replacingNode n2 n1 = .ok g11 := by
    unfold replacingNode
    simp only [upd_ne _ _ hn12.symm]
    rw [h10n, h10fn, h10k, swapNode_fold, res_bind_ok, swapNode_fold, res_bind_ok, h11, h10k]
    · rw [h10nf n2 hn2]; exact nodup_without (m.node_faces_nodup n2 hn2) _
    · intro o ho
      obtain ⟨o1, o2, _⟩ := (mF o).1 ho
      exact ⟨o2, fun k hk => key2 k ((m.face_nodes o o1).2.2 k hk)⟩
    · rw [h10ne n2 hn2]; exact nodup_without (m.node_edges_nodup n2 hn2) _
    · intro o ho
      obtain ⟨o1, o2, _⟩ := (mE o).1 ho
      exact ⟨o2, fun k hk => key2 k ((m.edge_nodes o o1).2.2 k hk)⟩
  -- removal of the node
  obtain ⟨k0, rest, hk0⟩ : ∃ k0 rest, g10.nFaces n2 = k0 :: rest := by
    obtain ⟨k, k1, k2, k3⟩ := C.third
    rw [hf] at k2
    exact List.exists_cons_of_ne_nil (List.ne_nil_of_mem ((mF k).2 ⟨k1, k3, k2⟩))
  obtain ⟨k0f, k0n, k0d⟩ := (mF k0).1 (by rw [hk0]; simp)
  obtain ⟨z, hz, hzf, hzz⟩ := zone_of G.zones k0f
  have hlist := C.listed k0 k0f (by rw [hf]; exact k0d) k0n z hzz
  obtain ⟨g12, h12⟩ : ∃ g12 : Grid F R, g12 = { g11 with
      zNodes := upd g.zNodes z ((g.zNodes z).eraseP (fun k => decide (upd g.nKey n1 (rc p) k = upd g.nKey n1 (rc p) n2)))
      nodes := g.nodes.erase n2
      bag := (g.bag.filter (fun k => decide (k ≠ g.nKey n1)) ++ [rc p]).filter (fun k => decide (k ≠ g.nKey n2)) } := ⟨_, rfl⟩
  have h11ne : g11.nEdges n2 = g10.nEdges n2 := by rw [h11]; exact upd_ne _ _ hn12.symm
  have h11nf : g11.nFaces n2 = g10.nFaces n2 := by rw [h11]; exact upd_ne _ _ hn12.symm
  have h11k : g11.nKey = upd g.nKey n1 (rc p) := by rw [h11]; exact h10k
  have h11z : g11.zNodes = g.zNodes := by rw [h11, h10, h9, h8, h7, h6, h5, h4]; exact d.zNodes
  have h11no : g11.nodes = g.nodes := by rw [h11, h10, h9, h8, h7, h6, h5, h4]; exact d.nodes
  have h11b : g11.bag = g.bag.filter (fun k => decide (k ≠ g.nKey n1)) ++ [rc p] := by rw [h11, h10, h9, h8, h7, h6, h5, h4]
  have h11fz : g11.fZone = g.fZone := by rw [h11, h10, h9, h8, h7, h6, h5, h4]; exact d.fZone
  have no1 : (g11.nEdges n2).foldl (dropNodeFrom g11.nKey n2) g11.eNodes = g11.eNodes := by
    refine dropNodeFrom_noop _ _ _ _ ?_
    intro o ho k hk
    rw [h11ne] at ho
    obtain ⟨o1, o2, o3⟩ := (mE o).1 ho
    rw [h11] at hk
    change k ∈ (if o ∈ g10.nEdges n2 then (g.eNodes o).erase n2 ++ [n1] else g.eNodes o) at hk
    rw [if_pos ho, List.mem_append, List.mem_singleton] at hk
    rw [h11k]
    rcases hk with hk | rfl
    · intro hh
      have := key2 k ((m.edge_nodes o o1).2.2 k (List.mem_of_mem_erase hk)) hh
      subst this
      exact (m.edge_nodes o o1).2.1.not_mem_erase hk
    · exact key1
  have no2 : (g11.nFaces n2).foldl (dropNodeFrom g11.nKey n2) g11.fNodes = g11.fNodes := by
    refine dropNodeFrom_noop _ _ _ _ ?_
    intro o ho k hk
    rw [h11nf] at ho
    obtain ⟨o1, o2, o3⟩ := (mF o).1 ho
    rw [h11] at hk
    change k ∈ (if o ∈ g10.nFaces n2 then (g.fNodes o).erase n2 ++ [n1] else g.fNodes o) at hk
    rw [if_pos ho, List.mem_append, List.mem_singleton] at hk
    rw [h11k]
    rcases hk with hk | rfl
    · intro hh
      have := key2 k ((m.face_nodes o o1).2.2 k (List.mem_of_mem_erase hk)) hh
      subst this
      exact (m.face_nodes o o1).2.1.not_mem_erase hk
    · exact key1
  have hk2 : upd g.nKey n1 (rc p) n2 = g.nKey n2 := upd_ne _ _ hn12.symm
  have r12 : g11.delNode n2 = .ok g12 := by
    unfold delNode
    simp only [no1, no2]
    rw [h11nf, hk0]
    show (match g11.fZone k0 with | none => _ | some z => _) = _
    rw [h11fz, hzz, h11k, h11z]
    simp only
    unfold Py.removeBy
    rw [if_pos (List.any_eq_true.2 ⟨n2, hlist, by simp⟩), res_bind_ok]
    rw [h11no, if_pos (List.any_eq_true.2 ⟨n2, hn2, by simp⟩), res_bind_ok, erasekey key2]
    simp only [h11b, hk2]
    have hb : g.nKey n2 ∈ g.bag.filter (fun k => decide (k ≠ g.nKey n1)) ++ [rc p] := by
      rw [List.mem_append, List.mem_filter]
      refine Or.inl ⟨(G.merged.bag _).2 ⟨n2, hn2, rfl⟩, ?_⟩
      simp only [decide_eq_true_eq]
      intro hh; exact hn12 (G.merged.inj n2 hn2 n1 hn1 hh).symm
    rw [if_pos hb, h12, hk2, h11fz, h11k]
  refine ⟨g12, ?_, ?_, ?_, ?_, ?_⟩
  · have up : g12.eFaces = g8.eFaces ∧ g12.zFaces = g3.zFaces ∧ g12.faces = g3.faces := by
      rw [h12, h11, h10, h9]; refine ⟨rfl, ?_⟩; rw [h8, h7, h6, h5, h4]; exact ⟨rfl, rfl⟩
    refine { nodes := by rw [h12], edges := by rw [h12, h11]; exact h10ed, faces := by rw [up.2.2]; exact d.faces,
             nP := by rw [h12, h11, h10, h9, h8, h7, h6, h5, h4], nKey := by rw [h12]; exact h11k,
             bag := ?_, nEdges := ?_, nFaces := ?_, eNodes := ?_, fNodes := ?_, eFaces := ?_, fEdges := ?_,
             zFaces := by rw [up.2.1]; exact d.zFaces, zEdges := ?_, zNodes := ?_,
             name := by rw [h12, h11, h10, h9, h8, h7, h6, h5, h4]; exact d.name,
             zones := by rw [h12, h11, h10, h9, h8, h7, h6, h5, h4]; exact d.zones,
             fData := by rw [h12, h11, h10, h9, h8, h7, h6, h5, h4]; exact d.fData,
             fZone := by rw [h12]; exact h11fz,
             zId := by rw [h12, h11, h10, h9, h8, h7, h6, h5, h4]; exact d.zId,
             zName := by rw [h12, h11, h10, h9, h8, h7, h6, h5, h4]; exact d.zName,
             zFixed := by rw [h12, h11, h10, h9, h8, h7, h6, h5, h4]; exact d.zFixed,
             nNext := by rw [h12, h11, h10, h9, h8, h7, h6, h5, h4]; exact d.nNext,
             eNext := by rw [h12, h11, h10, h9, h8, h7, h6, h5, h4]; exact d.eNext,
             fNext := by rw [h12, h11, h10, h9, h8, h7, h6, h5, h4]; exact d.fNext,
             zNext := by rw [h12, h11, h10, h9, h8, h7, h6, h5, h4]; exact d.zNext }
    · intro k
      rw [h12]
      simp only [List.mem_filter, List.mem_append, List.mem_singleton, decide_eq_true_eq]
      tauto
    · intro n hn' hne
      rw [h12, h11]
      show upd g10.nEdges n1 (g10.nEdges n1 ++ g10.nEdges n2) n = _
      by_cases h1 : n = n1
      · subst h1; rw [upd_self, if_pos rfl, h10ne n hn', h10ne n2 hn2]
      · rw [upd_ne _ _ h1, if_neg h1, List.append_nil, h10ne n hn']
    · intro n hn' hne
      rw [h12, h11]
      show upd g10.nFaces n1 (g10.nFaces n1 ++ g10.nFaces n2) n = _
      by_cases h1 : n = n1
      · subst h1; rw [upd_self, if_pos rfl, h10nf n hn', h10nf n2 hn2]
      · rw [upd_ne _ _ h1, if_neg h1, List.append_nil, h10nf n hn']
    · intro x hx hxd
      rw [h12, h11]
      show (if x ∈ g10.nEdges n2 then _ else _) = _
      by_cases h1 : n2 ∈ g.eNodes x
      · rw [if_pos ((mE x).2 ⟨hx, h1, hxd⟩), if_pos h1]
      · rw [if_neg (fun hh => h1 ((mE x).1 hh).2.1), if_neg h1]
    · intro x hx hxd
      rw [h12, h11]
      show (if x ∈ g10.nFaces n2 then _ else _) = _
      by_cases h1 : n2 ∈ g.fNodes x
      · rw [if_pos ((mF x).2 ⟨hx, h1, hxd⟩), if_pos h1]
      · rw [if_neg (fun hh => h1 ((mF x).1 hh).2.1), if_neg h1]
    · intro x hx hxd
      have hxe : x ≠ e := by rintro rfl; simp at hxd
      rw [up.1, h8]
      show upd g7.eFaces e14 _ x = _
      by_cases h1 : x = e14
      · subst h1
        rw [upd_self, if_neg c.x1.symm, if_pos rfl, q14', hL2]
      · rw [upd_ne _ _ h1, if_neg h1, h7]
        show upd g6.eFaces e13 _ x = _
        by_cases h2 : x = e13
        · subst h2
          rw [upd_self, if_pos rfl, q13, hL1]
        · rw [upd_ne _ _ h2, if_neg h2, List.append_nil, h6ef x hx hxe]
    · intro k hk hkd
      rw [h12, h11]
      exact h10fe k hk hkd
    · intro w hw
      have zz : g8.zones = g.zones := by rw [h8, h7, h6, h5, h4]; exact d.zones
      have ze : g8.zEdges = g3.zEdges := by rw [h8, h7, h6, h5, h4]
      have hz9 : g9.zones = g.zones := by rw [h9]; exact zz
      have hz9e : g9.zEdges = g.zones.foldl (dropFrom e23) g3.zEdges := by rw [h9, ← zz, ← ze]
      have hz10e : g12.zEdges = g.zones.foldl (dropFrom e24) (g.zones.foldl (dropFrom e23) g3.zEdges) := by
        rw [h12, h11, h10, ← hz9e, ← hz9]
      rw [hz10e, dropFrom_fold _ _ _ G.zones.zones_nodup, if_pos hw, dropFrom_fold _ _ _ G.zones.zones_nodup, if_pos hw, d.zEdges w hw]
      rfl
    · refine ⟨k0, k0f, k0d, k0n, z, hzz, ?_⟩
      have : g12.nKey = upd g.nKey n1 (rc p) := by rw [h12]; exact h11k
      rw [this, h12]
  · rw [h12, h11, h10, h9, h8, h7, h6, h5, h4]; exact d.fGlo
  · rw [h12, h11, h10, h9, h8, h7, h6, h5, h4]; exact d.eGlo
  · rw [h12, h11, h10, h9, h8, h7, h6, h5, h4]; exact d.nGlo
  · unfold collapseInner
    rw [hf]
    simp only [show Py.get [f, h] 0 = .ok f from rfl, show Py.get [f, h] 1 = .ok h from rfl, res_bind_ok, ra, rb', rb]
    have q1 : Py.get (g3.eNodes e) 0 = .ok n1 := by rw [d.eNodes, hn]; rfl
    have q2 : Py.get (g3.eNodes e) 1 = .ok n2 := by rw [d.eNodes, hn]; rfl
    have h4' : g4 = { g3 with
        nP := upd g3.nP n1 (mid (g3.nP n1) (g3.nP n2))
        nKey := upd g3.nKey n1 (rc (mid (g3.nP n1) (g3.nP n2)))
        bag := g3.bag.filter (fun k => decide (k ≠ g3.nKey n1)) ++ [rc (mid (g3.nP n1) (g3.nP n2))] } := by
      rw [h4, d.nP, d.nKey, d.bag, ← hp]
    simp only [q1, q2, res_bind_ok]
    rw [if_neg (by rw [d.nKey, d.bag]; simpa using kbag),
      if_neg (by rw [d.nKey, d.bag, d.nP, ← hp]; exact fun hh => knb (List.mem_of_mem_filter hh)), ← h4']
    simp only [r5, e1r, r6, e2r, r7, r8, r9, r10, r11, r12, res_bind_ok]

end Grid
end Verif
