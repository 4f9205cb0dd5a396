import Verif.Model.Shrink
import Verif.Proofs.Stream2
import Verif.Proofs.Collapse2

/-! `collapse_edge` with the grid it leaves behind. -/

namespace Verif
open Grid
variable {F R : Type}

/-! ## The two models agree -/

theorem delFace_plain (g : Grid F R) (f : Nat) : (g.delFaceX f).plain = g.delFace f := by
  unfold delFaceX delFace
  simp only
  cases g.fZone f with
  | none => rfl
  | some z => simp only [plain_bind, plain_here, plain_ok]

theorem delEdge_plain (g : Grid F R) (e : Nat) : (g.delEdgeX e).plain = g.delEdge e := by
  unfold delEdgeX delEdge
  simp only [plain_bind, plain_here, plain_ok, plain_foldlM _ (faceDropEdge e) (fun s a => plain_here s _)]

variable [DecidableEq R]

theorem delNode_plain (g : Grid F R) (n : Nat) : (g.delNodeX n).plain = g.delNode n := by
  unfold delNodeX delNode
  simp only [plain_bind, plain_here]
  congr 1
  funext f
  cases g.fZone f with
  | none => rfl
  | some z => simp only [plain_bind, plain_here, plain_ite, plain_ok, plain_error]

theorem swapEdges_plain (s n : Nat) (l : List Nat) (g : Grid F R) :
    (l.foldlM (swapEdgeX s n) g).plain = (l.foldlM (swapNode g.nKey s n) g.eNodes >>= fun m => .ok { g with eNodes := m }) := by
  induction l generalizing g with
  | nil => rfl
  | cons a l ih =>
    rw [List.foldlM_cons, List.foldlM_cons, plain_bind]
    unfold swapEdgeX
    simp only [plain_bind, plain_here, plain_ok]
    cases swapNode g.nKey s n g.eNodes a with
    | error e => rfl
    | ok m => exact ih { g with eNodes := m }

theorem swapFaces_plain (s n : Nat) (l : List Nat) (g : Grid F R) :
    (l.foldlM (swapFaceX s n) g).plain = (l.foldlM (swapNode g.nKey s n) g.fNodes >>= fun m => .ok { g with fNodes := m }) := by
  induction l generalizing g with
  | nil => rfl
  | cons a l ih =>
    rw [List.foldlM_cons, List.foldlM_cons, plain_bind]
    unfold swapFaceX
    simp only [plain_bind, plain_here, plain_ok]
    cases swapNode g.nKey s n g.fNodes a with
    | error e => rfl
    | ok m => exact ih { g with fNodes := m }

theorem replacing_plain (g : Grid F R) (s n : Nat) : (g.replacingNodeX s n).plain = g.replacingNode s n := by
  unfold replacingNodeX replacingNode
  simp only [plain_bind, swapEdges_plain, swapFaces_plain]
  cases List.foldlM (swapNode g.nKey s n) g.eNodes (upd g.nEdges n (g.nEdges n ++ g.nEdges s) s) with
  | error e => rfl
  | ok m => rfl

theorem collapse_plain (rc : Vec F → R) (mid : Vec F → Vec F → Vec F) (g : Grid F R) (e : Nat) :
    (g.collapseEdgeX rc mid e).plain = g.collapseEdge rc mid e := by
  unfold collapseEdgeX collapseEdge
  rw [plain_ite, plain_bind]
  unfold collapseInnerX collapseInner
  simp only [plain_bind, plain_here, plain_ok, delFace_plain, delEdge_plain, delNode_plain, replacing_plain, plain_ite, plain_error]

/-! ## What is left -/

theorem ok_of_plain {α : Type} {x : Left F R α} {a : α} (h : x.plain = .ok a) : x = .ok a := by
  cases x with
  | ok b => exact congrArg _ (Except.ok.inj h)
  | error e => cases h

/-- The faces are the list `l`, the edge `e` is gone, `n` has the faces `k`. -/
structure Half (l : List Nat) (e n : Nat) (k : List Nat) (g : Grid F R) : Prop where
  faces : g.faces = l
  edge : e ∉ g.edges
  at_node : g.nFaces n = k

variable {l k : List Nat} {e n : Nat}

theorem half_faceDrop {g g' : Grid F R} {a f : Nat} (h : Half l e n k g) (r : faceDropEdge a g f = .ok g') : Half l e n k g' := by
  unfold faceDropEdge at r
  obtain ⟨m, -, r⟩ := res_bind_eq_ok.1 r
  obtain rfl := Except.ok.inj r
  exact ⟨h.faces, h.edge, h.at_node⟩

theorem half_dropAt {g g' : Grid F R} {a : Nat} {i : Int} (h : Half l e n k g) (r : dropEdgeAt g a i = .ok g') : Half l e n k g' := by
  unfold dropEdgeAt at r
  obtain ⟨m, -, r⟩ := res_bind_eq_ok.1 r
  obtain ⟨m', -, r⟩ := res_bind_eq_ok.1 r
  obtain rfl := Except.ok.inj r
  exact ⟨h.faces, h.edge, h.at_node⟩

theorem half_relink {g g' : Grid F R} {f a x : Nat} (h : Half l e n k g) (r : g.relink f a x = .ok g') : Half l e n k g' := by
  unfold relink at r
  split at r
  · obtain rfl := Except.ok.inj r; exact h
  · obtain ⟨m, -, r⟩ := res_bind_eq_ok.1 r
    unfold linkEdgeFace at r
    split at r
    · cases r
    · obtain rfl := Except.ok.inj r
      exact ⟨h.faces, h.edge, h.at_node⟩

theorem half_delEdge {g : Grid F R} {x : Nat} (h : Half l e n k g) : Leaves (Half l e n k) (Half l e n k) (g.delEdgeX x) := by
  unfold delEdgeX
  refine Leaves.bind_here h (fun g1 r1 => ?_)
  have h1 := half_dropAt h r1
  refine Leaves.bind_here h1 (fun g2 r2 => ?_)
  have h2 := half_dropAt h1 r2
  refine Leaves.bind (P := Half l e n k) ?_ (fun g3 h3 => ?_)
  · exact Leaves.foldlM (fun _ => Half l e n k) h2 (fun _ a s _ hs => Leaves.here hs (fun s' r => half_faceDrop hs r))
  · have h4 : Half l e n k { g3 with zEdges := g3.zones.foldl (dropFrom x) g3.zEdges } := ⟨h3.faces, h3.edge, h3.at_node⟩
    refine Leaves.bind_here h4 (fun l' r => ?_)
    refine ⟨h3.faces, fun hc => h3.edge ?_, h3.at_node⟩
    unfold Py.remove at r
    split at r
    · obtain rfl := Except.ok.inj r
      exact List.mem_of_mem_erase hc
    · cases r

theorem half_replacing {g : Grid F R} {s t : Nat} (h : Half l e n k g) (hnt : n ≠ t) :
    Leaves (Half l e n k) (Half l e n k) (g.replacingNodeX s t) := by
  unfold replacingNodeX
  simp only
  have h0 : Half l e n k { g with nEdges := upd g.nEdges t (g.nEdges t ++ g.nEdges s), nFaces := upd g.nFaces t (g.nFaces t ++ g.nFaces s) } :=
    ⟨h.faces, h.edge, by show upd _ _ _ n = _; rw [upd_ne _ _ hnt]; exact h.at_node⟩
  refine Leaves.bind (P := Half l e n k) ?_ (fun g1 h1 => ?_)
  · refine Leaves.foldlM (fun _ => Half l e n k) h0 (fun _ a s' _ hs => ?_)
    unfold swapEdgeX
    exact Leaves.bind_here hs (fun m _ => ⟨hs.faces, hs.edge, hs.at_node⟩)
  · refine Leaves.foldlM (fun _ => Half l e n k) h1 (fun _ a s' _ hs => ?_)
    unfold swapFaceX
    exact Leaves.bind_here hs (fun m _ => ⟨hs.faces, hs.edge, hs.at_node⟩)

theorem half_delNode {g : Grid F R} {m : Nat} (h : Half l e n k g) :
    Leaves (Half l e n k) (fun g' => Half l e n k g' ∧ g.nFaces m ≠ []) (g.delNodeX m) := by
  unfold delNodeX
  simp only
  refine Leaves.bind_here ⟨h.faces, h.edge, h.at_node⟩ (fun f rf => ?_)
  have hne : g.nFaces m ≠ [] := by
    intro hc
    rw [hc] at rf
    cases rf
  cases hz : g.fZone f with
  | none => exact ⟨h.faces, h.edge, h.at_node⟩
  | some z =>
    refine Leaves.bind_here ⟨h.faces, h.edge, h.at_node⟩ (fun l1 _ => ?_)
    refine Leaves.bind_here ⟨h.faces, h.edge, h.at_node⟩ (fun l2 _ => ?_)
    split
    · exact ⟨⟨h.faces, h.edge, h.at_node⟩, hne⟩
    · exact ⟨h.faces, h.edge, h.at_node⟩

theorem collapse_leaves {rc : Vec F → R} (mid : Vec F → Vec F → Vec F) {g : Grid F R} (G : Good rc g) {e f h n1 n2 : Nat}
    (he : e ∈ g.edges) (hf : g.eFaces e = [f, h]) (hn : g.eNodes e = [n1, n2]) :
    Leaves (Half (without g.faces [f, h]) e n2 (without (g.nFaces n2) [f, h])) (fun _ => without (g.nFaces n2) [f, h] ≠ [])
      (g.collapseInnerX rc mid e) := by
  have m := G.mesh
  have hff : f ∈ g.faces := ((m.edge_face e he f).1 (by simp [hf])).1
  have hhf : h ∈ g.faces := ((m.edge_face e he h).1 (by simp [hf])).1
  have hnd := (m.edge_faces e he).2
  rw [hf] at hnd
  have hfh : f ≠ h := by simpa using hnd
  obtain ⟨-, e2, e3⟩ := m.edge_nodes e he
  rw [hn] at e2 e3
  have h12 : n1 ≠ n2 := by simpa using e2
  obtain ⟨ga, ra, da, fa⟩ := (Deleted.refl g).face m G.zones hff (by simp)
  obtain ⟨gb, rb, db, fb⟩ := da.face m G.zones hhf (by simpa using hfh.symm)
  obtain ⟨g3, rd, d, -, -⟩ := db.edge m G.zones.zones_nodup he (by simp) hn
  simp only [List.nil_append, List.cons_append] at d
  have h3 : Half (without g.faces [f, h]) e n2 (without (g.nFaces n2) [f, h]) g3 :=
    ⟨d.faces, by rw [d.edges, mem_without]; simp, d.nFaces n2 (e3 n2 (by simp))⟩
  generalize without g.faces [f, h] = l at *
  generalize without (g.nFaces n2) [f, h] = k at *
  unfold collapseInnerX
  rw [hf, show g.here (Py.get [f, h] 0) = .ok f from rfl, left_bind_ok, show g.here (Py.get [f, h] 1) = .ok h from rfl, left_bind_ok,
    ok_of_plain ((delFace_plain _ _).trans ra), left_bind_ok, ok_of_plain ((delFace_plain _ _).trans rb), left_bind_ok,
    ok_of_plain ((delEdge_plain _ _).trans rd), left_bind_ok, d.eNodes, hn, show g3.here (Py.get [n1, n2] 0) = .ok n1 from rfl,
    left_bind_ok, show g3.here (Py.get [n1, n2] 1) = .ok n2 from rfl, left_bind_ok]
  split
  · exact h3
  simp only
  refine Leaves.bind_here ⟨h3.faces, h3.edge, h3.at_node⟩ (fun g5 r => ?_)
  have i5 : Half l e n2 k g5 := by
    refine half_faceDrop ?_ r
    exact ⟨h3.faces, h3.edge, h3.at_node⟩
  refine Leaves.bind_here i5 (fun e1 _ => ?_)
  refine Leaves.bind_here i5 (fun g6 r => ?_)
  have i6 := half_faceDrop i5 r
  refine Leaves.bind_here i6 (fun e2 _ => ?_)
  refine Leaves.bind_here i6 (fun g7 r => ?_)
  have i7 := half_relink i6 r
  refine Leaves.bind_here i7 (fun g8 r => ?_)
  have i8 := half_relink i7 r
  refine Leaves.bind (half_delEdge i8) (fun g9 i9 => ?_)
  refine Leaves.bind (half_delEdge i9) (fun ga ia => ?_)
  refine Leaves.bind (half_replacing ia h12.symm) (fun gb ib => ?_)
  refine Leaves.bind (half_delNode ib) (fun gc ic => ?_)
  obtain ⟨ic, hne⟩ := ic
  rw [ib.at_node] at hne
  refine Leaves.bind_here ic (fun fa _ => ?_)
  refine Leaves.bind_here ⟨ic.faces, ic.edge, ic.at_node⟩ (fun fb _ => ?_)
  refine Leaves.bind_here ⟨ic.faces, ic.edge, ic.at_node⟩ (fun ea _ => ?_)
  refine Leaves.bind_here ⟨ic.faces, ic.edge, ic.at_node⟩ (fun eb _ => ?_)
  refine Leaves.bind_here ⟨ic.faces, ic.edge, ic.at_node⟩ (fun ec _ => ?_)
  exact Leaves.bind_here ⟨ic.faces, ic.edge, ic.at_node⟩ (fun na _ => hne)

end Verif
