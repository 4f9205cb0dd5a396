import Verif.Proofs.Refine
import Verif.Spec.Refine

/-! The edges found by `refine`, and what one cut changes. -/

namespace Verif
open Grid
variable {F R : Type}

theorem filterM_ok {α : Type} {f : α → Res Bool} {p : α → Bool} (l : List α) (h : ∀ x ∈ l, f x = .ok (p x)) : l.filterM f = .ok (l.filter p) := by
  have aux : ∀ (l acc : List α), (∀ x ∈ l, f x = .ok (p x)) → l.filterAuxM f acc = .ok ((l.filter p).reverse ++ acc) := by
    intro l
    induction l with
    | nil => intro acc _; rfl
    | cons a l ih =>
      intro acc h
      rw [List.filterAuxM, h a List.mem_cons_self, res_bind_ok, ih _ (fun x hx => h x (List.mem_cons_of_mem _ hx))]
      cases hp : p a <;> simp [hp]
  unfold List.filterM
  rw [aux l [] h, res_bind_ok]
  simp [pure, Except.pure]

theorem Vec.eq_refl [Field F] [LinearOrder F] [IsStrictOrderedRing F] {sqrt : F → F} (h0 : sqrt 0 = 0) (p : Vec F) : p.eq sqrt p = true := by
  have : p.distTo sqrt p = 0 := by simp [Vec.distTo, Vec.mod, Vec.mod2, Vec.dot, Vec.sub, h0]
  simp [Vec.eq, Vec.isNear, this]

section
variable [Field F] [LinearOrder F] [IsStrictOrderedRing F]

theorem nodeEq_iff {sqrt : F → F} {g : Grid F R} (h0 : sqrt 0 = 0) (hd : Distinct sqrt g) {n m : Nat} (hn : n ∈ g.nodes) (hm : m ∈ g.nodes) :
    (g.nP n).eq sqrt (g.nP m) = decide (n = m) := by
  by_cases h : n = m
  · subst h; simp [Vec.eq_refl h0]
  · simp [h, hd n hn m hm h]

theorem get_filter_eq {l : List Nat} {e : Nat} : Py.get (l.filter (fun x => decide (x = e))) 0 = if e ∈ l then .ok e else .error .index := by
  split
  · rename_i h
    have hm : e ∈ l.filter (fun x => decide (x = e)) := by simp [h]
    cases hl : l.filter (fun x => decide (x = e)) with
    | nil => rw [hl] at hm; cases hm
    | cons a t =>
      have : a ∈ l.filter (fun x => decide (x = e)) := by rw [hl]; simp
      have : a = e := by simpa using (List.mem_filter.1 this).2
      subst this; rfl
  · rename_i h
    have : l.filter (fun x => decide (x = e)) = [] := by
      rw [List.filter_eq_nil_iff]; intro a ha; simp; rintro rfl; exact h ha
    rw [this]; rfl

/-- The edge found in a face which may have lost an edge. -/
theorem findSide_eq {rc : Vec F → R} {sqrt : F → F} {g0 g : Grid F R} (G : Good rc g0) (h0 : sqrt 0 = 0) (hd : Distinct sqrt g0) {f e : Nat}
    {n : Vec F × Vec F} (hf : f ∈ g0.faces) (hs : ∀ x ∈ g.fEdges f, x ∈ g0.fEdges f) (hnP : ∀ n ∈ g0.nodes, g.nP n = g0.nP n)
    (hen : ∀ x ∈ g0.edges, g.eNodes x = g0.eNodes x) (h : SideAt g0 f e n) :
    Refine.findSide sqrt g f n = if e ∈ g.fEdges f then .ok e else .error .index := by
  obtain ⟨he, a, b, hab, ha, hb⟩ := h
  have heg := (G.mesh.face_edges f hf).2.2 e he
  have han := (G.mesh.edge_nodes e heg).2.2 a ((hab a).2 (Or.inl rfl))
  have hbn := (G.mesh.edge_nodes e heg).2.2 b ((hab b).2 (Or.inr rfl))
  unfold Refine.findSide
  rw [filterM_ok (p := fun x => decide (x = e)), res_bind_ok, get_filter_eq]
  intro x hx
  have hxg := (G.mesh.face_edges f hf).2.2 x (hs x hx)
  obtain ⟨c, d, hcd⟩ := eNodes_pair G.mesh hxg
  have hcn := (G.mesh.edge_nodes x hxg).2.2 c (by rw [hcd]; simp)
  have hdn := (G.mesh.edge_nodes x hxg).2.2 d (by rw [hcd]; simp)
  unfold Refine.isSide
  rw [hen x hxg, hcd]
  show Except.ok _ = _
  rw [hnP c hcn, hnP d hdn, ← ha, ← hb, nodeEq_iff h0 hd hcn han, nodeEq_iff h0 hd hdn hbn, nodeEq_iff h0 hd hdn han, nodeEq_iff h0 hd hcn hbn]
  congr 1
  by_cases hxe : x = e
  · subst hxe
    have nd := (G.mesh.edge_nodes x hxg).2.1
    have h1 := (hab c).1 (by rw [hcd]; simp)
    have h2 := (hab d).1 (by rw [hcd]; simp)
    have h3 := (hab a).2 (Or.inl rfl)
    have h4 := (hab b).2 (Or.inr rfl)
    rw [hcd] at h3 h4 nd
    simp at h3 h4 nd
    have : (c = a ∧ d = b) ∨ (d = a ∧ c = b) := by
      rcases h1 with h1 | h1 <;> rcases h2 with h2 | h2
      · exact absurd (h1.trans h2.symm) nd
      · exact Or.inl ⟨h1, h2⟩
      · exact Or.inr ⟨h2, h1⟩
      · exact absurd (h1.trans h2.symm) nd
    simpa using this
  · have : ¬ ((c = a ∧ d = b) ∨ (d = a ∧ c = b)) := by
      intro hh
      refine hxe (G.mesh.edge_unique x hxg e heg fun y => ?_)
      rw [hcd, hab]
      simp only [List.mem_cons, List.not_mem_nil, or_false]
      rcases hh with ⟨rfl, rfl⟩ | ⟨rfl, rfl⟩ <;> tauto
    simp only [hxe, decide_false]
    rw [Bool.eq_false_iff]
    simpa using this

end

/-! ### One cut -/

theorem Frame.mono {S S' M M' L L' : Nat → Prop} {e : Nat} {g0 g : Grid F R} (h : Frame S M e L g0 g) (hs : ∀ x, S x → S' x) (hm : ∀ x, M x → M' x)
    (hl : ∀ x, L' x → L x) : Frame S' M' e L' g0 g :=
  ⟨h.nNext, h.eNext, h.fNext, h.nP, h.eNodes, fun x hx n => h.eFaces x hx (fun k => n (hs x k)), h.fEdges,
    fun f hf x hx k => h.kept f hf x hx (k.imp_right fun n w => n (hm f w)), h.fZone, fun f hf k => h.lost f hf (hl f k)⟩

/-- What a cut of the edge `e` of `g` at the points `pts` gives. -/
structure CutDone (rc : Vec F → R) (g g' : Grid F R) (e : Nat) (pts : List (Vec F)) : Prop where
  good : Good rc g'
  keeps : Keeps (g.eFaces e) [e] g g'
  nodes : ∀ n ∈ g'.nodes, n ∈ g.nodes ∨ (g.nNext ≤ n ∧ g'.nP n ∈ pts)
  placed : ∀ p ∈ pts, ∃ n ∈ g'.nodes, g'.nP n = p
  edges : ∀ x < g.eNext, x ∈ g'.edges ↔ x ∈ g.edges ∧ x ≠ e
  faces : ∀ x < g.fNext, x ∈ g'.faces ↔ x ∈ g.faces ∧ x ∉ g.eFaces e
  frame : Frame (fun x => x ≠ e ∧ ∃ k ∈ g.eFaces e, x ∈ g.fEdges k) (fun x => x ∈ g.eFaces e) e (fun x => x ∈ g.eFaces e) g g'
  dead : g'.eFaces e = []

variable [DecidableEq R]

theorem cutDone_of {rc : Vec F → R} {g g' : Grid F R} {e z : Nat} {pts : List (Vec F)} {P : Patch} (o : Outcome P rc z g g') (h1 : P.df = g.eFaces e)
    (h2 : P.de = [e]) (h3 : ∀ n ∈ P.nn, g.nNext ≤ n ∧ g'.nP n ∈ pts) (h3' : ∀ p ∈ pts, ∃ n ∈ P.nn, g'.nP n = p) (h4 : ∀ x ∈ P.en, g.eNext ≤ x)
    (h5 : ∀ x ∈ P.fn, g.fNext ≤ x)
    (fr : Frame (fun x => x ≠ e ∧ ∃ k ∈ g.eFaces e, x ∈ g.fEdges k) (fun x => x ∈ g.eFaces e) e (fun x => x ∈ g.eFaces e) g g')
    (hd : g'.eFaces e = []) : CutDone rc g g' e pts := by
  have s := o.swaps
  have k := o.keeps
  rw [h1, h2] at s k
  refine ⟨o.good, k, fun n hn => ((s.nodes n).1 hn).imp_right (h3 n), fun p hp => ?_, fun x hx => ?_, fun x hx => ?_, fr, hd⟩
  · obtain ⟨n, hn, e⟩ := h3' p hp
    exact ⟨n, (s.nodes n).2 (Or.inr hn), e⟩
  · rw [s.edges]
    constructor
    · rintro (h | h)
      · simpa using h
      · exact absurd (h4 x h) (by omega)
    · exact fun h => Or.inl (by simpa using h)
  · rw [s.faces]
    constructor
    · rintro (h | h)
      · exact h
      · exact absurd (h5 x h) (by omega)
    · exact Or.inl

theorem cut_done {rc : Vec F → R} {g : Grid F R} (G : Good rc g) {e : Nat} {p : Vec F} (he : e ∈ g.edges) (hp : NewPlace rc g p) :
    ∃ g', CutDone rc g g' e [p] ∧ (((g.eFaces e).length = 2 ∧ g.cutEdge rc e p = .ok (g', true)) ∨
      ((g.eFaces e).length = 1 ∧ g.cutSingleEdge rc e p = .ok (g', true))) := by
  obtain ⟨a, b, hn⟩ := eNodes_pair G.mesh he
  have hel := G.alloc.edges e he
  rcases (G.mesh.edge_faces e he).1 with hl | hl
  · obtain ⟨f, hf⟩ := List.length_eq_one_iff.1 hl
    obtain ⟨hfm, hfe⟩ := (G.mesh.edge_face e he f).1 (by simp [hf])
    obtain ⟨z, _, _, hz⟩ := zone_of G.zones hfm
    obtain ⟨P, g2, c, h1, h2, h3, h4, h5, hr, o, hq, -⟩ := cutBorder_outcome G he hf hn hz hp
    obtain ⟨fr, hd⟩ := cutBorder_frame hf (G.alloc.faces f hfm) (G.mesh.face_edges f hfm).2.1 hfe hel hr
    refine ⟨g2, cutDone_of o (h1.trans hf.symm) h2 (by rw [h3]; simp [hq]) (by rw [h3]; simp [hq]) (by rw [h4]; simp) (by rw [h5]; simp) (fr.mono ?_ ?_ ?_) hd,
      Or.inr ⟨hl, ?_⟩⟩
    · rintro x ⟨i, j⟩; exact ⟨i, f, by simp [hf], j⟩
    · rintro x rfl; simp [hf]
    · intro x hx; simpa [hf] using hx
    · unfold cutSingleEdge; rw [if_pos hl, hr]; rfl
  · obtain ⟨f, k, hf⟩ := List.length_eq_two.1 hl
    obtain ⟨hfm, hfe⟩ := (G.mesh.edge_face e he f).1 (by simp [hf])
    obtain ⟨hkm, hke⟩ := (G.mesh.edge_face e he k).1 (by simp [hf])
    have nd := (G.mesh.edge_faces e he).2
    rw [hf] at nd
    obtain ⟨z, _, _, hz⟩ := zone_of G.zones hfm
    obtain ⟨P, g2, c, c', h1, h2, h3, h4, h5, hr, o, hq, -⟩ := cutInner_outcome G he hf hn hz hp
    obtain ⟨fr, hd⟩ := cutInner_frame hf ⟨G.alloc.faces f hfm, G.alloc.faces k hkm⟩ (by simpa using nd)
      ⟨(G.mesh.face_edges f hfm).2.1, (G.mesh.face_edges k hkm).2.1⟩ ⟨hfe, hke⟩ hel hr
    refine ⟨g2, cutDone_of o (h1.trans hf.symm) h2 (by rw [h3]; simp [hq]) (by rw [h3]; simp [hq]) (by rw [h4]; simp) (by rw [h5]; simp) (fr.mono ?_ ?_ ?_) hd,
      Or.inl ⟨hl, ?_⟩⟩
    · rintro x ⟨i, j | j⟩
      · exact ⟨i, f, by simp [hf], j⟩
      · exact ⟨i, k, by simp [hf], j⟩
    · rintro x (rfl | rfl) <;> simp [hf]
    · intro x hx; simpa [hf] using hx
    · unfold cutEdge; rw [if_pos hl, hr]; rfl

theorem cut2_done {rc : Vec F → R} {g : Grid F R} (G : Good rc g) {e : Nat} {p q : Vec F} (he : e ∈ g.edges) (hp : NewPlace rc g p) (hq : NewPlace rc g q)
    (hpq : rc q ≠ rc p) : ∃ g', CutDone rc g g' e [p, q] ∧ g.cutEdgeTwoNodes rc e p q = .ok (g', true) := by
  obtain ⟨a, b, hn⟩ := eNodes_pair G.mesh he
  have hel := G.alloc.edges e he
  rcases (G.mesh.edge_faces e he).1 with hl | hl
  · obtain ⟨f, hf⟩ := List.length_eq_one_iff.1 hl
    obtain ⟨hfm, hfe⟩ := (G.mesh.edge_face e he f).1 (by simp [hf])
    obtain ⟨z, _, _, hz⟩ := zone_of G.zones hfm
    obtain ⟨P, g2, c, h1, h2, h3, h4, h5, hr, o, hq1, hq2, -⟩ := cutBorder2_outcome G he hf hn hz hp hq hpq
    obtain ⟨fr, hd⟩ := cutBorder2_frame hf (G.alloc.faces f hfm) (G.mesh.face_edges f hfm).2.1 hfe hel hr
    refine ⟨g2, cutDone_of o (h1.trans hf.symm) h2 (by rw [h3]; simp [hq1, hq2]) (by rw [h3]; simp [hq1, hq2]) (by rw [h4]; simp) (by rw [h5]; simp)
      (fr.mono ?_ ?_ ?_) hd, ?_⟩
    · rintro x ⟨i, j⟩; exact ⟨i, f, by simp [hf], j⟩
    · rintro x rfl; simp [hf]
    · intro x hx; simpa [hf] using hx
    · unfold cutEdgeTwoNodes; rw [if_pos hl, hr]; rfl
  · obtain ⟨f, k, hf⟩ := List.length_eq_two.1 hl
    obtain ⟨hfm, hfe⟩ := (G.mesh.edge_face e he f).1 (by simp [hf])
    obtain ⟨hkm, hke⟩ := (G.mesh.edge_face e he k).1 (by simp [hf])
    have nd := (G.mesh.edge_faces e he).2
    rw [hf] at nd
    obtain ⟨z, _, _, hz⟩ := zone_of G.zones hfm
    obtain ⟨P, g2, c, c', h1, h2, h3, h4, h5, hr, o, hq1, hq2, -⟩ := cutInner2_outcome G he hf hn hz hp hq hpq
    obtain ⟨fr, hd⟩ := cutInner2_frame hf ⟨G.alloc.faces f hfm, G.alloc.faces k hkm⟩ (by simpa using nd)
      ⟨(G.mesh.face_edges f hfm).2.1, (G.mesh.face_edges k hkm).2.1⟩ ⟨hfe, hke⟩ hel hr
    refine ⟨g2, cutDone_of o (h1.trans hf.symm) h2 (by rw [h3]; simp [hq1, hq2]) (by rw [h3]; simp [hq1, hq2]) (by rw [h4]; simp) (by rw [h5]; simp)
      (fr.mono ?_ ?_ ?_) hd, ?_⟩
    · rintro x ⟨i, j | j⟩
      · exact ⟨i, f, by simp [hf], j⟩
      · exact ⟨i, k, by simp [hf], j⟩
    · rintro x (rfl | rfl) <;> simp [hf]
    · intro x hx; simpa [hf] using hx
    · unfold cutEdgeTwoNodes; rw [if_neg (by omega), if_pos hl, hr]; rfl

end Verif
