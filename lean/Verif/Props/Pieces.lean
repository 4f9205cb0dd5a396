import Verif.Proofs.Pieces2
import Verif.Proofs.ShrinkPieces
import Verif.Props.Collapse

/-! C107: pieces and border of the surface. -/

namespace Verif.Props
open Verif Grid
variable {F R : Type}

/-- Three times the number of faces and the number of edges with one face make twice the number of edges. -/
theorem C107_border_count {g : Grid F R} (m : Mesh g) :
    3 * g.faces.length + borders g = 2 * g.edges.length ∧ (Closed g ↔ borders g = 0) := ⟨borders_count m, closed_iff m⟩

variable [DecidableEq R]

/-- `divide_face`: the new faces are in the piece of the face. -/
theorem C107_divide_face {rc : Vec F → R} {g g' : Grid F R} (G : Good rc g) {f : Nat} {p : Vec F} (hf : f ∈ g.faces)
    (hp : NewPlace rc g p) (h : g.divideFace rc f p = .ok g') :
    ∃ nn en fn, Swaps [f] [] nn en fn g g' ∧ SamePieces [f] fn g g' ∧ pieces g' = pieces g ∧ borders g' = borders g := by
  obtain ⟨nn, en, fn, h1, h2, h3, G'⟩ := divide_pieces G hf hp h
  have hc := (C38_divide_face G hf hp h).1
  have b := borders_count G.mesh
  have b' := borders_count G'.mesh
  unfold counts at hc
  simp only [Prod.mk.injEq] at hc
  exact ⟨nn, en, fn, h1, h2, h3, by omega⟩

/-- `cut_single_edge`: there is one border edge more. -/
theorem C107_cut_single_edge {rc : Vec F → R} {g g' : Grid F R} (G : Good rc g) {e : Nat} {p : Vec F} (he : e ∈ g.edges)
    (hp : NewPlace rc g p) (h : g.cutSingleEdge rc e p = .ok (g', true)) :
    ∃ nn en fn, Swaps (g.eFaces e) [e] nn en fn g g' ∧ SamePieces (g.eFaces e) fn g g' ∧ pieces g' = pieces g ∧
      borders g' = borders g + 1 := by
  obtain ⟨f, hf⟩ : ∃ f, g.eFaces e = [f] := by
    by_contra hn
    rw [C33_not_border rc g e p (fun hl => hn (List.length_eq_one_iff.1 hl))] at h
    cases h
  obtain ⟨nn, en, fn, h1, h2, h3, G'⟩ := cutSingle_pieces G he hf hp h
  have hc := (C38_cut_single_edge G he hp h).1
  have b := borders_count G.mesh
  have b' := borders_count G'.mesh
  unfold counts at hc
  simp only [Prod.mk.injEq] at hc
  rw [hf]
  exact ⟨nn, en, fn, h1, h2, h3, by omega⟩

/-- `cut_edge`. -/
theorem C107_cut_edge {rc : Vec F → R} {g g' : Grid F R} (G : Good rc g) {e : Nat} {p : Vec F} (he : e ∈ g.edges)
    (hp : NewPlace rc g p) (h : g.cutEdge rc e p = .ok (g', true)) :
    ∃ nn en fn, Swaps (g.eFaces e) [e] nn en fn g g' ∧ SamePieces (g.eFaces e) fn g g' ∧ pieces g' = pieces g ∧
      borders g' = borders g := by
  obtain ⟨f, k, hf⟩ : ∃ f k, g.eFaces e = [f, k] := by
    by_contra hn
    rw [C34_border rc g e p (fun hl => hn (List.length_eq_two.1 hl))] at h
    cases h
  obtain ⟨nn, en, fn, h1, h2, h3, G'⟩ := cutEdge_pieces G he hf hp h
  have hc := (C38_cut_edge G he hp h).1
  have b := borders_count G.mesh
  have b' := borders_count G'.mesh
  unfold counts at hc
  simp only [Prod.mk.injEq] at hc
  rw [hf]
  exact ⟨nn, en, fn, h1, h2, h3, by omega⟩

/-- `cut_edge_with_two_nodes`: there are two border edges more if the edge has one face. -/
theorem C107_two_nodes {rc : Vec F → R} {g g' : Grid F R} (G : Good rc g) {e : Nat} {p1 p2 : Vec F} (he : e ∈ g.edges)
    (hp1 : NewPlace rc g p1) (hp2 : NewPlace rc g p2) (hpp : rc p2 ≠ rc p1) (h : g.cutEdgeTwoNodes rc e p1 p2 = .ok (g', true)) :
    ∃ nn en fn, Swaps (g.eFaces e) [e] nn en fn g g' ∧ SamePieces (g.eFaces e) fn g g' ∧ pieces g' = pieces g ∧
      borders g' = borders g + if (g.eFaces e).length = 1 then 2 else 0 := by
  have hc := C38_two_nodes G he hp1 hp2 hpp h
  have b := borders_count G.mesh
  unfold counts at hc
  simp only [Prod.mk.injEq] at hc
  rcases (G.mesh.edge_faces e he).1 with hl | hl
  · obtain ⟨f, hf⟩ := List.length_eq_one_iff.1 hl
    obtain ⟨nn, en, fn, h1, h2, h3, G'⟩ := cutTwoBorder_pieces G he hf hp1 hp2 hpp h
    have b' := borders_count G'.mesh
    have := hc.1 hl
    rw [if_pos hl, hf]
    exact ⟨nn, en, fn, h1, h2, h3, by omega⟩
  · obtain ⟨f, k, hf⟩ := List.length_eq_two.1 hl
    obtain ⟨nn, en, fn, h1, h2, h3, G'⟩ := cutTwoInner_pieces G he hf hp1 hp2 hpp h
    have b' := borders_count G'.mesh
    have := hc.2.1 hl
    rw [if_neg (by omega), hf]
    exact ⟨nn, en, fn, h1, h2, h3, by omega⟩

/-- `collapse_face`: the faces at the longest edge are replaced, or nothing is done. -/
theorem C107_collapse_face {rc : Vec F → R} (dist : Vec F → Vec F → F) (gt : F → F → Bool) {g g' : Grid F R} (G : Good rc g) {f : Nat}
    {r : Bool} (hf : f ∈ g.faces) (hj : ∀ e, g.maxEdge dist gt f = .ok e → Flippable g f e)
    (h : g.collapseFace dist gt f = .ok (g', r)) :
    (g' = g ∨ ∃ e df nn en fn, g.maxEdge dist gt f = .ok e ∧ (∀ d, d ∈ df ↔ d ∈ g.eFaces e) ∧ Swaps df [e] nn en fn g g' ∧
      SamePieces df fn g g') ∧ pieces g' = pieces g ∧ borders g' = borders g := by
  have hc := (C38_collapse_face dist gt G hf hj h).1
  rcases collapse_pieces dist gt G hf hj h with rfl | ⟨e, df, nn, en, fn, h1, h2, h3, h4, h5, G'⟩
  · exact ⟨Or.inl rfl, rfl, rfl⟩
  · have b := borders_count G.mesh
    have b' := borders_count G'.mesh
    unfold counts at hc
    simp only [Prod.mk.injEq] at hc
    exact ⟨Or.inr ⟨e, df, nn, en, fn, h1, h2, h3, h4⟩, h5, by omega⟩

/-- One transformation other than `collapse_edge` keeps the number of pieces, and border edges are added only by cutting border
edges: closed surfaces stay closed and others stay open. -/
theorem C107_step {rc : Vec F → R} (mid : Vec F → Vec F → Vec F) (dist : Vec F → Vec F → F) (gt : F → F → Bool) {g g' : Grid F R}
    (G : Good rc g) (o : Op F) (hs : ∀ e, o ≠ .shrink e) (ha : o.Applicable rc mid dist gt g) (hr : o.run rc mid dist gt g = .ok g') :
    pieces g' = pieces g ∧ borders g' = borders g + o.newBorders g ∧ (Closed g' ↔ Closed g) := by
  have G' : Good rc g' := by
    obtain ⟨g2, h1, h2, _⟩ := C37_step mid dist gt G o ha
    rw [hr] at h1; obtain rfl := Except.ok.inj h1; exact h2
  have main : pieces g' = pieces g ∧ borders g' = borders g + o.newBorders g := by
    have run : ∀ {r : Res (Grid F R × Bool)} {g' : Grid F R}, ((fun r => r.1) <$> r : Res (Grid F R)) = .ok g' → ∃ b, r = .ok (g', b) := by
      intro r g' h
      cases r with
      | ok r => exact ⟨r.2, by rw [← Except.ok.inj h]⟩
      | error _ => cases h
    cases o with
    | divide f p => obtain ⟨_, _, _, _, _, h1, h2⟩ := C107_divide_face G ha.1 ha.2 hr; exact ⟨h1, h2⟩
    | cut e p =>
      obtain ⟨b, h⟩ := run hr
      by_cases hl : (g.eFaces e).length = 2
      · have hb : b = true := by
          unfold cutEdge at h
          rw [if_pos hl] at h
          obtain ⟨x, _, h⟩ := res_bind_eq_ok.1 h
          exact ((Prod.mk.inj (Except.ok.inj h)).2).symm
        subst hb
        obtain ⟨_, _, _, _, _, h1, h2⟩ := C107_cut_edge G ha.1 ha.2 h; exact ⟨h1, h2⟩
      · rw [C34_border rc g e p hl] at h
        obtain rfl := (Prod.mk.inj (Except.ok.inj h)).1
        exact ⟨rfl, rfl⟩
    | cutSingle e p =>
      obtain ⟨b, h⟩ := run hr
      unfold Op.newBorders
      by_cases hl : (g.eFaces e).length = 1
      · have hb : b = true := by
          unfold cutSingleEdge at h
          rw [if_pos hl] at h
          obtain ⟨x, _, h⟩ := res_bind_eq_ok.1 h
          exact ((Prod.mk.inj (Except.ok.inj h)).2).symm
        subst hb
        obtain ⟨_, _, _, _, _, h1, h2⟩ := C107_cut_single_edge G ha.1 ha.2 h
        exact ⟨h1, by simp only [if_pos hl]; exact h2⟩
      · rw [C33_not_border rc g e p hl] at h
        obtain rfl := (Prod.mk.inj (Except.ok.inj h)).1
        exact ⟨rfl, by simp only [if_neg hl]; rfl⟩
    | cutTwo e p1 p2 =>
      obtain ⟨b, h⟩ := run hr
      obtain ⟨he, hp1, hp2, hpp⟩ := ha
      have hb : b = true := by
        unfold cutEdgeTwoNodes at h
        rcases (G.mesh.edge_faces e he).1 with hl | hl
        · rw [if_pos hl] at h
          obtain ⟨x, _, h⟩ := res_bind_eq_ok.1 h
          exact ((Prod.mk.inj (Except.ok.inj h)).2).symm
        · rw [if_neg (by omega), if_pos hl] at h
          obtain ⟨x, _, h⟩ := res_bind_eq_ok.1 h
          exact ((Prod.mk.inj (Except.ok.inj h)).2).symm
      subst hb
      obtain ⟨_, _, _, _, _, h1, h2⟩ := C107_two_nodes G he hp1 hp2 hpp h; exact ⟨h1, h2⟩
    | collapse f =>
      obtain ⟨b, h⟩ := run hr
      obtain ⟨_, h1, h2⟩ := C107_collapse_face dist gt G ha.1 ha.2 h; exact ⟨h1, h2⟩
    | shrink e => exact absurd rfl (hs e)
  refine ⟨main.1, main.2, ?_⟩
  rw [closed_iff G'.mesh, closed_iff G.mesh, main.2]
  constructor
  · intro h; omega
  · intro h
    have hz := (closed_iff G.mesh).2 h
    have : o.newBorders g = 0 := by
      cases o with
      | cutSingle e p => exact if_neg (by rw [hz e ha.1]; decide)
      | cutTwo e p1 p2 => exact if_neg (by rw [hz e ha.1]; decide)
      | _ => rfl
    omega

/-- Any number of such transformations keeps the number of pieces, the Euler characteristic, and whether the surface is closed. -/
theorem C107_sequences {rc : Vec F → R} (mid : Vec F → Vec F → Vec F) (dist : Vec F → Vec F → F) (gt : F → F → Bool) {g g' : Grid F R}
    (G : Good rc g) (h : Refinement rc mid dist gt g g') :
    Good rc g' ∧ pieces g' = pieces g ∧ euler g' = euler g ∧ (Closed g' ↔ Closed g) := by
  induction h with
  | refl => exact ⟨G, rfl, rfl, Iff.rfl⟩
  | step o _ hs ha hr ih =>
    obtain ⟨i1, i2, i3, i4⟩ := ih
    obtain ⟨g2, h1, h2, _, h3⟩ := C37_step mid dist gt i1 o ha
    rw [hr] at h1
    obtain rfl := Except.ok.inj h1
    obtain ⟨k1, _, k2⟩ := C107_step mid dist gt i1 o hs ha hr
    exact ⟨h2, k1.trans i2, h3.trans i3, k2.trans i4⟩

/-- `collapse_edge` never joins pieces and no piece disappears; the number of border edges stays. -/
theorem C107_collapse_edge {rc : Vec F → R} {mid : Vec F → Vec F → Vec F} {g g' : Grid F R} (G : Good rc g) {e n1 n2 : Nat}
    (C : Collapsible rc mid g e n1 n2) {b : Bool} (h : g.collapseEdge rc mid e = .ok (g', b)) :
    (∀ k k', Piece g' k k' → Piece g k k') ∧ (∀ k ∈ g.faces, ∃ k' ∈ g'.faces, Piece g k k') ∧ pieces g ≤ pieces g' ∧
      borders g' = borders g ∧ (Closed g' ↔ Closed g) := by
  obtain ⟨g2, h1, s, m', _⟩ := C76_collapse_edge G C
  rw [h] at h1
  obtain rfl := (Prod.mk.inj (Except.ok.inj h1)).1
  have c := borders_count G.mesh
  have c' := borders_count m'
  have := s.counts
  have hb : borders g' = borders g := by omega
  exact ⟨fun k k' hp => shrink_not_join G.mesh C s m' hp,
    fun k hk => (shrink_onto G C s hk).imp fun _ hx => ⟨hx.1, hx.2.symm⟩,
    pieces_le (fun f hf => ((s.face f).1 hf).1) (fun f _ h hp => shrink_not_join G.mesh C s m' hp) (fun k hk => shrink_onto G C s hk),
    hb, by rw [closed_iff m', closed_iff G.mesh, hb]⟩

/-- `collapse_edge` keeps the pieces if one end of the edge is not on the border. (Missing: edges between two border nodes, see
`C107_pinch_violation`.) -/
theorem C107_collapse_edge_partial {rc : Vec F → R} {mid : Vec F → Vec F → Vec F} {g g' : Grid F R} (G : Good rc g) {e n1 n2 n : Nat}
    (C : Collapsible rc mid g e n1 n2) (hn : n = n1 ∨ n = n2) (all : ∀ x ∈ g.edges, n ∈ g.eNodes x → (g.eFaces x).length = 2) {b : Bool}
    (h : g.collapseEdge rc mid e = .ok (g', b)) :
    (∀ k ∈ g'.faces, ∀ k' ∈ g'.faces, (Piece g' k k' ↔ Piece g k k')) ∧ pieces g' = pieces g := by
  obtain ⟨g2, h1, s, m', _⟩ := C76_collapse_edge G C
  rw [h] at h1
  obtain rfl := (Prod.mk.inj (Except.ok.inj h1)).1
  have same : ∀ k ∈ g'.faces, ∀ k' ∈ g'.faces, (Piece g' k k' ↔ Piece g k k') := fun k hk k' hk' =>
    ⟨shrink_not_join G.mesh C s m', shrink_pieces G C s m' hn all hk hk'⟩
  exact ⟨same, (pieces_eq (r := id) (fun f hf => ((s.face f).1 hf).1) (fun f hf k hk => (same f hf k hk).symm)
    (fun k hk => shrink_onto G C s hk)).symm⟩

/-- On a closed surface any number of transformations, `collapse_edge` included, keeps the number of pieces and the Euler
characteristic, and the surface stays closed. -/
theorem C107_closed {rc : Vec F → R} (mid : Vec F → Vec F → Vec F) (dist : Vec F → Vec F → F) (gt : F → F → Bool) {g g' : Grid F R}
    (G : Good rc g) (hc : Closed g) (h : Steps rc mid dist gt g g') :
    Good rc g' ∧ Closed g' ∧ pieces g' = pieces g ∧ euler g' = euler g := by
  induction h with
  | refl => exact ⟨G, hc, rfl, rfl⟩
  | @step ga gb o _ ha hr ih =>
    obtain ⟨i1, i2, i3, i4⟩ := ih
    obtain ⟨g2, h1, h2, _, h3⟩ := C37_step mid dist gt i1 o ha
    rw [hr] at h1
    obtain rfl := Except.ok.inj h1
    have key : (Closed gb ↔ Closed ga) ∧ pieces gb = pieces ga := by
      by_cases hs : ∀ e, o ≠ .shrink e
      · obtain ⟨k1, _, k2⟩ := C107_step mid dist gt i1 o hs ha hr
        exact ⟨k2, k1⟩
      · push Not at hs
        obtain ⟨e, rfl⟩ := hs
        have hr' : (fun r => r.1) <$> ga.collapseEdge rc mid e = .ok gb := hr
        by_cases hl : (ga.eFaces e).length = 2
        · obtain ⟨n1, n2, C, _⟩ := ha hl
          obtain ⟨g3, k1, _⟩ := C76_collapse_edge i1 C
          rw [k1] at hr'
          obtain rfl := Except.ok.inj hr'
          exact ⟨(C107_collapse_edge i1 C k1).2.2.2.2,
            (C107_collapse_edge_partial i1 C (Or.inl rfl) (fun x hx _ => i2 x hx) k1).2⟩
        · rw [C76_border rc mid ga e hl] at hr'
          obtain rfl := Except.ok.inj hr'
          exact ⟨Iff.rfl, rfl⟩
    exact ⟨h2, key.1.2 i2, key.2.trans i3, h3.trans i4⟩

/-- Five triangles in one piece; shrinking the edge 0 between two border nodes leaves three triangles in two pieces, though the
result is a consistent grid. -/
theorem C107_pinch_violation : Good Sample.rc Sample.bowGrid ∧ Collapsible Sample.rc Sample.mid Sample.bowGrid 0 0 1 ∧
    (∀ k ∈ Sample.bowGrid.faces, ∀ k' ∈ Sample.bowGrid.faces, Piece Sample.bowGrid k k') ∧
    ∃ g', Sample.bowGrid.collapseEdge Sample.rc Sample.mid 0 = .ok (g', true) ∧ Mesh g' ∧ g'.faces = [2, 3, 4] ∧
      ¬ Piece g' 2 3 ∧ ¬ Piece g' 4 3 ∧ Piece g' 2 4 := by
  have G := Sample.bow_good.1
  have C : Collapsible Sample.rc Sample.mid Sample.bowGrid 0 0 1 :=
    collapsible_of (by decide +kernel) (by decide +kernel) (by decide +kernel) (by decide +kernel) (by decide +kernel)
      (by decide +kernel) (by decide +kernel) (by decide +kernel) (by decide +kernel) (by decide +kernel) (by decide +kernel)
  have one : ∀ k ∈ Sample.bowGrid.faces, Piece Sample.bowGrid 0 k := by
    have h01 : Piece Sample.bowGrid 0 1 := Piece.side G.mesh (a := 0) (b := 1) (by decide +kernel) (by decide +kernel) (by decide)
      (by decide +kernel) (by decide +kernel) (by decide +kernel) (by decide +kernel)
    have h02 : Piece Sample.bowGrid 0 2 := Piece.side G.mesh (a := 0) (b := 2) (by decide +kernel) (by decide +kernel) (by decide)
      (by decide +kernel) (by decide +kernel) (by decide +kernel) (by decide +kernel)
    have h13 : Piece Sample.bowGrid 1 3 := Piece.side G.mesh (a := 0) (b := 3) (by decide +kernel) (by decide +kernel) (by decide)
      (by decide +kernel) (by decide +kernel) (by decide +kernel) (by decide +kernel)
    have h04 : Piece Sample.bowGrid 0 4 := Piece.side G.mesh (a := 1) (b := 2) (by decide +kernel) (by decide +kernel) (by decide)
      (by decide +kernel) (by decide +kernel) (by decide +kernel) (by decide +kernel)
    have hfs : Sample.bowGrid.faces = [0, 1, 2, 3, 4] := by decide +kernel
    intro k hk
    rw [hfs] at hk
    simp only [List.mem_cons, List.not_mem_nil, or_false] at hk
    rcases hk with rfl | rfl | rfl | rfl | rfl
    · exact .refl (by rw [hfs]; decide)
    · exact h01
    · exact h02
    · exact h01.trans h13
    · exact h04
  refine ⟨G, C, fun k hk k' hk' => (one k hk).symm.trans (one k' hk'), ?_⟩
  obtain ⟨g', h1, _, m, _⟩ := C76_collapse_edge G C
  have h' : (match Sample.bowGrid.collapseEdge Sample.rc Sample.mid 0 with
    | .ok r => decide (r.1.faces = [2, 3, 4] ∧ (∀ e ∈ r.1.edges, 3 ∈ r.1.eFaces e → ∀ k ∈ r.1.eFaces e, k = 3) ∧
        r.1.fNodes 2 = [0, 2, 4] ∧ r.1.fNodes 4 = [6, 2, 0])
    | .error _ => false) = true := by decide +kernel
  rw [h1] at h'
  obtain ⟨hfs, alone, f2, f4⟩ := of_decide_eq_true h'
  have stay : ∀ k, Piece g' 3 k → k = 3 := by
    intro k hk
    unfold Piece at hk
    induction hk with
    | refl _ => rfl
    | step _ ad _ ih =>
      subst ih
      obtain ⟨_, e, he, h3, hc⟩ := ad
      exact alone e he h3 _ hc
  refine ⟨g', h1, m, hfs, fun hp => ?_, fun hp => ?_, ?_⟩
  · exact absurd (stay _ hp.symm) (by decide)
  · exact absurd (stay _ hp.symm) (by decide)
  · exact Piece.side m (a := 0) (b := 2) (by rw [hfs]; decide) (by rw [hfs]; decide) (by decide) (by rw [f2]; decide) (by rw [f2]; decide)
      (by rw [f4]; decide) (by rw [f4]; decide)

/-- The edge 3 of the square has an inner end. -/
example : Good Sample.rc Sample.squareGrid ∧ Collapsible Sample.rc Sample.mid Sample.squareGrid 3 1 4 ∧
    ∀ x ∈ Sample.squareGrid.edges, 4 ∈ Sample.squareGrid.eNodes x → (Sample.squareGrid.eFaces x).length = 2 :=
  ⟨Sample.square_good.1, collapsible_of (by decide +kernel) (by decide +kernel) (by decide +kernel) (by decide +kernel)
    (by decide +kernel) (by decide +kernel) (by decide +kernel) (by decide +kernel) (by decide +kernel) (by decide +kernel)
    (by decide +kernel), by decide +kernel⟩

/-- The octahedron is closed, and its edge 0 can be shrunk. -/
example : Good Sample.rc Sample.octaGrid ∧ Closed Sample.octaGrid ∧ ∃ g', Steps Sample.rc Sample.mid Sample.dist
    (fun x y => decide (y < x)) Sample.octaGrid g' ∧ g'.faces.length = 6 := by
  have C : Collapsible Sample.rc Sample.mid Sample.octaGrid 0 0 1 :=
    collapsible_of (by decide +kernel) (by decide +kernel) (by decide +kernel) (by decide +kernel) (by decide +kernel)
      (by decide +kernel) (by decide +kernel) (by decide +kernel) (by decide +kernel) (by decide +kernel) (by decide +kernel)
  have L : LastIds Sample.octaGrid 0 1 := by unfold LastIds; decide +kernel
  obtain ⟨g', h1, s, _⟩ := C76_collapse_edge Sample.octa_good.1 C
  refine ⟨Sample.octa_good.1, by unfold Closed; decide +kernel, g', .step (.shrink 0) .refl (fun _ => ⟨0, 1, C, L⟩) ?_, ?_⟩
  · show (fun r => r.1) <$> Sample.octaGrid.collapseEdge Sample.rc Sample.mid 0 = .ok g'
    rw [h1]; rfl
  · have := s.counts.2.2
    have h8 : Sample.octaGrid.faces.length = 8 := by decide +kernel
    omega

/-- Dividing the face 0 of the octahedron is a refinement. -/
example : ∃ g', Refinement Sample.rc Sample.mid Sample.dist (fun x y => decide (y < x)) Sample.octaGrid g' := by
  have ha : (Op.divide 0 ⟨1, 1, 1⟩ : Op Int).Applicable Sample.rc Sample.mid Sample.dist (fun x y => decide (y < x)) Sample.octaGrid :=
    ⟨by decide +kernel, by unfold NewPlace; decide +kernel⟩
  obtain ⟨g', h1, _⟩ := C37_step Sample.mid Sample.dist (fun x y => decide (y < x)) Sample.octa_good.1 _ ha
  exact ⟨g', .step _ .refl (fun e h => by cases h) ha h1⟩

end Verif.Props
