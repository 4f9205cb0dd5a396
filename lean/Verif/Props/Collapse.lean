import Verif.Proofs.Collapse5
import Verif.Proofs.LoadGood
import Verif.Model.Geom
import Mathlib.Algebra.Field.Rat

/-! Property C76: `collapse_edge`. -/

namespace Verif.Props
open Verif Grid
variable {F R : Type} [DecidableEq R]

/-- `collapse_edge` shrinks an edge with two faces to its first end, which is moved to the middle of the edge; one node, three edges
and two faces disappear, everything else stays, and the lists and links of the grid are consistent again. -/
theorem C76_collapse_edge {rc : Vec F → R} {mid : Vec F → Vec F → Vec F} {g : Grid F R} (G : Good rc g) {e n1 n2 : Nat}
    (C : Collapsible rc mid g e n1 n2) :
    ∃ g', g.collapseEdge rc mid e = .ok (g', true) ∧ Shrinks g g' e n1 n2 (mid (g.nP n1) (g.nP n2)) ∧
      Mesh g' ∧ ZonesOk g' ∧ ZonesAlloc g' ∧ Alloc g' ∧ Merged rc g' ∧ Simple g' := by
  obtain ⟨g', h1, s, h2, h3, h4, h5, h6, h7, -⟩ := collapseEdge_ok G C
  exact ⟨g', h1, s, h2, h3, h4, h5, h6, h7⟩

/-- With `Vect.middle_point` the first end is moved to the point half-way between the two ends: twice the way to it is the sum of
the ways to the ends. -/
theorem C76_middle_point {F : Type} [Field F] [NeZero (2 : F)] {rc : Vec F → R} {g : Grid F R} (G : Good rc g) {e n1 n2 : Nat}
    (C : Collapsible rc Vec.middlePoint g e n1 n2) :
    ∃ g', g.collapseEdge rc Vec.middlePoint e = .ok (g', true) ∧
      (g'.nP n1).x + (g'.nP n1).x = (g.nP n1).x + (g.nP n2).x ∧ (g'.nP n1).y + (g'.nP n1).y = (g.nP n1).y + (g.nP n2).y ∧
      (g'.nP n1).z + (g'.nP n1).z = (g.nP n1).z + (g.nP n2).z := by
  obtain ⟨g', h, s, -⟩ := C76_collapse_edge G C
  refine ⟨g', h, ?_⟩
  have half' : ∀ x : F, x * (1 / 2) + x * (1 / 2) = x := fun x => by rw [← mul_add, add_halves, mul_one]
  rw [s.moved]
  simp only [Vec.middlePoint, Vec.smul, Vec.add, half', and_self]

/-- The identifiers are a permutation again exactly if the greatest ones belonged to the last remaining node, the last three
remaining edges and the last two remaining faces. -/
theorem C76_identifiers {rc : Vec F → R} {mid : Vec F → Vec F → Vec F} {g g' : Grid F R} (G : Good rc g) {e n1 n2 : Nat}
    (C : Collapsible rc mid g e n1 n2) {b : Bool} (h : g.collapseEdge rc mid e = .ok (g', b)) : GloPerm g' ↔ LastIds g e n2 := by
  obtain ⟨g2, h1, _, _, _, _, _, _, _, h8⟩ := collapseEdge_ok G C
  rw [h] at h1
  obtain rfl := (Prod.mk.inj (Except.ok.inj h1)).1
  exact h8

/-- The Euler characteristic stays. -/
theorem C76_euler {rc : Vec F → R} {mid : Vec F → Vec F → Vec F} {g g' : Grid F R} (G : Good rc g) {e n1 n2 : Nat}
    (C : Collapsible rc mid g e n1 n2) {b : Bool} (h : g.collapseEdge rc mid e = .ok (g', b)) : euler g' = euler g := by
  obtain ⟨g2, h1, s, _⟩ := collapseEdge_ok G C
  rw [h] at h1
  obtain rfl := (Prod.mk.inj (Except.ok.inj h1)).1
  have := s.counts
  unfold euler
  omega

/-- An edge which does not have two faces is left alone. -/
theorem C76_border (rc : Vec F → R) (mid : Vec F → Vec F → Vec F) (g : Grid F R) (e : Nat) (h : (g.eFaces e).length ≠ 2) :
    g.collapseEdge rc mid e = .ok (g, false) := by
  unfold collapseEdge; rw [if_neg h]

omit [DecidableEq R] in
/-- `Collapsible` from checks over the lists of the grid. -/
theorem collapsible_of {rc : Vec F → R} {mid : Vec F → Vec F → Vec F} {g : Grid F R} {e n1 n2 : Nat} (he : e ∈ g.edges) (hn : g.eNodes e = [n1, n2])
    (hi : (g.eFaces e).length = 2)
    (hl : ∀ x ∈ g.edges, ∀ c ∈ g.eNodes x, n1 ∈ g.eNodes x → ∀ y ∈ g.edges, c ∈ g.eNodes y → n2 ∈ g.eNodes y →
      (x = e ∨ y = e ∨ ∃ k ∈ g.eFaces e, c ∈ g.fNodes k))
    (hc : ∀ k ∈ g.eFaces e, n1 ∈ g.fNodes k ∧ n2 ∈ g.fNodes k)
    (hw : ∀ k ∈ g.faces, k ∉ g.eFaces e → ∀ k' ∈ g.faces, n1 ∈ g.fNodes k → n2 ∈ g.fNodes k' →
      (∃ n ∈ g.fNodes k, n ≠ n1 ∧ n ≠ n2 ∧ n ∉ g.fNodes k'))
    (ht : ∃ k ∈ g.faces, k ∉ g.eFaces e ∧ n2 ∈ g.fNodes k)
    (hs : ∀ k ∈ g.eFaces e, ∃ x ∈ g.fEdges k, x ≠ e ∧ (g.eFaces x).length = 2) (h4 : 4 ≤ g.faces.length)
    (hp : ∀ n ∈ g.nodes, rc (g.nP n) ≠ rc (mid (g.nP n1) (g.nP n2)))
    (hz : ∀ k ∈ g.faces, n2 ∈ g.fNodes k → (g.fZone k).all (fun z => decide (n2 ∈ g.zNodes z)) = true) :
    Collapsible rc mid g e n1 n2 := by
  refine ⟨he, hn, hi, ?_, ?_, ht, hs, h4, hp, ?_⟩
  · intro c x hx y hy jx jy
    obtain ⟨k, hk⟩ : ∃ k, k ∈ g.eFaces e := List.length_pos_iff_exists_mem.1 (by omega)
    rcases hl x hx c ((jx c).2 (Or.inr rfl)) ((jx n1).2 (Or.inl rfl)) y hy ((jy c).2 (Or.inr rfl)) ((jy n2).2 (Or.inl rfl)) with rfl | rfl | h
    · have := (jx n2).1 (by rw [hn]; simp)
      rcases this with h | h
      · exact ⟨k, hk, by have := (jx c).2 (Or.inr rfl); rw [hn] at this; simp at this; rcases this with rfl | rfl; exact (hc k hk).1; exact (hc k hk).2⟩
      · exact ⟨k, hk, h ▸ (hc k hk).2⟩
    · have := (jy n1).1 (by rw [hn]; simp)
      rcases this with h | h
      · exact ⟨k, hk, by have := (jy c).2 (Or.inr rfl); rw [hn] at this; simp at this; rcases this with rfl | rfl; exact (hc k hk).1; exact (hc k hk).2⟩
      · exact ⟨k, hk, h ▸ (hc k hk).1⟩
    · exact h
  · intro k hk h1 k' hk' h2 h3 h5
    obtain ⟨n, i1, i2, i3, i4⟩ := hw k hk h1 k' hk' h2 h3
    exact i4 ((h5 n i2 i3).1 i1)
  · intro k hk _ h2 z h3
    have := hz k hk h2
    rw [h3] at this
    simpa using this

/-- In the square the edge 3 can be shrunk and the identifiers stay a permutation. -/
example : Good Sample.rc Sample.squareGrid ∧ Collapsible Sample.rc Sample.mid Sample.squareGrid 3 1 4 ∧ LastIds Sample.squareGrid 3 4 :=
  ⟨Sample.square_good.1, collapsible_of (by decide +kernel) (by decide +kernel) (by decide +kernel) (by decide +kernel) (by decide +kernel)
    (by decide +kernel) (by decide +kernel) (by decide +kernel) (by decide +kernel) (by decide +kernel) (by decide +kernel),
    by unfold LastIds; decide +kernel⟩

/-- The same square with rational coordinates. -/
def Sample.ratSquare : List (ZoneBlock ℚ) :=
  [ { name := "a".toList
      pts := [⟨0, 0, 0⟩, ⟨1, 0, 0⟩, ⟨2, 0, 0⟩, ⟨0, 1, 0⟩, ⟨1, 1, 0⟩, ⟨2, 1, 0⟩, ⟨0, 2, 0⟩, ⟨1, 2, 0⟩, ⟨2, 2, 0⟩]
      faces := [([], [1, 2, 4]), ([], [2, 5, 4]), ([], [2, 3, 5]), ([], [3, 6, 5]), ([], [4, 5, 7]), ([], [5, 8, 7]),
        ([], [5, 6, 8]), ([], [6, 9, 8])] } ]

/-- The grid loaded from it. -/
@[irreducible] def Sample.ratGrid : Grid ℚ (ℚ × ℚ × ℚ) :=
  match Grid.loadBlocks Sample.rcq true Grid.empty Sample.ratSquare with
  | .ok g => g
  | .error _ => Grid.empty

/-- Its edge 3 can be shrunk to its middle. -/
example : Good Sample.rcq Sample.ratGrid ∧ Collapsible Sample.rcq Vec.middlePoint Sample.ratGrid 3 1 4 := by
  refine ⟨?_, collapsible_of (by decide +kernel) (by decide +kernel) (by decide +kernel) (by decide +kernel) (by decide +kernel)
    (by decide +kernel) (by decide +kernel) (by decide +kernel) (by decide +kernel) (by decide +kernel) (by decide +kernel)⟩
  have hl : loadBlocks Sample.rcq true Grid.empty Sample.ratSquare = .ok Sample.ratGrid := by
    have h : (loadBlocks Sample.rcq true Grid.empty Sample.ratSquare).isOk = true := by decide +kernel
    unfold Sample.ratGrid
    split
    · assumption
    · rename_i e he; rw [he] at h; cases h
  have hv : ∀ b ∈ Sample.ratSquare, b.Valid := by unfold ZoneBlock.Valid; decide +kernel
  have hd : NonDegenerate Sample.rcq true Sample.ratSquare := by unfold NonDegenerate; decide +kernel
  rcases load_spec Sample.rcq true Grid.empty Sample.ratSquare hv hd (by intro h; cases h) with ⟨_, h⟩ | ⟨_, g, h2, h3⟩
  · rw [hl] at h; cases h
  · rw [hl] at h2
    obtain rfl := Except.ok.inj h2
    refine h3.good ?_
    have h : (Verif.fileFaces Sample.rcq true Sample.ratSquare).Pairwise (fun s t => ∃ c ∈ s, c ∉ t) := by decide +kernel
    refine h.imp ?_
    rintro s t ⟨c, h1, h2⟩ h3
    exact h2 ((h3 c).1 h1)

/-- The edge 8 can be shrunk as well, but the identifiers of the result are not a permutation. -/
theorem C76_identifiers_violation : Good Sample.rc Sample.squareGrid ∧ Collapsible Sample.rc Sample.mid Sample.squareGrid 8 5 4 ∧
    ∃ g', Sample.squareGrid.collapseEdge Sample.rc Sample.mid 8 = .ok (g', true) ∧ Mesh g' ∧ ¬ GloPerm g' := by
  have C : Collapsible Sample.rc Sample.mid Sample.squareGrid 8 5 4 :=
    collapsible_of (by decide +kernel) (by decide +kernel) (by decide +kernel) (by decide +kernel) (by decide +kernel)
      (by decide +kernel) (by decide +kernel) (by decide +kernel) (by decide +kernel) (by decide +kernel) (by decide +kernel)
  obtain ⟨g', h1, _, h2, _⟩ := C76_collapse_edge Sample.square_good.1 C
  refine ⟨Sample.square_good.1, C, g', h1, h2, fun h => ?_⟩
  have := (C76_identifiers Sample.square_good.1 C h1).1 h
  revert this
  unfold LastIds
  decide +kernel

/-- A side at `n1` of a triangle at the corner of the square is left without faces (edge 0 after shrinking edge 2). -/
theorem C76_dangling_violation : Good Sample.rc Sample.squareGrid ∧
    ∃ g', Sample.squareGrid.collapseEdge Sample.rc Sample.mid 2 = .ok (g', true) ∧ 0 ∈ g'.edges ∧ g'.eFaces 0 = [] ∧ ¬ Mesh g' := by
  refine ⟨Sample.square_good.1, ?_⟩
  have h' : (match Sample.squareGrid.collapseEdge Sample.rc Sample.mid 2 with
    | .ok r => decide (r.2 = true ∧ 0 ∈ r.1.edges ∧ r.1.eFaces 0 = [])
    | .error _ => false) = true := by decide +kernel
  revert h'
  cases Sample.squareGrid.collapseEdge Sample.rc Sample.mid 2 with
  | ok r =>
    intro h'
    obtain ⟨g', b⟩ := r
    obtain ⟨h2, h3, h4⟩ := of_decide_eq_true h'
    simp only at h2 h3 h4
    subst h2
    refine ⟨g', rfl, h3, h4, fun m => ?_⟩
    have := (m.edge_faces 0 h3).1
    rw [h4] at this
    simp at this
  | error _ => intro h'; cases h'

/-- Shrinking an edge of a tetrahedron leaves two faces with the same corners. -/
theorem C76_tetrahedron_violation : Good Sample.rc Sample.tetraGrid ∧
    ∃ g', Sample.tetraGrid.collapseEdge Sample.rc Sample.mid 0 = .ok (g', true) ∧ ¬ Simple g' := by
  refine ⟨Sample.tetra_good.1, ?_⟩
  have h' : (match Sample.tetraGrid.collapseEdge Sample.rc Sample.mid 0 with
    | .ok r => decide (r.2 = true ∧ ∃ f ∈ r.1.faces, ∃ h ∈ r.1.faces, f ≠ h ∧ r.1.fNodes f ⊆ r.1.fNodes h ∧ r.1.fNodes h ⊆ r.1.fNodes f)
    | .error _ => false) = true := by decide +kernel
  revert h'
  cases Sample.tetraGrid.collapseEdge Sample.rc Sample.mid 0 with
  | ok r =>
    intro h'
    obtain ⟨g', b⟩ := r
    obtain ⟨h2, f, hf, h, hh, hne, s1, s2⟩ := of_decide_eq_true h'
    simp only at h2 hf hh hne s1 s2
    subst h2
    exact ⟨g', rfl, fun s => hne (s f hf h hh (fun n => ⟨fun i => s1 i, fun i => s2 i⟩))⟩
  | error _ => intro h'; cases h'

end Verif.Props
