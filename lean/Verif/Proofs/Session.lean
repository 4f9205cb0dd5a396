import Verif.Spec.Session
import Verif.Proofs.Steps2
import Verif.Proofs.LoadGood
import Verif.Proofs.Reload
import Verif.Proofs.History
import Verif.Proofs.Merge
import Verif.Proofs.Calc
import Mathlib.Combinatorics.Enumerative.DoubleCounting

/-! Sessions. -/

namespace Verif
open Grid
variable {F R : Type}

/-! ### Decompositions and data -/

theorem DecompOk.good {rc : Vec F → R} {g g' : Grid F R} (h : DecompOk g g') (G : Good rc g) : Good rc g' := by
  have s := h.same
  refine ⟨(h.wf G.mesh).mesh, h.zones, h.alloc, ?_, ?_, ?_, ?_⟩
  · obtain ⟨a, b, c⟩ := G.alloc
    constructor
    · rw [s.nodes, s.nNext]; exact a
    · rw [s.edges, s.eNext]; exact b
    · rw [s.faces, s.fNext]; exact c
  · obtain ⟨a, b, c⟩ := G.merged
    constructor
    · rw [s.nodes, s.nKey, s.nP]; exact a
    · rw [s.nodes, s.nKey]; exact b
    · rw [s.nodes, s.nKey, s.bag]; exact c
  · unfold Simple
    rw [s.faces, s.fNodes]; exact G.simple
  · obtain ⟨a, b, c⟩ := G.glo
    constructor
    · rw [s.nodes, s.nGlo]; exact a
    · rw [s.edges, s.eGlo]; exact b
    · rw [s.faces, s.fGlo]; exact c

theorem Good.withData {rc : Vec F → R} {g : Grid F R} (G : Good rc g) (d : Nat → List (Str × F)) : Good rc { g with fData := d } := by
  obtain ⟨h1, h2, h3, h4, h5, h6, h7⟩ := G
  refine ⟨?_, ?_, h3, ?_, ?_, h6, ?_⟩
  · cases h1; constructor <;> assumption
  · cases h2; constructor <;> assumption
  · cases h4; constructor <;> assumption
  · cases h5; constructor <;> assumption
  · cases h7; constructor <;> assumption

/-! ### The number of border edges -/

/-- The edges with a single face. -/
def borderEdges (g : Grid F R) : List Nat := g.edges.filter (fun e => decide ((g.eFaces e).length = 1))

theorem closed_iff_border {g : Grid F R} (m : Mesh g) : ClosedSurface g ↔ borderEdges g = [] := by
  unfold ClosedSurface borderEdges
  rw [List.filter_eq_nil_iff]
  refine forall₂_congr fun e he => ?_
  have := (m.edge_faces e he).1
  simp only [decide_eq_true_eq]
  omega

theorem sum_eFaces {g : Grid F R} (m : Mesh g) : (g.edges.map (fun e => (g.eFaces e).length)).sum = 3 * g.faces.length := by
  have h := Finset.sum_card_bipartiteAbove_eq_sum_card_bipartiteBelow (s := g.edges.toFinset) (t := g.faces.toFinset)
    (fun e f => e ∈ g.fEdges f)
  have h1 : ∀ e ∈ g.edges.toFinset, (g.faces.toFinset.bipartiteAbove (fun e f => e ∈ g.fEdges f) e).card = (g.eFaces e).length := by
    intro e he
    rw [List.mem_toFinset] at he
    rw [← List.toFinset_card_of_nodup (m.edge_faces e he).2]
    congr 1
    ext f
    simp only [Finset.mem_bipartiteAbove, List.mem_toFinset]
    exact (m.edge_face e he f).symm
  have h2 : ∀ f ∈ g.faces.toFinset, (g.edges.toFinset.bipartiteBelow (fun e f => e ∈ g.fEdges f) f).card = 3 := by
    intro f hf
    rw [List.mem_toFinset] at hf
    rw [← (m.face_edges f hf).1, ← List.toFinset_card_of_nodup (m.face_edges f hf).2.1]
    congr 1
    ext e
    simp only [Finset.mem_bipartiteBelow, List.mem_toFinset]
    exact ⟨fun h => h.2, fun h => ⟨(m.face_edges f hf).2.2 e h, h⟩⟩
  rw [Finset.sum_congr rfl h1, Finset.sum_congr rfl h2, Finset.sum_const, List.toFinset_card_of_nodup m.faces_nodup,
    List.sum_toFinset _ m.edges_nodup] at h
  rw [h]; simp [mul_comm]

theorem border_count {g : Grid F R} (m : Mesh g) : (borderEdges g).length + 3 * g.faces.length = 2 * g.edges.length := by
  rw [← sum_eFaces m]
  have key : ∀ l : List Nat, (∀ e ∈ l, (g.eFaces e).length = 1 ∨ (g.eFaces e).length = 2) →
      (l.filter (fun e => decide ((g.eFaces e).length = 1))).length + (l.map (fun e => (g.eFaces e).length)).sum = 2 * l.length := by
    intro l
    induction l with
    | nil => intro _; rfl
    | cons a l ih =>
      intro h
      have h1 := ih (fun e he => h e (List.mem_cons_of_mem _ he))
      have h2 := h a List.mem_cons_self
      rw [List.map_cons, List.sum_cons, List.length_cons]
      by_cases h3 : (g.eFaces a).length = 1
      · rw [List.filter_cons_of_pos (by simpa using h3), List.length_cons]; omega
      · rw [List.filter_cons_of_neg (by simpa using h3)]; omega
  exact key g.edges fun e he => (m.edge_faces e he).1

theorem closed_iff_count {g : Grid F R} (m : Mesh g) : ClosedSurface g ↔ 3 * g.faces.length = 2 * g.edges.length := by
  have := border_count m
  rw [closed_iff_border m, ← List.length_eq_zero_iff]
  omega

/-! ### Transformations -/

theorem Grid.Outcome.covered {P : Patch} {rc : Vec F → R} {z : Nat} {g g' : Grid F R} (o : Outcome P rc z g g') (hc : Covered g) : Covered g' := by
  have p := o.patched
  intro n hn
  have new : ∀ f ∈ P.fn, n ∈ fstOf P.nf f → ∃ f ∈ g'.faces, n ∈ g'.fNodes f := fun f hf h =>
    ⟨f, p.mem_faces.2 (Or.inr hf), by rw [p.fNodes_new f hf]; exact h⟩
  rw [p.nodes, List.mem_append] at hn
  rcases hn with hn | hn
  · obtain ⟨f, hf, hnf⟩ := hc n hn
    by_cases hd : f ∈ P.df
    · obtain ⟨k, hk, h⟩ := (o.covers.1 n hn).1 ⟨f, hd, hnf⟩
      exact new k hk h
    · exact ⟨f, p.mem_faces.2 (Or.inl ⟨hf, hd⟩), by rw [p.fNodes f hf hd]; exact hnf⟩
  · obtain ⟨k, hk, h⟩ := o.covers.2 n hn
    exact new k hk h

variable [DecidableEq R]

theorem shrinks_covered {rc : Vec F → R} {mid : Vec F → Vec F → Vec F} {g g' : Grid F R} {e n1 n2 : Nat} {p : Vec F} (G : Good rc g)
    (C : Collapsible rc mid g e n1 n2) (s : Shrinks g g' e n1 n2 p) (hc : Covered g) : Covered g' := by
  have m := G.mesh
  have h12 : n1 ≠ n2 := by
    have := (m.edge_nodes e C.edge).2.1
    rw [C.ends] at this
    simpa using this
  have memF : ∀ k, k ∈ g'.faces ↔ k ∈ g.faces ∧ k ∉ g.eFaces e := by
    intro k; rw [s.faces]; unfold leftFaces; simp
  intro n hn
  rw [s.nodes] at hn
  obtain ⟨hn, hn2⟩ : n ∈ g.nodes ∧ n ≠ n2 := by unfold leftNodes at hn; simpa using hn
  by_cases h1 : n = n1
  · obtain ⟨k, hk, hke, hk2⟩ := C.third
    have hk' := (memF k).2 ⟨hk, hke⟩
    exact ⟨k, hk', (s.corners k hk' n).2 ⟨hn2, Or.inr ⟨h1, hk2⟩⟩⟩
  · obtain ⟨f, hf, hnf⟩ := hc n hn
    by_cases hfe : f ∈ g.eFaces e
    · obtain ⟨x, hx, hxe, hx2⟩ := C.sides f hfe
      have hxg := (m.face_edges f hf).2.2 x hx
      -- the other end of the side is an end of `e`, so `n` is an end of the side
      have hnx : n ∈ g.eNodes x := by
        by_contra hnx
        refine hxe (m.edge_unique x hxg e C.edge ?_)
        have hsub : ∀ a ∈ g.eNodes x, a ∈ (g.fNodes f).erase n := by
          intro a ha
          exact (List.mem_erase_of_ne (fun h => hnx (by rw [← h]; exact ha))).2 (m.edge_in_face f hf x hx a ha)
        have hsub2 : ∀ a ∈ g.eNodes e, a ∈ (g.fNodes f).erase n := by
          intro a ha
          have hef := ((m.edge_face e C.edge f).1 hfe).2
          refine (List.mem_erase_of_ne ?_).2 (m.edge_in_face f hf e hef a ha)
          rintro rfl
          rw [C.ends] at ha
          simp [h1, hn2] at ha
        have hl : ((g.fNodes f).erase n).length = 2 := by
          rw [List.length_erase_of_mem hnf, (m.face_nodes f hf).1]
        have e1 := (List.subperm_of_subset (m.edge_nodes x hxg).2.1 hsub).perm_of_length_le (by rw [hl, (m.edge_nodes x hxg).1])
        have e2 := (List.subperm_of_subset (m.edge_nodes e C.edge).2.1 hsub2).perm_of_length_le (by rw [hl, (m.edge_nodes e C.edge).1])
        intro a
        rw [e1.mem_iff, e2.mem_iff]
      obtain ⟨k, hk, hkf⟩ : ∃ k ∈ g.eFaces x, k ≠ f := by
        have hnd := (m.edge_faces x hxg).2
        obtain ⟨u, v, huv⟩ := List.length_eq_two.1 hx2
        rw [huv] at hnd ⊢
        by_cases hu : u = f
        · exact ⟨v, by simp, fun h => by simp [hu, h] at hnd⟩
        · exact ⟨u, by simp, hu⟩
      obtain ⟨hkg, hkx⟩ := (m.edge_face x hxg k).1 hk
      have hnk := m.edge_in_face k hkg x hkx n hnx
      have hke : k ∉ g.eFaces e := by
        intro hke
        -- both faces would have the corners `n1`, `n2`, `n`
        refine hkf (G.simple k hkg f hf ?_)
        have all : ∀ q ∈ g.faces, q ∈ g.eFaces e → n ∈ g.fNodes q → ∀ a, a ∈ g.fNodes q ↔ a ∈ [n, n1, n2] := by
          intro q hq hqe hnq a
          have hqe' := ((m.edge_face e C.edge q).1 hqe).2
          have hs : [n, n1, n2] ⊆ g.fNodes q := by
            intro b hb
            simp only [List.mem_cons, List.not_mem_nil, or_false] at hb
            rcases hb with rfl | rfl | rfl
            · exact hnq
            · exact m.edge_in_face q hq e hqe' _ (by rw [C.ends]; simp)
            · exact m.edge_in_face q hq e hqe' _ (by rw [C.ends]; simp)
          exact ((List.subperm_of_subset (by simp [h1, hn2, h12]) hs).perm_of_length_le
            (by rw [(m.face_nodes q hq).1]; rfl)).mem_iff.symm
        intro a
        rw [all k hkg hke hnk, all f hf hfe hnf]
      have hk' := (memF k).2 ⟨hkg, hke⟩
      exact ⟨k, hk', (s.corners k hk' n).2 ⟨hn2, Or.inl hnk⟩⟩
    · have hf' := (memF f).2 ⟨hf, hfe⟩
      exact ⟨f, hf', (s.corners f hf' n).2 ⟨hn2, Or.inl hnf⟩⟩

/-- The nodes stay covered, and a closed surface stays closed. -/
theorem step_more {rc : Vec F → R} (mid : Vec F → Vec F → Vec F) (dist : Vec F → Vec F → F) (gt : F → F → Bool) {g g' : Grid F R} (G : Good rc g)
    (o : Op F) (ha : o.Applicable rc mid dist gt g) (h : o.run rc mid dist gt g = .ok g') :
    (Covered g → Covered g') ∧ (ClosedSurface g → 3 * g'.faces.length + 2 * g.edges.length = 3 * g.faces.length + 2 * g'.edges.length) := by
  have run : ∀ {r : Res (Grid F R × Bool)} {g2 : Grid F R} {b : Bool}, r = .ok (g2, b) →
      ((fun r => r.1) <$> r : Res (Grid F R)) = .ok g' → g2 = g' := by
    rintro _ _ _ rfl h
    exact Except.ok.inj h
  have count : ∀ {P : Patch} {z : Nat}, Outcome P rc z g g' → 3 * P.fn.length + 2 * P.de.length = 3 * P.df.length + 2 * P.en.length →
      3 * g'.faces.length + 2 * g.edges.length = 3 * g.faces.length + 2 * g'.edges.length := by
    intro P z o hl
    have := o.lf
    have := o.le
    omega
  cases o with
  | divide f p =>
    obtain ⟨hf, hp⟩ := ha
    obtain ⟨a, b, c, hn⟩ := List.length_eq_three.1 (G.mesh.face_nodes f hf).1
    obtain ⟨z, _, _, hz⟩ := zone_of G.zones hf
    obtain ⟨P, g2, h1, h2, h3, h4, h5, hr, o, -⟩ := divideFace_outcome G hf hn hz hp
    obtain rfl : g2 = g' := Except.ok.inj (hr.symm.trans h)
    exact ⟨o.covered, fun _ => count o (by rw [h1, h2, h4, h5]; rfl)⟩
  | cut e p =>
    obtain ⟨he, hp⟩ := ha
    obtain ⟨a, b, hn⟩ := eNodes_pair G.mesh he
    by_cases hl : (g.eFaces e).length = 2
    · obtain ⟨f, k, hf⟩ := List.length_eq_two.1 hl
      obtain ⟨z, _, _, hz⟩ := zone_of G.zones ((G.mesh.edge_face e he f).1 (by simp [hf])).1
      obtain ⟨P, g2, c, c', h1, h2, h3, h4, h5, hr, o, -⟩ := cutInner_outcome G he hf hn hz hp
      obtain rfl := run (b := true) (r := g.cutEdge rc e p) (by unfold cutEdge; rw [if_pos hl, hr]; rfl) h
      exact ⟨o.covered, fun _ => count o (by rw [h1, h2, h4, h5]; rfl)⟩
    · obtain rfl := run (b := false) (r := g.cutEdge rc e p) (by unfold cutEdge; rw [if_neg hl]) h
      exact ⟨id, fun _ => rfl⟩
  | cutSingle e p =>
    obtain ⟨he, hp⟩ := ha
    obtain ⟨a, b, hn⟩ := eNodes_pair G.mesh he
    by_cases hl : (g.eFaces e).length = 1
    · obtain ⟨f, hf⟩ := List.length_eq_one_iff.1 hl
      obtain ⟨z, _, _, hz⟩ := zone_of G.zones ((G.mesh.edge_face e he f).1 (by simp [hf])).1
      obtain ⟨P, g2, c, h1, h2, h3, h4, h5, hr, o, -⟩ := cutBorder_outcome G he hf hn hz hp
      obtain rfl := run (b := true) (r := g.cutSingleEdge rc e p) (by unfold cutSingleEdge; rw [if_pos hl, hr]; rfl) h
      exact ⟨o.covered, fun hc => by have := hc e he; omega⟩
    · obtain rfl := run (b := false) (r := g.cutSingleEdge rc e p) (by unfold cutSingleEdge; rw [if_neg hl]) h
      exact ⟨id, fun _ => rfl⟩
  | cutTwo e p1 p2 =>
    obtain ⟨he, hp1, hp2, hpp⟩ := ha
    obtain ⟨a, b, hn⟩ := eNodes_pair G.mesh he
    rcases (G.mesh.edge_faces e he).1 with hl | hl
    · obtain ⟨f, hf⟩ := List.length_eq_one_iff.1 hl
      obtain ⟨z, _, _, hz⟩ := zone_of G.zones ((G.mesh.edge_face e he f).1 (by simp [hf])).1
      obtain ⟨P, g2, c, h1, h2, h3, h4, h5, hr, o, -⟩ := cutBorder2_outcome G he hf hn hz hp1 hp2 hpp
      obtain rfl := run (b := true) (r := g.cutEdgeTwoNodes rc e p1 p2) (by unfold cutEdgeTwoNodes; rw [if_pos hl, hr]; rfl) h
      exact ⟨o.covered, fun hc => by have := hc e he; omega⟩
    · obtain ⟨f, k, hf⟩ := List.length_eq_two.1 hl
      obtain ⟨z, _, _, hz⟩ := zone_of G.zones ((G.mesh.edge_face e he f).1 (by simp [hf])).1
      obtain ⟨P, g2, c, c', h1, h2, h3, h4, h5, hr, o, -⟩ := cutInner2_outcome G he hf hn hz hp1 hp2 hpp
      obtain rfl := run (b := true) (r := g.cutEdgeTwoNodes rc e p1 p2)
        (by unfold cutEdgeTwoNodes; rw [if_neg (by omega), if_pos hl, hr]; rfl) h
      exact ⟨o.covered, fun _ => count o (by rw [h1, h2, h4, h5]; rfl)⟩
  | collapse f =>
    obtain ⟨hf, hj⟩ := ha
    rcases collapse_cases dist gt G hf hj with h1 | ⟨P, g2, h1, hdf, hde, hnn, hen, hfn, z, o, -⟩
    · obtain rfl := run h1 h
      exact ⟨id, fun _ => rfl⟩
    · obtain rfl := run h1 h
      exact ⟨o.covered, fun _ => count o (by omega)⟩
  | shrink e =>
    by_cases hl : (g.eFaces e).length = 2
    · obtain ⟨n1, n2, C, hi⟩ := ha hl
      obtain ⟨g2, h1, s, -⟩ := collapseEdge_ok G C
      obtain rfl := run h1 h
      refine ⟨shrinks_covered G C s, fun _ => ?_⟩
      have := s.counts
      omega
    · obtain rfl := run (b := false) (r := g.collapseEdge rc mid e) (by unfold collapseEdge; rw [if_neg hl]) h
      exact ⟨id, fun _ => rfl⟩

/-! ### Storing and loading -/

/-- The rounded coordinates of the corners of a face. -/
def cornerKeys (g : Grid F R) (f : Nat) : List R := (g.fNodes f).map g.nKey

theorem store_noTwins {rc : Vec F → R} {g : Grid F R} (dflt : F) (G : Good rc g) (L : ZoneLists g) :
    NoTwins rc (g.zones.map (zoneBlock g dflt)) := by
  have hw : Wf g := ⟨G.mesh, G.zones, G.zalloc⟩
  unfold NoTwins
  rw [zip_faces rc true dflt hw L, List.pairwise_map]
  have hnd : ((g.zones.zipIdx.flatMap (fun p => (g.zFaces p.1).map (fun f => (p.2, f)))).map Prod.snd).Nodup := by
    rw [zip_snd]
    exact G.zones.partition.nodup_iff.2 G.mesh.faces_nodup
  have hnd' := List.pairwise_map.1 hnd
  refine hnd'.imp_of_mem ?_
  rintro ⟨i, f⟩ ⟨j, k⟩ hf hk hne hc
  obtain ⟨z, -, hz, hfz⟩ := zip_mem hf
  obtain ⟨y, -, hy, hky⟩ := zip_mem hk
  have hf' := hw.face_mem hz hfz
  have hk' := hw.face_mem hy hky
  have key : ∀ a ∈ g.faces, ∀ b ∈ g.faces, (∀ c, c ∈ (g.fNodes a).map (corner rc true g i) → c ∈ (g.fNodes b).map (corner rc true g j)) →
      ∀ n ∈ g.fNodes a, n ∈ g.fNodes b := by
    intro a ha b hb hab n hn
    obtain ⟨m, hm, he⟩ := List.mem_map.1 (hab _ (List.mem_map_of_mem hn))
    have he' : rc (g.nP m) = rc (g.nP n) := by
      unfold corner at he
      simpa using he
    have hmn := (G.mesh.face_nodes b hb).2.2 m hm
    have hnn := (G.mesh.face_nodes a ha).2.2 n hn
    rw [← G.merged.inj m hmn n hnn (by rw [G.merged.key m hmn, G.merged.key n hnn, he'])]
    exact hm
  refine hne (G.simple f hf' k hk' fun n => ⟨key f hf' k hk' (fun c => (hc c).1) n, ?_⟩)
  refine key k hk' f hf' (fun c h => ?_) n
  have h' : c ∈ (g.fNodes k).map (corner rc true g j) := by
    rw [List.mem_map] at h ⊢
    exact h
  have := (hc c).2 h'
  rw [List.mem_map] at this ⊢
  exact this

/-- The corners of faces determine the numbers of nodes and of edges. -/
theorem counts_of_corners {rc : Vec F → R} {g g' : Grid F R} (G : Good rc g) (G' : Good rc g') (hc : Covered g) (hc' : Covered g')
    (h : ∀ t, t ∈ g'.faces.map (cornerKeys g') ↔ t ∈ g.faces.map (cornerKeys g)) :
    g'.nodes.length = g.nodes.length ∧ g'.edges.length = g.edges.length := by
  have nodes : ∀ g : Grid F R, Good rc g → Covered g → ∃ s : Finset R, g.nodes.length = s.card ∧
      ∀ k, k ∈ s ↔ ∃ t ∈ g.faces.map (cornerKeys g), k ∈ t := by
    intro g G hc
    refine ⟨(g.nodes.map g.nKey).toFinset, ?_, ?_⟩
    · rw [List.toFinset_card_of_nodup, List.length_map]
      exact List.Nodup.map_on (fun a ha b hb => G.merged.inj a ha b hb) G.mesh.nodes_nodup
    · intro k
      simp only [List.mem_toFinset, List.mem_map, exists_exists_and_eq_and]
      constructor
      · rintro ⟨n, hn, rfl⟩
        obtain ⟨f, hf, h⟩ := hc n hn
        exact ⟨f, hf, List.mem_map_of_mem h⟩
      · rintro ⟨f, hf, h⟩
        obtain ⟨n, hn, rfl⟩ := List.mem_map.1 h
        exact ⟨n, (G.mesh.face_nodes f hf).2.2 n hn, rfl⟩
  have edges : ∀ g : Grid F R, Good rc g → ∃ s : Finset (Finset R), g.edges.length = s.card ∧
      ∀ p, p ∈ s ↔ ∃ t ∈ g.faces.map (cornerKeys g), ∃ a ∈ t, ∃ b ∈ t, a ≠ b ∧ p = {a, b} := by
    intro g G
    have m := G.mesh
    have inj : ∀ e ∈ g.edges, ∀ x ∈ g.edges, ((g.eNodes e).map g.nKey).toFinset = ((g.eNodes x).map g.nKey).toFinset →
        ∀ n ∈ g.eNodes e, n ∈ g.eNodes x := by
      intro e he x hx h n hn
      have : g.nKey n ∈ ((g.eNodes x).map g.nKey).toFinset := by
        rw [← h, List.mem_toFinset]; exact List.mem_map_of_mem hn
      rw [List.mem_toFinset] at this
      obtain ⟨q, hq, hqn⟩ := List.mem_map.1 this
      rw [← G.merged.inj q ((m.edge_nodes x hx).2.2 q hq) n ((m.edge_nodes e he).2.2 n hn) hqn]
      exact hq
    refine ⟨(g.edges.map (fun e => ((g.eNodes e).map g.nKey).toFinset)).toFinset, ?_, ?_⟩
    · rw [List.toFinset_card_of_nodup, List.length_map]
      refine List.Nodup.map_on (fun e he x hx h => ?_) m.edges_nodup
      exact m.edge_unique e he x hx fun n => ⟨inj e he x hx h n, inj x hx e he h.symm n⟩
    · intro p
      simp only [List.mem_toFinset, List.mem_map, exists_exists_and_eq_and]
      constructor
      · rintro ⟨e, he, rfl⟩
        obtain ⟨a, b, hn⟩ := eNodes_pair m he
        obtain ⟨f, hf⟩ : ∃ f, f ∈ g.eFaces e := List.length_pos_iff_exists_mem.1 (by have := (m.edge_faces e he).1; omega)
        obtain ⟨hf, hef⟩ := (m.edge_face e he f).1 hf
        have hne : a ≠ b := by
          have := (m.edge_nodes e he).2.1
          rw [hn] at this
          simpa using this
        have hmem := (m.edge_nodes e he).2.2
        rw [hn] at hmem
        refine ⟨f, hf, g.nKey a, List.mem_map_of_mem (m.edge_in_face f hf e hef a (by rw [hn]; simp)), g.nKey b,
          List.mem_map_of_mem (m.edge_in_face f hf e hef b (by rw [hn]; simp)), ?_, by rw [hn]; simp⟩
        exact fun h => hne (G.merged.inj a (hmem a (by simp)) b (hmem b (by simp)) h)
      · rintro ⟨f, hf, k, hk, l, hl, hkl, rfl⟩
        obtain ⟨a, ha, rfl⟩ := List.mem_map.1 hk
        obtain ⟨b, hb, rfl⟩ := List.mem_map.1 hl
        have hab : a ≠ b := fun h => hkl (by rw [h])
        obtain ⟨e, he, h1, h2⟩ := m.sides f hf a ha b hb hab
        have heg := (m.face_edges f hf).2.2 e he
        refine ⟨e, heg, ?_⟩
        have hperm : [a, b].Perm (g.eNodes e) := (List.subperm_of_subset (by simpa using hab) (by
          intro x hx
          simp only [List.mem_cons, List.not_mem_nil, or_false] at hx
          rcases hx with rfl | rfl <;> assumption)).perm_of_length_le (by rw [(m.edge_nodes e heg).1]; rfl)
        rw [← List.toFinset_eq_of_perm _ _ (hperm.map g.nKey)]
        simp
  obtain ⟨s, h1, h2⟩ := nodes g G hc
  obtain ⟨s', h1', h2'⟩ := nodes g' G' hc'
  obtain ⟨t, h3, h4⟩ := edges g G
  obtain ⟨t', h3', h4'⟩ := edges g' G'
  constructor
  · rw [h1, h1']
    congr 1
    ext k
    rw [h2, h2']
    simp only [h]
  · rw [h3, h3']
    congr 1
    ext p
    rw [h4, h4']
    simp only [h]

theorem reload_corners {rc : Vec F → R} {dflt : F} {g g1 g' : Grid F R} (G : Good rc g) (L : ZoneLists g) (G' : Good rc g')
    (hL : Loaded rc true (g.zones.map (zoneBlock g dflt)) g1 g') :
    (g'.faces.map (cornerKeys g')).Perm (g.faces.map (cornerKeys g)) := by
  have hw : Wf g := ⟨G.mesh, G.zones, G.zalloc⟩
  have hs := reload_same hw L (keysApart_of_good G L true) hL
  have h1 : List.Forall₂ (fun f f' => cornerKeys g' f' = cornerKeys g f) (g.zones.flatMap g.zFaces) (g'.zones.flatMap g'.zFaces) := by
    refine forall₂_flatMap (forall₂_mem hs ?_)
    rintro z hz z' hz' ⟨-, h⟩
    refine forall₂_mem h ?_
    rintro f hf f' hf' ⟨-, h⟩
    refine forall₂_eq_map (forall₂_mem h ?_)
    rintro n hn n' hn' ⟨h2, h3⟩
    rw [G'.merged.key n' h2, h3, G.merged.key n ((G.mesh.face_nodes f (hw.face_mem hz hf)).2.2 n hn)]
  have h2 := forall₂_eq_map h1
  exact ((G'.zones.partition.map _).symm.trans (h2 ▸ List.Perm.refl _)).trans (G.zones.partition.map _)

/-- Storing and loading with merging. -/
theorem reload_good {rc : Vec F → R} {dflt : F} {g g1 g' : Grid F R} (G : Good rc g) (L : ZoneLists g)
    (hL : Loaded rc true (g.zones.map (zoneBlock g dflt)) g1 g') :
    Good rc g' ∧ ZoneLists g' ∧ g'.faces.length = g.faces.length ∧ Covered g' ∧
      (Covered g → g'.nodes.length = g.nodes.length ∧ g'.edges.length = g.edges.length) := by
  have hw : Wf g := ⟨G.mesh, G.zones, G.zalloc⟩
  have G' := hL.good (store_noTwins dflt G L)
  have hp := reload_corners G L G' hL
  have hc' : Covered g' := by
    intro n hn
    obtain ⟨b, hb, p, hpt, hk⟩ := hL.used n hn
    obtain ⟨z, hz, rfl⟩ := List.mem_map.1 hb
    obtain ⟨q, hq, rfl⟩ : ∃ q ∈ g.zNodes z, g.nP q = p := by simpa [zoneBlock] using hpt
    obtain ⟨hqn, f, hf, hqf⟩ := (L.mem_nodes hz q).1 hq
    have hm : cornerKeys g f ∈ g'.faces.map (cornerKeys g') := hp.mem_iff.2 (List.mem_map_of_mem (hw.face_mem hz hf))
    obtain ⟨f', hf', he⟩ := List.mem_map.1 hm
    have : g.nKey q ∈ cornerKeys g' f' := by rw [he]; exact List.mem_map_of_mem hqf
    obtain ⟨m, hm, hmq⟩ := List.mem_map.1 this
    refine ⟨f', hf', ?_⟩
    rw [← G'.merged.inj m ((G'.mesh.face_nodes f' hf').2.2 m hm) n hn (by rw [hmq, hk, G.merged.key q hqn])]
    exact hm
  exact ⟨G', hL.lists, by simpa using hp.length_eq, hc', fun hc => counts_of_corners G G' hc hc' fun t => hp.mem_iff⟩

end Verif
