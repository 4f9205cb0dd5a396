import Verif.Proofs.Shrink
import Verif.Proofs.FlipJoined
import Verif.Proofs.Longest
import Verif.Props.Transform
import Verif.Props.Again
import Verif.Props.AgainTwo
import Verif.Props.Collapse

/-! Property C115: transformations which raise. -/

namespace Verif.Props
open Verif Grid
variable {F R : Type} [DecidableEq R]

/-- The model of `collapse_edge` with the grid left behind is the model of `collapse_edge`. -/
theorem C115_agrees (rc : Vec F → R) (mid : Vec F → Vec F → Vec F) (g : Grid F R) (e : Nat) :
    (g.collapseEdgeX rc mid e).plain = g.collapseEdge rc mid e := collapse_plain rc mid g e

/-- On a consistent grid `divide_face`, the three functions that cut an edge and `collapse_face` raise nothing, whatever points are
given and however edges are compared. -/
theorem C115_others_partial {rc : Vec F → R} (dist : Vec F → Vec F → F) (gt : F → F → Bool) {g : Grid F R} (G : Good rc g) (p p' : Vec F) :
    (∀ f ∈ g.faces, ∃ g', g.divideFace rc f p = .ok g') ∧ (∀ f ∈ g.faces, ∃ r, g.collapseFace dist gt f = .ok r) ∧
      ∀ e ∈ g.edges, (∃ r, g.cutSingleEdge rc e p = .ok r) ∧ (∃ r, g.cutEdge rc e p = .ok r) ∧
        ∃ r, g.cutEdgeTwoNodes rc e p p' = .ok r := by
  have place : NewPlace rc g p ∨ ∃ k ∈ g.nodes, rc (g.nP k) = rc p := by
    by_cases h : ∃ k ∈ g.nodes, rc (g.nP k) = rc p
    · exact Or.inr h
    · refine Or.inl (fun n hn hc => h ⟨n, hn, hc⟩)
  refine ⟨fun f hf => ?_, fun f hf => ?_, fun e he => ?_⟩
  · obtain ⟨a, b, c, hn⟩ := List.length_eq_three.1 (G.mesh.face_nodes f hf).1
    obtain ⟨z, _, _, hz⟩ := zone_of G.zones hf
    rcases place with hp | ⟨k, hk, hp⟩
    · obtain ⟨g', _, _, _, _, _, _, _, h, -⟩ := C32_divide_face G hf hn hz hp
      exact ⟨g', h⟩
    · obtain ⟨g', _, _, _, _, _, _, h, -⟩ := C101_divide_face G hf hn hz hk hp
      exact ⟨g', h⟩
  · obtain ⟨e, hfe, hm⟩ := maxEdge_ok dist gt G.mesh hf
    have he := (G.mesh.face_edges f hf).2.2 e hfe
    by_cases hl : (g.eFaces e).length = 2
    · obtain ⟨a, b, hn⟩ := List.length_eq_two.1 (G.mesh.edge_nodes e he).1
      obtain ⟨z, _, _, hz⟩ := zone_of G.zones hf
      obtain ⟨x, y, hxy⟩ := List.length_eq_two.1 hl
      have hfx : f ∈ g.eFaces e := (G.mesh.edge_face e he f).2 ⟨hf, hfe⟩
      have hnd := (G.mesh.edge_faces e he).2
      obtain ⟨h, hh, hfh⟩ : ∃ h, (∀ x, x ∈ g.eFaces e ↔ x = f ∨ x = h) ∧ f ≠ h := by
        rw [hxy] at hfx hnd ⊢
        simp at hfx hnd
        rcases hfx with rfl | rfl
        · exact ⟨y, by simp, hnd⟩
        · exact ⟨x, by simp [or_comm], Ne.symm hnd⟩
      obtain ⟨n3, n4, _, _, _, _, t⟩ := corner2_any G.mesh G.simple he hh hfh hn
      obtain ⟨g1, g', -, hr, -⟩ := flip_run G he hh hn t hz
      refine ⟨(g', true), ?_⟩
      unfold collapseFace
      rw [hm, res_bind_ok, if_pos hl, hr]; rfl
    · exact ⟨_, C36_border (rc := rc) dist gt hm hl⟩
  · obtain ⟨a, b, hn⟩ := List.length_eq_two.1 (G.mesh.edge_nodes e he).1
    have zz : ∀ f, f ∈ g.eFaces e → ∃ z, g.fZone f = some z := fun f hf => by
      obtain ⟨z, _, _, hz⟩ := zone_of G.zones ((G.mesh.edge_face e he f).1 hf).1
      exact ⟨z, hz⟩
    rcases (G.mesh.edge_faces e he).1 with h1 | h2
    · obtain ⟨f, hf⟩ := List.length_eq_one_iff.1 h1
      obtain ⟨z, hz⟩ := zz f (by simp [hf])
      refine ⟨?_, ⟨_, C34_border rc g e p (by omega)⟩, ?_⟩
      · rcases place with hp | ⟨k, hk, hp⟩
        · obtain ⟨g', _, _, _, _, _, _, _, h, -⟩ := C33_cut_single_edge G he hf hn hz hp
          exact ⟨_, h⟩
        · obtain ⟨g', _, _, _, _, _, _, h, -⟩ := C101_cut_single_edge G he hf hn hz hk hp
          exact ⟨_, h⟩
      · obtain ⟨g', _, _, _, _, _, _, _, _, _, _, _, _, h, -⟩ := C106_one_face G p p' he hf hn hz
        exact ⟨_, h⟩
    · obtain ⟨f, h, hf⟩ := List.length_eq_two.1 h2
      obtain ⟨z, hz⟩ := zz f (by simp [hf])
      refine ⟨⟨_, C33_not_border rc g e p (by omega)⟩, ?_, ?_⟩
      · rcases place with hp | ⟨k, hk, hp⟩
        · obtain ⟨g', _, _, _, _, _, _, _, _, _, _, _, h, -⟩ := C34_cut_edge G he hf hn hz hp
          exact ⟨_, h⟩
        · obtain ⟨g', _, _, _, _, _, _, _, _, _, _, h, -⟩ := C101_cut_edge G he hf hn hz hk hp
          exact ⟨_, h⟩
      · obtain ⟨g', _, _, _, _, _, _, _, _, _, _, _, _, _, _, _, _, _, _, h, -⟩ := C106_two_faces G p p' he hf hn hz
        exact ⟨_, h⟩

/-- Whenever `collapse_edge` raises on a consistent grid, the edge and both of its faces are gone: the grid is not what it was. -/
theorem C115_torn_violation {rc : Vec F → R} {mid : Vec F → Vec F → Vec F} {g left : Grid F R} (G : Good rc g) {e : Nat} (he : e ∈ g.edges)
    {x : Err} (h : g.collapseEdgeX rc mid e = .error (x, left)) : left.faces = leftFaces g e ∧ left.faces ≠ g.faces ∧ e ∉ left.edges := by
  obtain ⟨a, b, hn⟩ := List.length_eq_two.1 (G.mesh.edge_nodes e he).1
  unfold collapseEdgeX at h
  split at h
  · rename_i hl
    obtain ⟨f, k, hf⟩ := List.length_eq_two.1 hl
    have := collapse_leaves mid G he hf hn
    cases hr : g.collapseInnerX rc mid e with
    | ok r => rw [hr] at h; cases h
    | error r =>
      rw [hr] at h this
      obtain rfl := Except.error.inj h
      have hfl : left.faces = leftFaces g e := by
        rw [this.faces]; unfold leftFaces without; rw [hf]
      refine ⟨hfl, fun hc => ?_, this.edge⟩
      have hff : f ∈ g.faces := ((G.mesh.edge_face e he f).1 (by simp [hf])).1
      rw [← hc, this.faces, mem_without] at hff
      simp at hff
  · cases h

/-- And it raises whenever the second end of the edge has no other faces than the two at the edge. -/
theorem C115_pendant_violation {rc : Vec F → R} (mid : Vec F → Vec F → Vec F) {g : Grid F R} (G : Good rc g) {e n1 n2 : Nat} (he : e ∈ g.edges)
    (hn : g.eNodes e = [n1, n2]) (hi : (g.eFaces e).length = 2) (h3 : ∀ k ∈ g.faces, n2 ∈ g.fNodes k → k ∈ g.eFaces e) :
    ∃ x, g.collapseEdge rc mid e = .error x := by
  obtain ⟨f, k, hf⟩ := List.length_eq_two.1 hi
  have := collapse_leaves mid G he hf hn
  have h2 : n2 ∈ g.nodes := (G.mesh.edge_nodes e he).2.2 n2 (by simp [hn])
  have hw : without (g.nFaces n2) [f, k] = [] := by
    rw [List.eq_nil_iff_forall_not_mem]
    intro y hy
    rw [mem_without, G.mesh.node_face n2 h2] at hy
    have := h3 y hy.1.1 hy.1.2
    rw [hf] at this
    exact hy.2 this
  rw [← C115_agrees]
  unfold collapseEdgeX
  rw [if_pos hi]
  cases hr : g.collapseInnerX rc mid e with
  | ok r => rw [hr] at this; exact absurd hw this
  | error r => exact ⟨r.1, rfl⟩

/-- Both happen on a consistent grid. -/
theorem C115_square_violation : Good Sample.rc Sample.squareGrid ∧
    ∃ left, Sample.squareGrid.collapseEdgeX Sample.rc Sample.mid 10 = .error (.index, left) ∧ left.faces ≠ Sample.squareGrid.faces := by
  refine ⟨Sample.square_good.1, ?_⟩
  have h := C115_agrees Sample.rc Sample.mid Sample.squareGrid 10
  rw [C37_collapse_edge_error] at h
  cases hr : Sample.squareGrid.collapseEdgeX Sample.rc Sample.mid 10 with
  | ok r => rw [hr] at h; cases h
  | error r =>
    obtain ⟨x, left⟩ := r
    rw [hr] at h
    obtain rfl : x = .index := Except.error.inj h
    exact ⟨left, rfl, (C115_torn_violation Sample.square_good.1 (by decide +kernel) hr).2.1⟩

/-- The conditions of `C115_pendant_violation` hold for edge 10 of the square. -/
example : 10 ∈ Sample.squareGrid.edges ∧ (Sample.squareGrid.eFaces 10).length = 2 ∧
    ∃ n1 n2, Sample.squareGrid.eNodes 10 = [n1, n2] ∧
      ∀ k ∈ Sample.squareGrid.faces, n2 ∈ Sample.squareGrid.fNodes k → k ∈ Sample.squareGrid.eFaces 10 := by
  obtain ⟨a, b, h⟩ := List.length_eq_two.1 (show (Sample.squareGrid.eNodes 10).length = 2 by decide +kernel)
  have hb : (Sample.squareGrid.eNodes 10)[1]? = some b := by rw [h]; rfl
  have : ∀ b, (Sample.squareGrid.eNodes 10)[1]? = some b →
      ∀ k ∈ Sample.squareGrid.faces, b ∈ Sample.squareGrid.fNodes k → k ∈ Sample.squareGrid.eFaces 10 := by
    intro b hb
    have : b = ((Sample.squareGrid.eNodes 10)[1]?).getD 0 := by rw [hb]; rfl
    subst this
    decide +kernel
  exact ⟨by decide +kernel, by decide +kernel, a, b, h, this b hb⟩

/-! ## C36 once more -/

/-- The condition on the opposite corners in `C36_collapse_face` is needed on every grid: if an edge joins them already, then after
`collapse_face` there are two such edges, and the grid is no longer consistent. -/
theorem C36_joined_violation {rc : Vec F → R} (dist : Vec F → Vec F → F) (gt : F → F → Bool) {g : Grid F R} (G : Good rc g)
    {f h e a b c c' x : Nat} (he : e ∈ g.edges) (hm : g.maxEdge dist gt f = .ok e)
    (hf : ∀ x, x ∈ g.eFaces e ↔ x = f ∨ x = h) (hfh : f ≠ h) (hn : g.eNodes e = [a, b])
    (hcf : ∀ n, n ∈ g.fNodes f ↔ n = a ∨ n = b ∨ n = c) (hch : ∀ n, n ∈ g.fNodes h ↔ n = a ∨ n = b ∨ n = c')
    (hx : x ∈ g.edges) (hj : Joins g x c c') :
    ∃ g' e', g.collapseFace dist gt f = .ok (g', true) ∧ x ∈ g'.edges ∧ e' ∈ g'.edges ∧ e' ≠ x ∧ Joins g' x c c' ∧ Joins g' e' c c' ∧
      ¬ Mesh g' := by
  obtain ⟨z, _, _, hz⟩ := zone_of G.zones ((G.mesh.edge_face e he f).1 ((hf f).2 (Or.inl rfl))).1
  obtain ⟨g', e', hr, h1, h2, h3, h4, h5⟩ := flip_joined G he hf hfh hn hcf hch hz hx hj
  refine ⟨g', e', ?_, h1, h2, h3, h4, h5, fun m => h3 (m.edge_unique e' h2 x h1 (fun n => by rw [h4 n, h5 n]))⟩
  have hl : (g.eFaces e).length = 2 := by
    have hp : [f, h].Perm (g.eFaces e) :=
      (List.perm_ext_iff_of_nodup (by simp [hfh]) (G.mesh.edge_faces e he).2).2 fun x => by rw [hf]; simp
    rw [← hp.length_eq]; rfl
  unfold collapseFace
  rw [hm, res_bind_ok, if_pos hl, hr]; rfl

/-- The conditions hold for the tetrahedron: the longest edge of face 0 is the one from node 1 to node 2, and edge 3 joins the
opposite corners. -/
example : Sample.tetraGrid.maxEdge Sample.dist (fun x y => decide (y < x)) 0 = .ok 2 ∧ Sample.tetraGrid.eFaces 2 = [0, 3] ∧
    Sample.tetraGrid.eNodes 2 = [1, 2] ∧ Sample.tetraGrid.fNodes 0 = [0, 1, 2] ∧ Sample.tetraGrid.fNodes 3 = [1, 2, 3] ∧
    3 ∈ Sample.tetraGrid.edges ∧ Joins Sample.tetraGrid 3 0 3 := by
  have h' : (match Sample.tetraGrid.maxEdge Sample.dist (fun x y => decide (y < x)) 0 with
    | .ok e => decide (e = 2)
    | .error _ => false) = true := by decide +kernel
  refine ⟨?_, by decide +kernel, by decide +kernel, by decide +kernel, by decide +kernel, by decide +kernel, fun n => ?_⟩
  · revert h'
    cases Sample.tetraGrid.maxEdge Sample.dist (fun x y => decide (y < x)) 0 with
    | ok e => intro h'; rw [of_decide_eq_true h']
    | error _ => intro h'; cases h'
  · rw [show Sample.tetraGrid.eNodes 3 = [0, 3] by decide +kernel]; simp

end Verif.Props
