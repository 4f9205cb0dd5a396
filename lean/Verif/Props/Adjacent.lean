import Verif.Model.Adjacent
import Verif.Model.Smooth
import Verif.Proofs.LoadGood
import Verif.Proofs.Order

/-! C128: adjacent edges. -/

namespace Verif.Props
open Verif Grid
variable {F R : Type} [DecidableEq R]

/-- On a consistent grid the answer is whether the edges have ends with the same rounded coordinates. -/
theorem C128_places {g : Grid F R} (hm : Mesh g) {e e' : Nat} (he : e ∈ g.edges) (he' : e' ∈ g.edges) :
    ∃ b, g.isAdjacentWith e e' = .ok b ∧ (b = true ↔ ∃ n ∈ g.eNodes e, ∃ n' ∈ g.eNodes e', g.nKey n = g.nKey n') := by
  obtain ⟨a0, a1, h1⟩ := List.length_eq_two.1 (hm.edge_nodes e he).1
  obtain ⟨b0, b1, h2⟩ := List.length_eq_two.1 (hm.edge_nodes e' he').1
  unfold isAdjacentWith
  rw [h1, h2]
  refine ⟨_, rfl, ?_⟩
  simp [nodeEq, or_assoc]

/-- On a grid loaded with merging two edges are adjacent exactly if they have a common end. -/
theorem C128_adjacent (rc : Vec F → R) {g0 g : Grid F R} {blocks : List (ZoneBlock F)} (hd : NonDegenerate rc true blocks)
    (hl : loadBlocks rc true g0 blocks = .ok g) {e e' : Nat} (he : e ∈ g.edges) (he' : e' ∈ g.edges) :
    ∃ b, g.isAdjacentWith e e' = .ok b ∧ g.isAdjacentWith e' e = .ok b ∧ (b = true ↔ ∃ n, n ∈ g.eNodes e ∧ n ∈ g.eNodes e') ∧
      (b = true → e ≠ e' → ∃! n, n ∈ g.eNodes e ∧ n ∈ g.eNodes e') := by
  rcases load_spec rc true g0 blocks (load_valid rc true g0 g blocks hl) hd (by intro h; cases h) with ⟨_, h2⟩ | ⟨_, g', h2, h3⟩
  · rw [hl] at h2; cases h2
  rw [hl] at h2; obtain rfl := Except.ok.inj h2
  have hm := h3.mesh
  obtain ⟨b, q1, q2⟩ := C128_places hm he he'
  obtain ⟨b', q3, q4⟩ := C128_places hm he' he
  have common : (∃ n ∈ g.eNodes e, ∃ n' ∈ g.eNodes e', g.nKey n = g.nKey n') ↔ ∃ n, n ∈ g.eNodes e ∧ n ∈ g.eNodes e' := by
    constructor
    · rintro ⟨n, hn, n', hn', hk⟩
      have := h3.merged rfl n ((hm.edge_nodes e he).2.2 n hn) n' ((hm.edge_nodes e' he').2.2 n' hn') hk
      exact ⟨n, hn, this ▸ hn'⟩
    · rintro ⟨n, hn, hn'⟩
      exact ⟨n, hn, n, hn', rfl⟩
  have hb : b' = b := by
    have : b' = true ↔ b = true := by
      rw [q4, q2]
      exact ⟨fun ⟨n, hn, m, hm, h⟩ => ⟨m, hm, n, hn, h.symm⟩, fun ⟨n, hn, m, hm, h⟩ => ⟨m, hm, n, hn, h.symm⟩⟩
    exact Bool.eq_iff_iff.2 this
  refine ⟨b, q1, hb ▸ q3, q2.trans common, fun h hne => ?_⟩
  obtain ⟨n, hn, hn'⟩ := common.1 (q2.1 h)
  refine ⟨n, ⟨hn, hn'⟩, fun m hmm => by_contra fun hnm => hne ?_⟩
  obtain ⟨a, c, -, h1⟩ := FileOrder.two_of_card (hm.edge_nodes e he).1 (hm.edge_nodes e he).2.1
  refine mesh_edge_eq hm he he' fun x hx => ?_
  have e1 := (h1 n).1 hn
  have e2 := (h1 m).1 hmm.1
  have e3 := (h1 x).1 hx
  have : x = n ∨ x = m := by omega
  rcases this with rfl | rfl
  · exact hn'
  · exact hmm.2

/-- Any two edges of a face are adjacent. -/
theorem C128_face {g : Grid F R} (hm : Mesh g) {f e e' : Nat} (hf : f ∈ g.faces) (he : e ∈ g.fEdges f) (he' : e' ∈ g.fEdges f) :
    g.isAdjacentWith e e' = .ok true := by
  have h1 := (hm.face_edges f hf).2.2 e he
  have h2 := (hm.face_edges f hf).2.2 e' he'
  obtain ⟨b, q1, q2⟩ := C128_places hm h1 h2
  rw [q1, q2.2 ?_]
  obtain ⟨a, c, hac, k1⟩ := FileOrder.two_of_card (hm.edge_nodes e h1).1 (hm.edge_nodes e h1).2.1
  obtain ⟨a', c', hac', k2⟩ := FileOrder.two_of_card (hm.edge_nodes e' h2).1 (hm.edge_nodes e' h2).2.1
  obtain ⟨hl, hn, -⟩ := hm.face_nodes f hf
  obtain ⟨x, y, z, hxyz⟩ := List.length_eq_three.1 hl
  have i1 := hm.edge_in_face f hf e he a ((k1 a).2 (Or.inl rfl))
  have i2 := hm.edge_in_face f hf e he c ((k1 c).2 (Or.inr rfl))
  have i3 := hm.edge_in_face f hf e' he' a' ((k2 a').2 (Or.inl rfl))
  have i4 := hm.edge_in_face f hf e' he' c' ((k2 c').2 (Or.inr rfl))
  rw [hxyz] at i1 i2 i3 i4
  simp at i1 i2 i3 i4
  have : a = a' ∨ a = c' ∨ c = a' ∨ c = c' := by omega
  rcases this with rfl | rfl | rfl | rfl
  · exact ⟨a, (k1 _).2 (Or.inl rfl), a, (k2 _).2 (Or.inl rfl), rfl⟩
  · exact ⟨a, (k1 _).2 (Or.inl rfl), a, (k2 _).2 (Or.inr rfl), rfl⟩
  · exact ⟨c, (k1 _).2 (Or.inr rfl), c, (k2 _).2 (Or.inl rfl), rfl⟩
  · exact ⟨c, (k1 _).2 (Or.inr rfl), c, (k2 _).2 (Or.inr rfl), rfl⟩

/-- Moving nodes does not change any answer, wherever the nodes are moved: the rounded coordinates of a node are those of the place where it was
made. -/
theorem C128_moved [Field F] {fix : Bool} {g g' : Grid F R} {shifts : List (Vec F)} (h : Smooth.applyShifts fix g shifts = .ok g') (e e' : Nat) :
    g'.isAdjacentWith e e' = g.isAdjacentWith e e' := by
  have step : ∀ (l : List (Nat × Vec F)) (g : Grid F R), (l.foldl (Smooth.moveNode fix) g).isAdjacentWith e e' = g.isAdjacentWith e e' := by
    intro l
    induction l with
    | nil => intro g; rfl
    | cons p l ih =>
      intro g
      rw [List.foldl_cons, ih]
      unfold Smooth.moveNode
      split <;> [split <;> rfl; rfl]
  unfold Smooth.applyShifts at h
  split at h
  · obtain rfl := Except.ok.inj h
    exact step _ _
  · cases h

/-- Without merging edges of different zones are adjacent if they have ends at the same place, though they have no common end. -/
theorem C128_unmerged : ∃ g e e', loadBlocks Sample.rc false Sample.new Sample.blocks = .ok g ∧ e ∈ g.edges ∧ e' ∈ g.edges ∧
    g.isAdjacentWith e e' = .ok true ∧ ¬ ∃ n, n ∈ g.eNodes e ∧ n ∈ g.eNodes e' := by
  have h : (match loadBlocks Sample.rc false Sample.new Sample.blocks with
    | .ok g => decide (0 ∈ g.edges ∧ 5 ∈ g.edges ∧ g.isAdjacentWith 0 5 = .ok true ∧ ∀ n ∈ g.eNodes 0, n ∉ g.eNodes 5)
    | .error _ => false) = true := by decide +kernel
  revert h
  cases loadBlocks Sample.rc false Sample.new Sample.blocks with
  | error _ => intro h; cases h
  | ok g =>
    intro h
    obtain ⟨h1, h2, h3, h4⟩ := of_decide_eq_true h
    exact ⟨g, 0, 5, rfl, h1, h2, h3, fun ⟨n, h5, h6⟩ => h4 n h5 h6⟩

/-- `C128_adjacent`, `C128_face`: the sample has adjacent edges and edges that are not. -/
example : loadBlocks Sample.rc true Sample.new Sample.blocks = .ok Sample.grid ∧ Mesh Sample.grid ∧ 0 ∈ Sample.grid.edges ∧ 6 ∈ Sample.grid.edges ∧
    Sample.grid.isAdjacentWith 0 1 = .ok true ∧ Sample.grid.isAdjacentWith 0 6 = .ok false := by
  refine ⟨Sample.blocks_load, Sample.loaded.2.mesh, ?_⟩
  decide +kernel

end Verif.Props
