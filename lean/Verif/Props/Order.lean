import Verif.Proofs.Order
import Verif.Proofs.Sample

/-! C127: the order of zones, faces and points in a file does not matter. -/

namespace Verif.Props
open Verif Grid
variable {F R : Type} [DecidableEq R]

/-- Two files with the same contents, up to the order of zones, the order of faces in zones and the numbering and repetition of points, are
either both refused for the same reason or both loaded, and then the grids are the same up to the numbering of objects. -/
theorem C127_order (rc : Vec F → R) (g0 g1 : Grid F R) {l l' : List (ZoneBlock F)} (hs : SameContents rc l l') (hv : ∀ b ∈ l, b.Valid)
    (hd : NonDegenerate rc true l) :
    (loadBlocks rc true g0 l = .error (.exc "Too many faces linking with this edge") ∧
      loadBlocks rc true g1 l' = .error (.exc "Too many faces linking with this edge")) ∨
    ∃ g h n e f z, loadBlocks rc true g0 l = .ok g ∧ loadBlocks rc true g1 l' = .ok h ∧ Renumbers rc g h n e f z := by
  obtain ⟨s1, s2, s3⟩ := hs.same
  rcases load_spec rc true g0 l hv hd (by intro h; cases h) with ⟨h1, h2⟩ | ⟨h1, g, h2, h3⟩ <;>
    rcases load_spec rc true g1 l' (s1.1 hv) (s2.1 hd) (by intro h; cases h) with ⟨k1, k2⟩ | ⟨k1, h, k2, k3⟩
  · exact Or.inl ⟨h2, k2⟩
  · exact absurd (s3.1 h1) k1
  · exact absurd (s3.2 k1) h1
  · obtain ⟨n, e, f, z, H⟩ := h3.renumbers k3 hs
    exact Or.inr ⟨g, h, n, e, f, z, h2, k2, H⟩

/-- Then both grids have as many nodes, edges, faces and zones, and the answers of `is_border`, `is_inner` and `is_cross` are the same. -/
theorem C127_kinds (rc : Vec F → R) {g0 g1 g h : Grid F R} {l l' : List (ZoneBlock F)} (hs : SameContents rc l l')
    (hd : NonDegenerate rc true l) (hl : loadBlocks rc true g0 l = .ok g) (hl' : loadBlocks rc true g1 l' = .ok h) :
    ∃ n e f z, Renumbers rc g h n e f z ∧ g.nodes.length = h.nodes.length ∧ g.edges.length = h.edges.length ∧
      g.faces.length = h.faces.length ∧ g.zones.length = h.zones.length ∧
      ∀ y ∈ g.edges, h.isBorder (e y) = g.isBorder y ∧ h.isInner (e y) = g.isInner y ∧ h.isCross (e y) = g.isCross y := by
  have hv := load_valid rc true g0 g l hl
  obtain ⟨s1, s2, s3⟩ := hs.same
  rcases load_spec rc true g0 l hv hd (by intro h; cases h) with ⟨_, h2⟩ | ⟨_, g', h2, h3⟩
  · rw [hl] at h2; cases h2
  rcases load_spec rc true g1 l' (s1.1 hv) (s2.1 hd) (by intro h; cases h) with ⟨_, k2⟩ | ⟨_, h', k2, k3⟩
  · rw [hl'] at k2; cases k2
  rw [hl] at h2; obtain rfl := Except.ok.inj h2
  rw [hl'] at k2; obtain rfl := Except.ok.inj k2
  obtain ⟨n, e, f, z, H⟩ := h3.renumbers k3 hs
  refine ⟨n, e, f, z, H, bij_length H.nodes h3.mesh.nodes_nodup k3.mesh.nodes_nodup, bij_length H.edges h3.mesh.edges_nodup k3.mesh.edges_nodup,
    bij_length H.faces h3.mesh.faces_nodup k3.mesh.faces_nodup, bij_length H.zones h3.zones.zones_nodup k3.zones.zones_nodup,
    fun y hy => H.kinds h3.mesh k3.mesh h3.zones hy⟩

/-- The sample file with zones exchanged, faces exchanged, points in another order and one point twice. -/
def Sample.shuffled : List (ZoneBlock Int) :=
  [ { name := "b".toList
      pts := [⟨2, 0, 5⟩, ⟨1, 1, 1⟩, ⟨1, 0, 0⟩]
      faces := [([("T".toList, 7)], [3, 1, 2])] },
    { name := "a".toList
      pts := [⟨1, 1, 1⟩, ⟨1, 0, 0⟩, ⟨0, 1, 0⟩, ⟨0, 0, 0⟩, ⟨1, 0, 0⟩]
      faces := [([("T".toList, 6)], [2, 1, 3]), ([("T".toList, 5)], [4, 5, 3])] } ]

theorem Sample.shuffled_same : SameContents Sample.rc Sample.blocks Sample.shuffled := by
  constructor
  · refine ⟨(contents Sample.rc Sample.blocks).reverse, List.reverse_perm _, ?_⟩
    have h : contents Sample.rc Sample.shuffled = (contents Sample.rc Sample.blocks).reverse.map (fun p => (p.1, p.2.reverse)) := by rfl
    rw [h, List.forall₂_map_right_iff]
    exact List.forall₂_same.2 fun p _ => ⟨rfl, (List.reverse_perm _).symm⟩
  · intro k
    have h1 : ∀ b ∈ Sample.blocks, ∀ p ∈ b.pts, ∃ b' ∈ Sample.shuffled, ∃ p' ∈ b'.pts, Sample.rc p' = Sample.rc p := by decide +kernel
    have h2 : ∀ b ∈ Sample.shuffled, ∀ p ∈ b.pts, ∃ b' ∈ Sample.blocks, ∃ p' ∈ b'.pts, Sample.rc p' = Sample.rc p := by decide +kernel
    constructor
    · rintro ⟨b, hb, p, hp, rfl⟩
      exact h1 b hb p hp
    · rintro ⟨b, hb, p, hp, rfl⟩
      exact h2 b hb p hp

/-- The identifiers do depend on the order: they are positions, so a results file which names faces by their identifiers belongs to one order of
the file. Here identifier 0 is the face with `T = 5` in one grid and the face with `T = 7` in the other. -/
theorem C127_identifiers : SameContents Sample.rc Sample.blocks Sample.shuffled ∧
    ∃ g h f f', loadBlocks Sample.rc true Sample.new Sample.blocks = .ok g ∧ loadBlocks Sample.rc true Sample.new Sample.shuffled = .ok h ∧
      f ∈ g.faces ∧ f' ∈ h.faces ∧ g.fGlo f = 0 ∧ h.fGlo f' = 0 ∧ g.fData f = [("T".toList, 5)] ∧ h.fData f' = [("T".toList, 7)] := by
  refine ⟨Sample.shuffled_same, ?_⟩
  have h1 : (match loadBlocks Sample.rc true Sample.new Sample.blocks, loadBlocks Sample.rc true Sample.new Sample.shuffled with
    | .ok g, .ok h => decide (0 ∈ g.faces ∧ 0 ∈ h.faces ∧ g.fGlo 0 = 0 ∧ h.fGlo 0 = 0 ∧ g.fData 0 = [("T".toList, 5)] ∧ h.fData 0 = [("T".toList, 7)])
    | _, _ => false) = true := by decide +kernel
  revert h1
  cases loadBlocks Sample.rc true Sample.new Sample.blocks with
  | error _ => intro h; cases h
  | ok g => cases loadBlocks Sample.rc true Sample.new Sample.shuffled with
    | error _ => intro h; cases h
    | ok h =>
      intro h1
      obtain ⟨a, b, c, d, e, f⟩ := of_decide_eq_true h1
      exact ⟨g, h, 0, 0, rfl, rfl, a, b, c, d, e, f⟩

/-- `C127_order`, `C127_kinds`: the conditions hold for the sample. -/
example : SameContents Sample.rc Sample.blocks Sample.shuffled ∧ (∀ b ∈ Sample.blocks, b.Valid) ∧ NonDegenerate Sample.rc true Sample.blocks :=
  ⟨Sample.shuffled_same, Sample.blocks_valid, Sample.blocks_nondegenerate⟩

end Verif.Props
