import Verif.Proofs.LoadAll
import Verif.Proofs.Mpi
import Verif.Proofs.Sample
import Verif.Spec.Transform

/-! Loaded grids are consistent. -/

namespace Verif
open Grid
variable {F R : Type} [DecidableEq R]

/-- The corners of the faces of a merged load, in file order. -/
theorem Loaded.fileFaces {rc : Vec F → R} {blocks : List (ZoneBlock F)} {g g' : Grid F R} (l : Loaded rc true blocks g g') :
    Verif.fileFaces rc true blocks = g'.faces.map (fun f => (g'.fNodes f).map (fun n => ((0 : Nat), some (g'.nKey n)))) := by
  rw [l.order, List.map_flatMap]
  refine forall₂_zipIdx_flatMap l.rep ?_
  intro i b z _ _ hr
  refine forall₂_map_eq hr.faces ?_
  rintro fc _ f _ ⟨_, h⟩
  refine forall₂_map_eq h ?_
  rintro s _ n _ ⟨_, p, h1, h2, _⟩
  simp [cornerId, h1, h2]

/-- A merged load of a file in which no two faces have the same corners is consistent. -/
theorem Loaded.good {rc : Vec F → R} {blocks : List (ZoneBlock F)} {g g' : Grid F R} (l : Loaded rc true blocks g g')
    (ht : NoTwins rc blocks) : Good rc g' where
  mesh := l.mesh
  zones := l.zones
  zalloc := l.alloc
  alloc := ⟨l.nodes_lt, l.edges_lt, l.faces_lt⟩
  merged := ⟨l.keys, l.merged rfl, l.bag⟩
  simple := by
    unfold NoTwins at ht
    rw [l.fileFaces, List.pairwise_map] at ht
    intro f hf h hh hc
    by_contra hne
    haveI : Std.Symm (fun a b => ¬ ∀ c, c ∈ (g'.fNodes a).map (fun n => ((0 : Nat), some (g'.nKey n))) ↔
        c ∈ (g'.fNodes b).map (fun n => ((0 : Nat), some (g'.nKey n)))) := ⟨fun a b hab h => hab (fun c => (h c).symm)⟩
    refine List.Pairwise.forall ht hf hh hne ?_
    intro c
    simp only [List.mem_map, hc]
  glo := l.glo.perm

theorem Sample.good : Good Sample.rc Sample.grid := by
  refine Sample.loaded.2.good ?_
  have h : (Verif.fileFaces Sample.rc true Sample.blocks).Pairwise (fun s t => ∃ c ∈ s, c ∉ t) := by decide +kernel
  refine h.imp ?_
  rintro s t ⟨c, h1, h2⟩ h3
  exact h2 ((h3 c).1 h1)

theorem Sample.flat_good : Good Sample.rcq Sample.flatGrid := by
  have hv : ∀ b ∈ Sample.flat, b.Valid := by unfold ZoneBlock.Valid; decide +kernel
  have hd : NonDegenerate Sample.rcq true Sample.flat := by unfold NonDegenerate; decide +kernel
  rcases load_spec Sample.rcq true Grid.empty Sample.flat hv hd (by intro h; cases h) with ⟨_, h⟩ | ⟨_, g, h2, h3⟩
  · rw [Sample.flat_load] at h; cases h
  · rw [Sample.flat_load] at h2
    obtain rfl := Except.ok.inj h2
    refine h3.good ?_
    have h : (Verif.fileFaces Sample.rcq true Sample.flat).Pairwise (fun s t => ∃ c ∈ s, c ∉ t) := by decide +kernel
    refine h.imp ?_
    rintro s t ⟨c, h1, h2⟩ h3
    exact h2 ((h3 c).1 h1)

/-- Consistency of a sample grid from checks of its file. -/
theorem Sample.good_of {blocks : List (ZoneBlock Int)} {g : Grid Int (Int × Int × Int)} (hv : ∀ b ∈ blocks, b.Valid)
    (hd : NonDegenerate Sample.rc true blocks)
    (ht : (Verif.fileFaces Sample.rc true blocks).Pairwise (fun s t => ∃ c ∈ s, c ∉ t))
    (hl : loadBlocks Sample.rc true Sample.new blocks = .ok g) : Good Sample.rc g ∧ ZoneLists g := by
  rcases load_spec Sample.rc true Sample.new blocks hv hd (by intro h; cases h) with ⟨_, h⟩ | ⟨_, g, h2, h3⟩
  · rw [hl] at h; cases h
  · rw [hl] at h2
    obtain rfl := Except.ok.inj h2
    refine ⟨h3.good ?_, h3.lists⟩
    refine ht.imp ?_
    rintro s t ⟨c, h1, h2⟩ h3
    exact h2 ((h3 c).1 h1)

theorem Sample.square_load : loadBlocks Sample.rc true Sample.new Sample.square = .ok Sample.squareGrid := by
  have h : (loadBlocks Sample.rc true Sample.new Sample.square).isOk = true := by decide +kernel
  unfold Sample.squareGrid
  split
  · assumption
  · rename_i e he; rw [he] at h; cases h

theorem Sample.square_good : Good Sample.rc Sample.squareGrid ∧ ZoneLists Sample.squareGrid :=
  Sample.good_of (by decide +kernel) (by decide +kernel) (by decide +kernel) Sample.square_load

theorem Sample.tetra_load : loadBlocks Sample.rc true Sample.new Sample.tetra = .ok Sample.tetraGrid := by
  have h : (loadBlocks Sample.rc true Sample.new Sample.tetra).isOk = true := by decide +kernel
  unfold Sample.tetraGrid
  split
  · assumption
  · rename_i e he; rw [he] at h; cases h

theorem Sample.tetra_good : Good Sample.rc Sample.tetraGrid ∧ ZoneLists Sample.tetraGrid :=
  Sample.good_of (by decide +kernel) (by decide +kernel) (by decide +kernel) Sample.tetra_load

theorem Sample.bow_load : loadBlocks Sample.rc true Sample.new Sample.bow = .ok Sample.bowGrid := by
  have h : (loadBlocks Sample.rc true Sample.new Sample.bow).isOk = true := by decide +kernel
  unfold Sample.bowGrid
  split
  · assumption
  · rename_i e he; rw [he] at h; cases h

theorem Sample.bow_good : Good Sample.rc Sample.bowGrid ∧ ZoneLists Sample.bowGrid :=
  Sample.good_of (by decide +kernel) (by decide +kernel) (by decide +kernel) Sample.bow_load

theorem Sample.octa_load : loadBlocks Sample.rc true Sample.new Sample.octa = .ok Sample.octaGrid := by
  have h : (loadBlocks Sample.rc true Sample.new Sample.octa).isOk = true := by decide +kernel
  unfold Sample.octaGrid
  split
  · assumption
  · rename_i e he; rw [he] at h; cases h

theorem Sample.octa_good : Good Sample.rc Sample.octaGrid ∧ ZoneLists Sample.octaGrid :=
  Sample.good_of (by decide +kernel) (by decide +kernel) (by decide +kernel) Sample.octa_load

end Verif
