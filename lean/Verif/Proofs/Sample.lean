import Verif.Spec.Sample
import Verif.Spec.Load
import Verif.Proofs.LoadAll

/-! Facts about the sample files. -/

namespace Verif.Sample
open Verif Grid

instance (b : ZoneBlock Int) : Decidable b.Valid := by unfold ZoneBlock.Valid; infer_instance

instance (merge : Bool) (bs : List (ZoneBlock Int)) : Decidable (NonDegenerate rc merge bs) := by
  unfold NonDegenerate; infer_instance

theorem blocks_valid : ∀ b ∈ blocks, b.Valid := by decide +kernel
theorem blocks_nondegenerate : NonDegenerate rc true blocks := by decide +kernel
theorem blocks_load : loadBlocks rc true new blocks = .ok grid := by
  have h : (loadBlocks rc true new blocks).isOk = true := by decide +kernel
  unfold grid
  split
  · assumption
  · rename_i e he; rw [he] at h; cases h

theorem twins_load : loadBlocks rc false new twins = .ok twinsGrid := by
  have h : (loadBlocks rc false new twins).isOk = true := by decide +kernel
  unfold twinsGrid
  split
  · assumption
  · rename_i e he; rw [he] at h; cases h

theorem blocks_points : ZonePoints rc true blocks := by intro h; cases h

theorem loaded : ¬ OverShared rc true blocks ∧ Loaded rc true blocks new grid := by
  rcases load_spec rc true new blocks blocks_valid blocks_nondegenerate blocks_points with ⟨_, h⟩ | ⟨h1, g, h2, h3⟩
  · rw [blocks_load] at h; cases h
  · rw [blocks_load] at h2
    obtain rfl := Except.ok.inj h2
    exact ⟨h1, h3⟩

theorem wf : Wf grid := ⟨loaded.2.mesh, loaded.2.zones, loaded.2.alloc⟩

theorem faces : grid.faces = [0, 1, 2] := by decide +kernel
theorem zones : grid.zones = [0, 1] := by decide +kernel

theorem flat_load : loadBlocks rcq true Grid.empty flat = .ok flatGrid := by
  have h : (loadBlocks rcq true Grid.empty flat).isOk = true := by decide +kernel
  unfold flatGrid
  split
  · assumption
  · rename_i e he; rw [he] at h; cases h

theorem flat_wf : Wf flatGrid := by
  have hv : ∀ b ∈ flat, b.Valid := by unfold ZoneBlock.Valid; decide +kernel
  have hd : NonDegenerate rcq true flat := by unfold NonDegenerate; decide +kernel
  rcases load_spec rcq true Grid.empty flat hv hd (by intro h; cases h) with ⟨_, h⟩ | ⟨_, g, h2, h3⟩
  · rw [flat_load] at h; cases h
  · rw [flat_load] at h2
    obtain rfl := Except.ok.inj h2
    exact ⟨h3.mesh, h3.zones, h3.alloc⟩

end Verif.Sample
