import Verif.Proofs.HierOrder
import Verif.Props.HierSizes

/-! Property C137: units and origin do not matter for `decompose_hierarchical`. -/

namespace Verif.Props
open Verif Grid
variable {F R : Type}

/-- Two lists of sign functions that put the faces of the grid into the same orders, one by one, give the same result of
`decompose_hierarchical`, be it a grid or an exception. -/
theorem C137_order {S T : Type} [LinearOrder S] [LinearOrder T] (g : Grid F R) (hw : Wf g) (fns : List (Nat → S))
    (fns' : List (Nat → T)) (hlen : fns.length = fns'.length)
    (ho : ∀ (i : Nat) (fn : Nat → S) (fn' : Nat → T), fns[i]? = some fn → fns'[i]? = some fn' →
      ∀ a ∈ g.faces, ∀ b ∈ g.faces, (fn a ≤ fn b ↔ fn' a ≤ fn' b)) (levels : Nat) (nm : Option Str) (names : List Str) :
    g.decomposeHierarchical fns levels nm names = g.decomposeHierarchical fns' levels nm names := by
  have h2 : List.Forall₂ (SameOrder g.faces) fns fns' := by
    rw [List.forall₂_iff_get]
    refine ⟨hlen, fun i h1 h2 => ho i _ _ ?_ ?_⟩
    · simp [List.getElem?_eq_getElem h1]
    · simp [List.getElem?_eq_getElem h2]
  obtain ⟨s, h1, -, -, -, -, h5⟩ := hier_begin g hw nm names
  rw [h5 S fns, h5 T fns', splitLevels_order hw.mesh h2 (levels - 1) s h1]

/-- In particular other units and another origin on each axis give the same decomposition. -/
theorem C137_units [Field F] [LinearOrder F] [IsStrictOrderedRing F] (g : Grid F R) (hw : Wf g) (kx ky kz tx ty tz : F)
    (hx : 0 < kx) (hy : 0 < ky) (hz : 0 < kz) (levels : Nat) (nm : Option Str) (names : List Str) :
    g.decomposeHierarchical [fun f => kx * (g.getCenter f).x + tx, fun f => ky * (g.getCenter f).y + ty,
        fun f => kz * (g.getCenter f).z + tz] levels nm names =
      g.decomposeHierarchical g.centerSigns levels nm names := by
  refine C137_order (S := F) (T := F) g hw _ _ (by rfl) ?_ levels nm names
  intro i fn fn' h1 h2 a _ b _
  match i with
  | 0 => cases h1; cases h2; simp only [add_le_add_iff_right, mul_le_mul_iff_right₀ hx]
  | 1 => cases h1; cases h2; simp only [add_le_add_iff_right, mul_le_mul_iff_right₀ hy]
  | 2 => cases h1; cases h2; simp only [add_le_add_iff_right, mul_le_mul_iff_right₀ hz]
  | _ + 3 => simp at h1

/-- The strip of four triangles in other units: the decomposition into four zones returns. -/
example : Wf climb ∧ (0 : ℚ) < 1 / 1000 ∧ ∃ g', climb.decomposeHierarchical climb.centerSigns 3 none [] = .ok g' :=
  ⟨climb_wf, by norm_num, C14_returns_partial climb climb_wf climb.centerSigns 3 none [] (by omega) _ rfl (by decide +kernel)⟩

end Verif.Props
