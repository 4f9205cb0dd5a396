import Mathlib.Analysis.SpecialFunctions.Pow.Real
import Mathlib.Analysis.SpecialFunctions.Trigonometric.Basic

/-! The physics of a droplet in the air, as in textbooks; the numbers are those of drops.py 88-100. -/

namespace Verif.Drag

/-- Density of the air. -/
noncomputable def airDensity : ℝ := 1.292

/-- Density of water. -/
noncomputable def waterDensity : ℝ := 1000

/-- The Reynolds number of a ball of diameter `d` at relative speed `w`. -/
noncomputable def reynolds (d w : ℝ) : ℝ := w * d / 1.736e-5

/-- The drag coefficient for a Reynolds number. -/
noncomputable def coefficient (re : ℝ) : ℝ :=
  if re ≤ 350 then 24 / re * (1 + 0.166 * re ^ (0.33 : ℝ)) else 0.178 * re ^ (0.217 : ℝ)

/-- The mass of a ball of water. -/
noncomputable def mass (d : ℝ) : ℝ := waterDensity * (Real.pi * d ^ 3 / 6)

/-- The force on the ball: half the density times the coefficient times the area of the section times the speed squared. -/
noncomputable def force (d w : ℝ) : ℝ := airDensity / 2 * coefficient (reynolds d w) * (Real.pi * d ^ 2 / 4) * w ^ 2

end Verif.Drag
