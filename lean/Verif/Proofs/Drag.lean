import Verif.Proofs.Drops
import Verif.Spec.Drag

/-! The step of a droplet with its numbers. -/

namespace Verif
open Drag

/-- The part of the relative velocity that a droplet loses in a unit of time. -/
noncomputable def dragRate (d w : ℝ) : ℝ := 3 / 4 * (coefficient (reynolds d w) * airDensity / (d * waterDensity)) * w

theorem coefficient_pos {re : ℝ} (h : 0 < re) : 0 < coefficient re := by
  unfold coefficient
  split_ifs
  · positivity
  · positivity

theorem flyStep_drag {d : ℝ} (hd : 0 < d) (p v vAir : Vec ℝ) (dt : ℝ) {w : ℝ} (hw : (v.sub vAir).mod Real.sqrt = w) (h0 : 0 < w) :
    flyStep Real.sqrt (fun x y : ℝ => x ^ y) p v vAir d dt =
      .ok (p.add (v.smul dt), v.add (((vAir.sub v).smul (dragRate d w)).smul dt)) := by
  unfold flyStep
  rw [hw]
  have hr : 0 < w * d / (1736 / 10 ^ 8) := by positivity
  have hd' : d * 1000 ≠ 0 := by positivity
  have e : reynolds d w = w * d / (1736 / 10 ^ 8) := by unfold reynolds; norm_num
  have key : ∀ cd, cd = coefficient (reynolds d w) →
      v.add (((((vAir.sub v).smul (3 / 4)).smul (cd * (1292 / 1000) / (d * 1000))).smul w).smul dt) =
        v.add (((vAir.sub v).smul (dragRate d w)).smul dt) := by
    rintro _ rfl
    have : 3 / 4 * (coefficient (reynolds d w) * (1292 / 1000) / (d * 1000)) * w = dragRate d w := by
      unfold dragRate airDensity waterDensity; norm_num
    rw [← this]
    simp only [Vec.smul, mul_assoc]
  dsimp only
  rw [if_neg hr.ne', if_neg (not_lt.2 hr.le)]
  by_cases h350 : w * d / (1736 / 10 ^ 8) ≤ 350
  · rw [if_pos h350, res_bind_ok, if_neg hd', key]
    rw [e]
    unfold coefficient
    rw [if_pos h350]
    norm_num
  · rw [if_neg h350, res_bind_ok, if_neg hd', key]
    rw [e]
    unfold coefficient
    rw [if_neg h350]
    norm_num

theorem dragRate_pos {d w : ℝ} (hd : 0 < d) (hw : 0 < w) : 0 < dragRate d w := by
  have h1 : 0 < reynolds d w := by unfold reynolds; positivity
  have := coefficient_pos h1
  unfold dragRate airDensity waterDensity
  positivity

/-- Newton's law. -/
theorem mass_dragRate {d w : ℝ} (hd : 0 < d) : mass d * (dragRate d w * w) = force d w := by
  unfold mass dragRate force waterDensity
  field_simp
  ring

theorem pow33_lt : (350 : ℝ) ^ (0.33 : ℝ) < 7 := by
  have h : ((350 : ℝ) ^ (0.33 : ℝ)) ^ 100 < 7 ^ 100 := by
    rw [← Real.rpow_natCast, ← Real.rpow_mul (by norm_num), show (0.33 : ℝ) * (100 : ℕ) = (33 : ℕ) by norm_num, Real.rpow_natCast]
    norm_num
  exact lt_of_pow_lt_pow_left₀ 100 (by norm_num) h

theorem pow217_gt {re : ℝ} (h : 350 ≤ re) : 3.5 < re ^ (0.217 : ℝ) := by
  have h1 : (350 : ℝ) ^ (0.217 : ℝ) ≤ re ^ (0.217 : ℝ) := Real.rpow_le_rpow (by norm_num) h (by norm_num)
  have h2 : (350 : ℝ) ^ (0.216 : ℝ) ≤ 350 ^ (0.217 : ℝ) := Real.rpow_le_rpow_of_exponent_le (by norm_num) (by norm_num)
  refine lt_of_lt_of_le ?_ (h2.trans h1)
  have h : (3.5 : ℝ) ^ 125 < ((350 : ℝ) ^ (0.216 : ℝ)) ^ 125 := by
    rw [← Real.rpow_natCast ((350 : ℝ) ^ (0.216 : ℝ)), ← Real.rpow_mul (by norm_num), show (0.216 : ℝ) * (125 : ℕ) = (27 : ℕ) by norm_num, Real.rpow_natCast]
    norm_num
  exact lt_of_pow_lt_pow_left₀ 125 (by positivity) h

theorem coefficient_jump {re : ℝ} (h : 350 < re) : coefficient 350 < 0.15 ∧ 0.62 < coefficient re := by
  constructor
  · unfold coefficient
    rw [if_pos le_rfl]
    have := pow33_lt
    linarith
  · unfold coefficient
    rw [if_neg (not_le.2 h)]
    have := pow217_gt h.le
    linarith

end Verif
