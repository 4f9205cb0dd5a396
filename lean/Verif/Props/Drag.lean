import Verif.Proofs.Drag

/-! Property C132: the drag of the air on a droplet, over the real numbers. -/

namespace Verif.Props
open Verif Drag

/-- The speed of a velocity relative to another one. -/
noncomputable def speed (v u : Vec ℝ) : ℝ := Real.sqrt ((v.x - u.x) ^ 2 + (v.y - u.y) ^ 2 + (v.z - u.z) ^ 2)

theorem speed_mod (v u : Vec ℝ) : (v.sub u).mod Real.sqrt = speed v u := by
  simp only [Vec.mod, Vec.mod2, Vec.dot, Vec.sub, speed, pow_two]

theorem speed_pos {v u : Vec ℝ} (h : v ≠ u) : 0 < speed v u := by
  refine Real.sqrt_pos.2 ?_
  by_contra hn
  apply h
  have e1 : v.x - u.x = 0 := by nlinarith [sq_nonneg (v.x - u.x), sq_nonneg (v.y - u.y), sq_nonneg (v.z - u.z)]
  have e2 : v.y - u.y = 0 := by nlinarith [sq_nonneg (v.x - u.x), sq_nonneg (v.y - u.y), sq_nonneg (v.z - u.z)]
  have e3 : v.z - u.z = 0 := by nlinarith [sq_nonneg (v.x - u.x), sq_nonneg (v.y - u.y), sq_nonneg (v.z - u.z)]
  obtain ⟨x, y, z⟩ := v
  obtain ⟨x', y', z'⟩ := u
  simp only at e1 e2 e3
  rw [sub_eq_zero.1 e1, sub_eq_zero.1 e2, sub_eq_zero.1 e3]

/-- Newton's law: mass times the change of the velocity is the time step times the drag force, which points to the velocity of
the air (`(vAir - v) / speed` is its direction). -/
theorem C132_newton {d : ℝ} (hd : 0 < d) (p v vAir : Vec ℝ) (hv : v ≠ vAir) (dt : ℝ) :
    ∃ q u, flyStep Real.sqrt (fun x y : ℝ => x ^ y) p v vAir d dt = .ok (q, u) ∧
      mass d * (u.x - v.x) = dt * (force d (speed v vAir) * ((vAir.x - v.x) / speed v vAir)) ∧
      mass d * (u.y - v.y) = dt * (force d (speed v vAir) * ((vAir.y - v.y) / speed v vAir)) ∧
      mass d * (u.z - v.z) = dt * (force d (speed v vAir) * ((vAir.z - v.z) / speed v vAir)) := by
  have h0 := speed_pos hv
  refine ⟨_, _, flyStep_drag hd p v vAir dt (speed_mod v vAir) h0, ?_⟩
  have hm := mass_dragRate (w := speed v vAir) hd
  simp only [Vec.add, Vec.smul, Vec.sub, ← hm]
  refine ⟨?_, ?_, ?_⟩ <;> (field_simp; ring)

/-- The velocity relative to the air keeps its line: it is multiplied by `1 - c`, where `c` is the positive number
`dt * force / (mass * speed)`. -/
theorem C132_line {d : ℝ} (hd : 0 < d) (p v vAir : Vec ℝ) (hv : v ≠ vAir) {dt : ℝ} (ht : 0 < dt) :
    ∃ q u c, flyStep Real.sqrt (fun x y : ℝ => x ^ y) p v vAir d dt = .ok (q, u) ∧
      c = dt * force d (speed v vAir) / (mass d * speed v vAir) ∧ 0 < c ∧
      u.x - vAir.x = (1 - c) * (v.x - vAir.x) ∧ u.y - vAir.y = (1 - c) * (v.y - vAir.y) ∧
      u.z - vAir.z = (1 - c) * (v.z - vAir.z) ∧ speed u vAir = |1 - c| * speed v vAir := by
  have h0 := speed_pos hv
  have hm := mass_dragRate (w := speed v vAir) hd
  have hmp : 0 < mass d := by unfold mass waterDensity; positivity
  refine ⟨_, _, dragRate d (speed v vAir) * dt, flyStep_drag hd p v vAir dt (speed_mod v vAir) h0, ?_, ?_, ?_, ?_, ?_, ?_⟩
  · rw [← hm]; field_simp
  · exact mul_pos (dragRate_pos hd h0) ht
  · simp only [Vec.add, Vec.smul, Vec.sub]; ring
  · simp only [Vec.add, Vec.smul, Vec.sub]; ring
  · simp only [Vec.add, Vec.smul, Vec.sub]; ring
  · rw [← Real.sqrt_sq_eq_abs]
    unfold speed
    rw [← Real.sqrt_mul (sq_nonneg _)]
    congr 1
    simp only [Vec.add, Vec.smul, Vec.sub]; ring

/-- Missing for C132: time steps that are too long, see `C132_overshoot_violation`. A droplet does not get faster relative to the air
exactly if the time step is at most `2 * mass * speed / force`; it does not pass the velocity of the air exactly if it is at most half of that. -/
theorem C132_slower_partial {d : ℝ} (hd : 0 < d) (p v vAir : Vec ℝ) (hv : v ≠ vAir) {dt : ℝ} (ht : 0 < dt) :
    ∃ q u, flyStep Real.sqrt (fun x y : ℝ => x ^ y) p v vAir d dt = .ok (q, u) ∧
      (speed u vAir ≤ speed v vAir ↔ dt * force d (speed v vAir) ≤ 2 * (mass d * speed v vAir)) ∧
      ((0 ≤ (u.x - vAir.x) * (v.x - vAir.x) ∧ 0 ≤ (u.y - vAir.y) * (v.y - vAir.y) ∧ 0 ≤ (u.z - vAir.z) * (v.z - vAir.z)) ↔
        dt * force d (speed v vAir) ≤ mass d * speed v vAir) := by
  obtain ⟨q, u, c, h1, h2, h3, h4, h5, h6, h7⟩ := C132_line hd p v vAir hv ht
  have h0 := speed_pos hv
  have hmp : 0 < mass d * speed v vAir := mul_pos (by unfold mass waterDensity; positivity) h0
  refine ⟨q, u, h1, ?_, ?_⟩
  · have e : dt * force d (speed v vAir) ≤ 2 * (mass d * speed v vAir) ↔ c ≤ 2 := by rw [h2, div_le_iff₀ hmp]
    rw [e, h7]
    constructor
    · intro h
      have : |1 - c| ≤ 1 := by
        by_contra hn
        have := mul_lt_mul_of_pos_right (not_le.1 hn) h0
        linarith
      linarith [(abs_le.1 this).1]
    · intro h
      have : |1 - c| ≤ 1 := abs_le.2 ⟨by linarith, by linarith⟩
      exact mul_le_of_le_one_left h0.le this
  · have e : dt * force d (speed v vAir) ≤ mass d * speed v vAir ↔ c ≤ 1 := by rw [h2, div_le_iff₀ hmp, one_mul]
    rw [e, h4, h5, h6]
    constructor
    · rintro ⟨k1, k2, k3⟩
      by_contra hn
      apply hv
      have hc : 1 - c < 0 := by linarith [not_le.1 hn]
      have z : ∀ t : ℝ, 0 ≤ (1 - c) * t * t → t = 0 := by
        intro t h
        by_contra ht
        have := mul_neg_of_neg_of_pos hc (mul_self_pos.2 ht)
        linarith [mul_assoc (1 - c) t t]
      have e1 := z _ k1
      have e2 := z _ k2
      have e3 := z _ k3
      obtain ⟨x, y, z⟩ := v
      obtain ⟨x', y', z'⟩ := vAir
      simp only at e1 e2 e3
      rw [sub_eq_zero.1 e1, sub_eq_zero.1 e2, sub_eq_zero.1 e3]
    · intro h
      refine ⟨?_, ?_, ?_⟩ <;> (rw [mul_assoc]; exact mul_nonneg (by linarith) (mul_self_nonneg _))

/-- A droplet of ten micrometres at a thousand metres per second in air at rest turns back and gets more than five times as fast in a step of
a tenth of a millisecond. -/
theorem C132_overshoot_violation : ∃ q u, flyStep Real.sqrt (fun x y : ℝ => x ^ y) ⟨0, 0, 0⟩ ⟨1000, 0, 0⟩ ⟨0, 0, 0⟩ 1e-5 1e-4 = .ok (q, u) ∧
    u.x < -5000 := by
  have hs : speed ⟨1000, 0, 0⟩ ⟨0, 0, 0⟩ = 1000 := by
    unfold speed
    norm_num
    rw [show (1000000 : ℝ) = 1000 ^ 2 by norm_num]
    exact Real.sqrt_sq (by norm_num)
  refine ⟨_, _, flyStep_drag (by norm_num) _ _ _ _ (speed_mod _ _) (by rw [hs]; norm_num), ?_⟩
  rw [hs]
  have hr : (350 : ℝ) < reynolds 1e-5 1000 := by unfold reynolds; norm_num
  have hc : 0.62 < coefficient (reynolds 1e-5 1000) := (coefficient_jump hr).2
  simp only [Vec.add, Vec.smul, Vec.sub, dragRate, airDensity, waterDensity]
  norm_num
  linarith

/-- The drag is not continuous: at the Reynolds number 350 the smallest increase of the relative speed makes the acceleration more than four
times as large. (The formula for smaller numbers would fit with the exponent 0.66 instead of 0.33.) -/
theorem C132_jump_violation {d : ℝ} (hd : 0 < d) : ∃ s, reynolds d s = 350 ∧ 0 < s ∧ ∀ s', s < s' →
    ∃ q u q' u', flyStep Real.sqrt (fun x y : ℝ => x ^ y) ⟨0, 0, 0⟩ ⟨0, 0, 0⟩ ⟨s, 0, 0⟩ d 1 = .ok (q, u) ∧
      flyStep Real.sqrt (fun x y : ℝ => x ^ y) ⟨0, 0, 0⟩ ⟨0, 0, 0⟩ ⟨s', 0, 0⟩ d 1 = .ok (q', u') ∧
      0 < u.x ∧ 4 * u.x < u'.x := by
  have hs0 : (0 : ℝ) < 350 * 1.736e-5 / d := by positivity
  have hre : reynolds d (350 * 1.736e-5 / d) = 350 := by unfold reynolds; field_simp
  refine ⟨350 * 1.736e-5 / d, hre, hs0, fun s' hs' => ?_⟩
  have hsp : ∀ s : ℝ, 0 < s → speed ⟨0, 0, 0⟩ ⟨s, 0, 0⟩ = s := by
    intro s hs
    unfold speed
    simp [Real.sqrt_sq hs.le]
  generalize 350 * 1.736e-5 / d = s at *
  have hs0' : 0 < s' := hs0.trans hs'
  have hre' : 350 < reynolds d s' := by
    rw [← hre]
    unfold reynolds
    have : s * d < s' * d := by nlinarith
    exact div_lt_div_of_pos_right this (by norm_num)
  obtain ⟨j1, j2⟩ := coefficient_jump hre'
  refine ⟨_, _, _, _, flyStep_drag hd _ _ _ _ (speed_mod _ _) (by rw [hsp s hs0]; exact hs0),
    flyStep_drag hd _ _ _ _ (speed_mod _ _) (by rw [hsp s' hs0']; exact hs0'), ?_⟩
  rw [hsp s hs0, hsp s' hs0']
  have p1 := dragRate_pos hd hs0
  have hk : 4 * (s * dragRate d s) < s' * dragRate d s' := by
    have e1 : s * dragRate d s = (3 / 4 * airDensity / (d * waterDensity)) * (coefficient 350 * s ^ 2) := by
      unfold dragRate; rw [hre]; ring
    have e2 : s' * dragRate d s' = (3 / 4 * airDensity / (d * waterDensity)) * (coefficient (reynolds d s') * s' ^ 2) := by
      unfold dragRate; ring
    have hpos : 0 < 3 / 4 * airDensity / (d * waterDensity) := by unfold airDensity waterDensity; positivity
    rw [e1, e2]
    have hsq : s ^ 2 < s' ^ 2 := by nlinarith
    have c0 : 0 < coefficient 350 := coefficient_pos (by norm_num)
    have : 4 * (coefficient 350 * s ^ 2) < coefficient (reynolds d s') * s' ^ 2 := by nlinarith [sq_nonneg s, pow_pos hs0 2]
    nlinarith
  simp only [Vec.add, Vec.smul, Vec.sub, zero_add, mul_one, sub_zero]
  exact ⟨mul_pos hs0 p1, hk⟩

/-- There are short enough time steps for a droplet at rest in air moving with one metre per second. -/
example : ∃ dt : ℝ, 0 < dt ∧ (⟨0, 0, 0⟩ : Vec ℝ) ≠ ⟨1, 0, 0⟩ ∧
    dt * force 1e-5 (speed ⟨0, 0, 0⟩ ⟨1, 0, 0⟩) ≤ mass 1e-5 * speed ⟨0, 0, 0⟩ ⟨1, 0, 0⟩ := by
  have hs : speed ⟨0, 0, 0⟩ ⟨1, 0, 0⟩ = 1 := by unfold speed; norm_num
  have hm : 0 < mass 1e-5 := by unfold mass waterDensity; positivity
  have hf : 0 < force 1e-5 1 := by
    rw [← mass_dragRate (by norm_num)]
    have := dragRate_pos (d := 1e-5) (w := 1) (by norm_num) (by norm_num)
    positivity
  refine ⟨mass 1e-5 / force 1e-5 1, by positivity, by simp, ?_⟩
  rw [hs, div_mul_cancel₀ _ hf.ne', mul_one]

end Verif.Props
