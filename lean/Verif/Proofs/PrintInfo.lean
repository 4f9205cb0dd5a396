import Verif.Model.PrintInfo
import Verif.Proofs.DoubleMul
import Verif.Proofs.DoubleAdd
import Mathlib.Analysis.Real.Sqrt
import Mathlib.Tactic.Positivity

/-! Errors of the numbers that `print_info` prints. -/

namespace Verif.Double

/-- Every number is changed by no more than a part of `2 ^ -53` of it, or next to nothing. -/
theorem bitsOf_err {r : ℚ} (hr : 0 ≤ r) : |mag (bitsOf r) - r| * 2 ^ 53 ≤ r + 1 / 2 ^ 100 := by
  obtain ⟨k, q, hp, hq, hlo⟩ := bitsOf_parts hr
  obtain ⟨P, eP, hP⟩ := scale_ex
  have hP2 : (2 : ℚ) ^ 152 ≤ P := by rw [eP]; exact pow_le_pow_right₀ (by norm_num) (by norm_num)
  rw [← eP] at hq hlo
  have hs : |mag (bitsOf r) - r| = |(units (bitsOf r) : ℚ) - r * P| / P := mag_scale eP hP _ _
  clear eP
  rw [hs, units_parts hp, div_mul_eq_mul_div, div_le_iff₀ hP]
  clear hs hp
  have hu : 0 ≤ r * P := mul_nonneg hr hP.le
  have hT : (2 : ℚ) ^ 52 ≤ 1 / 2 ^ 100 * P := by
    have : (1 : ℚ) / 2 ^ 100 * 2 ^ 152 ≤ 1 / 2 ^ 100 * P := mul_le_mul_of_nonneg_left hP2 (by norm_num)
    norm_num at this ⊢
    linarith
  rw [add_mul]
  generalize 1 / 2 ^ 100 * P = T at *
  generalize r * P = u at *
  have pk := pow_pos_q k
  have h1 := rne_near (div_nonneg hu pk.le)
  rw [← hq] at h1
  have h2 : |((q * 2 ^ k : Nat) : ℚ) - u| = |(q : ℚ) - u / 2 ^ k| * 2 ^ k := by
    rw [← abs_of_pos pk, ← abs_mul, abs_of_pos pk, sub_mul, div_mul_cancel₀ _ pk.ne', Nat.cast_mul, Nat.cast_pow, Nat.cast_ofNat]
  rw [h2]
  have h3 := mul_le_mul_of_nonneg_right h1 pk.le
  generalize |(q : ℚ) - u / 2 ^ k| * 2 ^ k = z at *
  rcases hlo with rfl | h
  · rw [pow_zero] at h3
    linarith
  · linarith

theorem big_limit {r : ℚ} (h : r ≤ 2 ^ 900) : r < (2 ^ 54 - 1) * 2 ^ 970 := by
  have h1 : (2 : ℚ) ^ 970 = 2 ^ 900 * 2 ^ 70 := by rw [← pow_add]
  rw [h1]
  have := pow_pos_q 900
  generalize (2 : ℚ) ^ 900 = X at *
  have h3 : (2 ^ 54 - 1) * (X * 2 ^ 70) = X * ((2 ^ 54 - 1) * 2 ^ 70) := by ring
  rw [h3]
  have : X * 1 < X * ((2 ^ 54 - 1) * 2 ^ 70) := mul_lt_mul_of_pos_left (by norm_num) this
  rw [mul_one] at this
  exact lt_of_le_of_lt h this

theorem ofMag_err {r : ℚ} (neg : Bool) (hr : 0 ≤ r) (h : r ≤ 2 ^ 900) :
    ∃ b, ofMag neg r = num neg b ∧ b.val = bitsOf r ∧ |mag b - r| * 2 ^ 53 ≤ r + 1 / 2 ^ 100 := by
  obtain ⟨w, hw, e⟩ := ofMag_finite (neg := neg) ((bitsOf_limit hr).2 (big_limit h))
  exact ⟨w, e, hw, by rw [hw]; exact bitsOf_err hr⟩

/-- `n / d` with the bounds used below. -/
theorem le_big {r : ℚ} {k : Nat} (hk : k ≤ 900) (h : r ≤ 2 ^ k) : r ≤ 2 ^ 900 := h.trans (pow_le_pow_right₀ (by norm_num) hk)

/-! ## Quality factors -/

theorem root_near (n : Nat) : |((((2 * Nat.sqrt (n * 4 ^ 60) + if Nat.sqrt (n * 4 ^ 60) * Nat.sqrt (n * 4 ^ 60) = n * 4 ^ 60 then 0 else 1 : Nat) : ℚ) /
    2 ^ 61 : ℚ) : ℝ) - √(n : ℝ)| ≤ 1 / 2 ^ 60 := by
  have h1 : (Nat.sqrt (n * 4 ^ 60) : ℝ) ≤ √(n : ℝ) * 2 ^ 60 := by
    have : ((Nat.sqrt (n * 4 ^ 60) : ℝ)) ^ 2 ≤ n * 4 ^ 60 := by exact_mod_cast Nat.sqrt_le' (n * 4 ^ 60)
    have h := Real.le_sqrt_of_sq_le this
    rwa [Real.sqrt_mul (by positivity), show √((4 : ℝ) ^ 60) = 2 ^ 60 by
      rw [show (4 : ℝ) ^ 60 = (2 ^ 60) ^ 2 by norm_num]; exact Real.sqrt_sq (by positivity)] at h
  have h2 : √(n : ℝ) * 2 ^ 60 < Nat.sqrt (n * 4 ^ 60) + 1 := by
    have : ((n * 4 ^ 60 : Nat) : ℝ) < (Nat.sqrt (n * 4 ^ 60) + 1 : Nat) ^ 2 := by exact_mod_cast Nat.lt_succ_sqrt' (n * 4 ^ 60)
    have h := Real.sqrt_lt_sqrt (by positivity) this
    rw [Real.sqrt_sq (by positivity)] at h
    rw [Nat.cast_mul, Nat.cast_pow, Nat.cast_ofNat, Nat.cast_add, Nat.cast_one] at h
    rwa [Real.sqrt_mul (by positivity), show √((4 : ℝ) ^ 60) = 2 ^ 60 by
      rw [show (4 : ℝ) ^ 60 = (2 ^ 60) ^ 2 by norm_num]; exact Real.sqrt_sq (by positivity)] at h
  generalize Nat.sqrt (n * 4 ^ 60) = m at *
  generalize √(n : ℝ) = s at *
  have h3 : ∃ σ : ℝ, 0 ≤ σ ∧ σ ≤ 1 ∧ ((((2 * m + if m * m = n * 4 ^ 60 then 0 else 1 : Nat) : ℚ) / 2 ^ 61 : ℚ) : ℝ) = (2 * m + σ) / 2 ^ 61 := by
    split
    · exact ⟨0, le_refl _, by norm_num, by push_cast; rfl⟩
    · exact ⟨1, by norm_num, le_refl _, by push_cast; rfl⟩
  obtain ⟨σ, s0, s1, e⟩ := h3
  rw [e, abs_le]
  constructor
  · rw [neg_le_sub_iff_le_add, ← sub_nonneg]
    have : (2 * (m : ℝ) + σ) / 2 ^ 61 + 1 / 2 ^ 60 - s = (2 * m + σ + 2 - 2 * (s * 2 ^ 60)) / 2 ^ 61 := by ring
    rw [this]
    exact div_nonneg (by linarith) (by positivity)
  · rw [← sub_nonneg]
    have : 1 / 2 ^ 60 - ((2 * (m : ℝ) + σ) / 2 ^ 61 - s) = (2 * (s * 2 ^ 60) + 2 - 2 * m - σ) / 2 ^ 61 := by ring
    rw [this]
    exact div_nonneg (by linarith) (by positivity)

theorem abs_real {a b c : ℚ} (h : |a - b| ≤ c) : |(a : ℝ) - b| ≤ c := by exact_mod_cast h

/-- The quality factor as numpy computes it. -/
theorem quality_near {n k : Nat} (hn : n < 2 ^ 40) (hk : 0 < k) (hk2 : k < 2 ^ 53) :
    ∃ b, sqrtNat n / (k : Double) = num false b ∧ |((mag b : ℚ) : ℝ) - √(n : ℝ) / k| ≤ 1 / 10 ^ 9 := by
  have hr := root_near n
  unfold sqrtNat
  dsimp only
  have hq0 : (0 : ℚ) ≤ ((2 * Nat.sqrt (n * 4 ^ 60) + if Nat.sqrt (n * 4 ^ 60) * Nat.sqrt (n * 4 ^ 60) = n * 4 ^ 60 then 0 else 1 : Nat) : ℚ) / 2 ^ 61 := by
    positivity
  generalize ((2 * Nat.sqrt (n * 4 ^ 60) + if Nat.sqrt (n * 4 ^ 60) * Nat.sqrt (n * 4 ^ 60) = n * 4 ^ 60 then 0 else 1 : Nat) : ℚ) / 2 ^ 61 = s0 at *
  have hs : √(n : ℝ) ≤ 2 ^ 20 := by
    rw [Real.sqrt_le_left (by positivity)]
    have : (n : ℝ) < 2 ^ 40 := by exact_mod_cast hn
    linarith
  generalize √(n : ℝ) = s at *
  have hs0 : s0 ≤ 2 ^ 20 + 1 := by
    have := (abs_le.1 hr).2
    have h1 : (s0 : ℝ) ≤ 2 ^ 20 + 1 := by
      have : (1 : ℝ) / 2 ^ 60 ≤ 1 := by norm_num
      linarith
    exact_mod_cast h1
  obtain ⟨b1, e1, -, v1⟩ := ofMag_err false hq0 (le_big (k := 21) (by norm_num) (by linarith))
  obtain ⟨b2, e2, v2⟩ := ofMag_nat hk2
  rw [div_def, nat_def, e1, e2, div, v2]
  have kq : (1 : ℚ) ≤ k := by exact_mod_cast hk
  rw [if_neg (by linarith), Bool.xor_self]
  have hm := mag_nonneg b1
  generalize mag b1 = s1 at *
  have hs1 : s1 ≤ 2 ^ 21 := by
    have := (abs_le.1 (le_refl |s1 - s0|)).2
    linarith
  have hd0 : 0 ≤ s1 / k := div_nonneg hm (by linarith)
  have hd1 : s1 / k ≤ 2 ^ 21 := (div_le_self hm kq).trans hs1
  obtain ⟨b3, e3, -, v3⟩ := ofMag_err false hd0 (le_big (k := 21) (by norm_num) hd1)
  refine ⟨b3, e3, ?_⟩
  have kr : (1 : ℝ) ≤ k := by exact_mod_cast hk
  have a1 : |(s1 : ℝ) - s0| ≤ 1 / 2 ^ 32 := by
    have h : |s1 - s0| ≤ 1 / 2 ^ 32 := by linarith
    have := abs_real h
    push_cast at this
    exact this
  have a3 : |((mag b3 : ℚ) : ℝ) - (s1 : ℝ) / k| ≤ 1 / 2 ^ 31 := by
    have h : |mag b3 - s1 / k| ≤ 1 / 2 ^ 31 := by linarith
    have := abs_real h
    push_cast at this
    exact this
  have a4 : |(s1 : ℝ) / k - s / k| ≤ 1 / 2 ^ 32 + 1 / 2 ^ 60 := by
    rw [← sub_div, abs_div, abs_of_pos (by linarith : (0 : ℝ) < k)]
    refine (div_le_self (abs_nonneg _) kr).trans ?_
    have : (s1 : ℝ) - s = (s1 - s0) + (s0 - s) := by ring
    rw [this]
    exact (abs_add_le _ _).trans (add_le_add a1 hr)
  have e : ((mag b3 : ℚ) : ℝ) - s / k = ((mag b3 : ℚ) - (s1 : ℝ) / k) + ((s1 : ℝ) / k - s / k) := by ring
  rw [e]
  refine (abs_add_le _ _).trans ((add_le_add a3 a4).trans ?_)
  norm_num

/-! ## Deviation -/

/-- The chain of roundings: `t` the rounded mean in units of the mean, `x` the largest zone in the same units. -/
theorem chain_aux {x t a p D z e : ℚ} (he : e = 1 / 2 ^ 53) (hx : 1 ≤ x) (hz : x ≤ z) (ht : |t - 1| ≤ 2 * e) (htx : t ≤ x)
    (ha : |a - (x - t)| ≤ e * (x - t)) (hp : |p - 100 * a| ≤ e * (100 * a)) (hD : |D - p / t| ≤ e * (p / t + 1 / 2 ^ 100)) :
    |D - 100 * (x - 1)| ≤ z / 2 ^ 42 := by
  have he0 : 0 < e := by rw [he]; norm_num
  have he1 : e ≤ 1 / 1000 := by rw [he]; norm_num
  rw [abs_le] at ht ha hp
  have t1 : 1 / 2 ≤ t := by linarith [ht.1]
  have tpos : 0 < t := by linarith
  have y0 : 0 ≤ x - t := by linarith
  have yz : x - t ≤ z := by linarith
  have z1 : 1 ≤ z := by linarith
  have f1 : e * (x - t) ≤ e * z := mul_le_mul_of_nonneg_left yz he0.le
  have fz : 0 ≤ e * z := by positivity
  have a0 : 0 ≤ a := by
    have : e * (x - t) ≤ 1 * (x - t) := mul_le_mul_of_nonneg_right (by linarith) y0
    linarith [ha.1]
  have az : a ≤ 2 * z := by
    have : e * z ≤ 1 * z := mul_le_mul_of_nonneg_right (by linarith) (by linarith)
    linarith [ha.2]
  have f2 : e * (100 * a) ≤ 200 * (e * z) := by
    have := mul_le_mul_of_nonneg_left az he0.le
    linarith
  have p0 : 0 ≤ p := by
    have : e * (100 * a) ≤ 1 * (100 * a) := mul_le_mul_of_nonneg_right (by linarith) (by linarith)
    linarith [hp.1]
  have hpt : |p - 100 * (x - t)| ≤ 300 * (e * z) := by
    rw [abs_le]; constructor <;> linarith [hp.1, hp.2, ha.1, ha.2]
  have pz : p ≤ 400 * z := by
    have : e * z ≤ 1 / 1000 * z := mul_le_mul_of_nonneg_right he1 (by linarith)
    linarith [(abs_le.1 hpt).2]
  have r1 : p / t ≤ 800 * z := by
    rw [div_le_iff₀ tpos]
    have : 800 * z * (1 / 2) ≤ 800 * z * t := mul_le_mul_of_nonneg_left t1 (by linarith)
    linarith
  have r0 : 0 ≤ p / t := div_nonneg p0 tpos.le
  have d1 : |D - p / t| ≤ 801 * (e * z) := by
    refine hD.trans ?_
    have : e * (p / t + 1 / 2 ^ 100) ≤ e * (801 * z) := mul_le_mul_of_nonneg_left (by
      have : (1 : ℚ) / 2 ^ 100 ≤ 1 := by norm_num
      linarith) he0.le
    linarith
  have d2 : |p / t - 100 * (x - 1)| ≤ 1000 * (e * z) := by
    have e1 : p / t - 100 * (x - 1) = (p - 100 * (x - t) + 100 * x * (1 - t)) / t := by field_simp; ring
    rw [e1, abs_div, abs_of_pos tpos, div_le_iff₀ tpos]
    have h1 : |100 * x * (1 - t)| ≤ 200 * (e * z) := by
      rw [abs_mul, abs_of_nonneg (by linarith : 0 ≤ 100 * x)]
      have : |1 - t| ≤ 2 * e := by rw [abs_le]; constructor <;> linarith [ht.1, ht.2]
      calc 100 * x * |1 - t| ≤ 100 * x * (2 * e) := mul_le_mul_of_nonneg_left this (by linarith)
        _ = 200 * e * x := by ring
        _ ≤ 200 * e * z := mul_le_mul_of_nonneg_left hz (by linarith)
        _ = 200 * (e * z) := by ring
    have h2 := (abs_add_le (p - 100 * (x - t)) (100 * x * (1 - t))).trans (add_le_add hpt h1)
    have h3 : 1000 * (e * z) * (1 / 2) ≤ 1000 * (e * z) * t := mul_le_mul_of_nonneg_left t1 (by linarith)
    linarith
  have e2 : D - 100 * (x - 1) = (D - p / t) + (p / t - 100 * (x - 1)) := by ring
  rw [e2]
  refine (abs_add_le _ _).trans ((add_le_add d1 d2).trans ?_)
  have : 801 * (e * z) + 1000 * (e * z) = 1801 / 2 ^ 53 * z := by rw [he]; ring
  rw [this]
  have : (1801 : ℚ) / 2 ^ 53 * z ≤ 1 / 2 ^ 42 * z := mul_le_mul_of_nonneg_right (by norm_num) (by linarith)
  linarith

theorem units_mag (n : Nat) : mag n * 2 ^ 1074 = units n := by
  obtain ⟨P, eP, hP⟩ := scale_ex
  rw [mag, ← eP]
  exact div_mul_cancel₀ _ hP.ne'

theorem sub_def (x : Double) (b : Bool) (n : Fin (2047 * 2 ^ 52)) : x - num b n = x + num (!b) n := rfl

theorem scaled {v w m e : ℚ} (hm : 0 < m) (h : |v - w| ≤ e * w) : |v / m - w / m| ≤ e * (w / m) := by
  rw [← sub_div, abs_div, abs_of_pos hm, ← mul_div_assoc]
  exact div_le_div_of_nonneg_right h hm.le

/-- The deviation of the largest zone from the mean. -/
theorem deviation_near {n z M : Nat} (hz : 0 < z) (hn : 0 < n) (hn2 : n < 2 ^ 38) (hz2 : z < 2 ^ 38) (hM : M ≤ n) (hM2 : n ≤ M * z) :
    ∃ b1 b, ofMag false ((n : ℚ) / z) = num false b1 ∧ mag b1 ≠ 0 ∧ 100 * ((M : Double) - num false b1) / num false b1 = num false b ∧
      |mag b - 100 * (M - n / z) / (n / z)| ≤ z / 2 ^ 42 := by
  have zq : (1 : ℚ) ≤ z := by exact_mod_cast hz
  have nq : (1 : ℚ) ≤ n := by exact_mod_cast hn
  have nq2 : (n : ℚ) ≤ 2 ^ 38 := by exact_mod_cast hn2.le
  have zq2 : (z : ℚ) ≤ 2 ^ 38 := by exact_mod_cast hz2.le
  have Mq : (M : ℚ) ≤ n := by exact_mod_cast hM
  have Mq2 : (n : ℚ) ≤ M * z := by exact_mod_cast hM2
  obtain ⟨μ, eμ⟩ : ∃ μ : ℚ, μ = n / z := ⟨_, rfl⟩
  have hμM : μ ≤ M := by rw [eμ, div_le_iff₀ (by linarith)]; exact Mq2
  have hμ1 : 1 / 2 ^ 38 ≤ μ := by
    rw [eμ, le_div_iff₀ (by linarith)]
    linarith
  have hxz : M / μ ≤ z := by
    rw [div_le_iff₀ (by linarith), eμ, mul_div_assoc', le_div_iff₀ (by linarith)]
    have := mul_le_mul_of_nonneg_right Mq (by linarith : (0 : ℚ) ≤ z)
    linarith
  rw [← eμ]
  have hμ0 : 0 < μ := lt_of_lt_of_le (by norm_num) hμ1
  obtain ⟨b1, e1, w1, v1⟩ := ofMag_err false hμ0.le (le_big (k := 38) (by norm_num) (by linarith))
  obtain ⟨b2, e2, v2⟩ := ofMag_nat (n := M) (by omega)
  have h1 : mag b1 ≤ M := by
    have h := bitsOf_nearest hμ0.le b2
    rw [← w1, v2, abs_of_nonneg (by linarith : 0 ≤ (M : ℚ) - μ)] at h
    linarith [(abs_le.1 h).2]
  have h1' : |mag b1 - μ| ≤ 2 / 2 ^ 53 * μ := by
    have : (1 : ℚ) / 2 ^ 100 ≤ 1 / 2 ^ 38 := by norm_num
    linarith
  have h1p : 0 < mag b1 := by
    have := (abs_le.1 h1').1
    linarith
  refine ⟨b1, ?_⟩
  have hsum : ∃ j : Nat, ((M : ℚ) - mag b1) * 2 ^ 1074 = j := by
    obtain ⟨j, hj⟩ := units_sum false true b2 b1
    refine ⟨j, ?_⟩
    simp only [Bool.false_eq_true, if_false, if_true, v2] at hj
    rwa [← sub_eq_add_neg, abs_of_nonneg (by linarith)] at hj
  have hsub : (M : Double) - num false b1 = ofMag false ((M : ℚ) - mag b1) := by
    rw [nat_def, e2, sub_def, add_num]
    simp only [Bool.false_eq_true, if_false, Bool.not_false, if_true, v2, ← sub_eq_add_neg, Bool.false_and]
    rw [abs_of_nonneg (by linarith)]
    rw [show decide ((M : ℚ) - mag b1 < 0) = false from decide_eq_false (by linarith), ite_self]
  have m1 : (M : ℚ) - mag b1 ≤ 2 ^ 38 := by linarith
  have m0 : 0 ≤ (M : ℚ) - mag b1 := by linarith
  obtain ⟨b3, e3, w3, -⟩ := ofMag_err false m0 (le_big (k := 38) (by norm_num) m1)
  obtain ⟨j, hj⟩ := hsum
  have v3 := bitsOf_rel m0 hj
  rw [← w3] at v3
  obtain ⟨b0, e0, v0⟩ := ofMag_nat (n := 100) (by norm_num)
  have g0 := mag_nonneg b3
  have g1 : mag b3 ≤ 2 ^ 39 := by linarith [(abs_le.1 (le_refl |mag b3 - (M - mag b1)|)).2]
  obtain ⟨b4, e4, w4, -⟩ := ofMag_err (r := 100 * mag b3) false (by linarith) (le_big (k := 46) (by norm_num) (by linarith))
  have v4 := bitsOf_rel (r := 100 * mag b3) (j := 100 * units b3) (by linarith) (by rw [mul_assoc, units_mag]; push_cast; rfl)
  rw [← w4] at v4
  have g2 := mag_nonneg b4
  have g3 : mag b4 ≤ 2 ^ 47 := by linarith [(abs_le.1 (le_refl |mag b4 - 100 * mag b3|)).2]
  have g4 : 1 / 2 ^ 39 ≤ mag b1 := by
    have := (abs_le.1 h1').1
    linarith
  obtain ⟨b5, e5, -, v5⟩ := ofMag_err (r := mag b4 / mag b1) false (by positivity) (le_big (k := 86) (by norm_num) (by
    rw [div_le_iff₀ h1p]
    linarith))
  have hcast : ((100 : Nat) : ℚ) * mag b3 = 100 * mag b3 := by norm_num
  refine ⟨b5, e1, h1p.ne', ?_, ?_⟩
  · rw [hsub, e3, div_def, mul_def, hundred_def, e0, mul, v0, Bool.xor_self, hcast, e4, div, if_neg h1p.ne', Bool.xor_self, e5]
  · have key := chain_aux (x := M / μ) (t := mag b1 / μ) (a := mag b3 / μ) (p := mag b4 / μ) (D := mag b5) (z := z) (e := 1 / 2 ^ 53) rfl
      (by rw [le_div_iff₀ hμ0, one_mul]; exact hμM) hxz ?_ (div_le_div_of_nonneg_right h1 hμ0.le) ?_ ?_ ?_
    · have : 100 * (M - μ) / μ = 100 * (M / μ - 1) := by field_simp
      rw [this]
      exact key
    · have : mag b1 / μ - 1 = (mag b1 - μ) / μ := by field_simp
      rw [this, abs_div, abs_of_pos hμ0, div_le_iff₀ hμ0]
      linarith
    · rw [← sub_div]
      exact scaled hμ0 (by linarith)
    · rw [← mul_div_assoc]
      exact scaled hμ0 (by linarith)
    · have : mag b4 / μ / (mag b1 / μ) = mag b4 / mag b1 := by field_simp
      rw [this]
      linarith

/-- The quality factor of a closed zone. -/
theorem quality_zero {n : Nat} (h0 : 0 < n) (hn : n < 2 ^ 40) : sqrtNat n / ((0 : Nat) : Double) = inf false := by
  unfold sqrtNat
  dsimp only
  have hlo : 2 ^ 60 ≤ Nat.sqrt (n * 4 ^ 60) := by
    rw [Nat.le_sqrt']
    have : 1 * 4 ^ 60 ≤ n * 4 ^ 60 := Nat.mul_le_mul_right _ h0
    omega
  have hup : Nat.sqrt (n * 4 ^ 60) < 2 ^ 80 := by
    rw [Nat.sqrt_lt']
    have : n * 4 ^ 60 < 2 ^ 40 * 4 ^ 60 := Nat.mul_lt_mul_of_pos_right hn (by norm_num)
    omega
  have hq : (1 : ℚ) ≤ ((2 * Nat.sqrt (n * 4 ^ 60) + if Nat.sqrt (n * 4 ^ 60) * Nat.sqrt (n * 4 ^ 60) = n * 4 ^ 60 then 0 else 1 : Nat) : ℚ) / 2 ^ 61 ∧
      ((2 * Nat.sqrt (n * 4 ^ 60) + if Nat.sqrt (n * 4 ^ 60) * Nat.sqrt (n * 4 ^ 60) = n * 4 ^ 60 then 0 else 1 : Nat) : ℚ) / 2 ^ 61 ≤ 2 ^ 82 := by
    have l1 : (2 : Nat) ^ 61 ≤ 2 * Nat.sqrt (n * 4 ^ 60) + if Nat.sqrt (n * 4 ^ 60) * Nat.sqrt (n * 4 ^ 60) = n * 4 ^ 60 then 0 else 1 := by omega
    have u1 : 2 * Nat.sqrt (n * 4 ^ 60) + (if Nat.sqrt (n * 4 ^ 60) * Nat.sqrt (n * 4 ^ 60) = n * 4 ^ 60 then 0 else 1) ≤ 2 ^ 82 := by
      split <;> omega
    generalize (2 * Nat.sqrt (n * 4 ^ 60) + if Nat.sqrt (n * 4 ^ 60) * Nat.sqrt (n * 4 ^ 60) = n * 4 ^ 60 then 0 else 1 : Nat) = w at *
    have l2 : (2 : ℚ) ^ 61 ≤ w := by exact_mod_cast l1
    have u2 : (w : ℚ) ≤ 2 ^ 82 := by exact_mod_cast u1
    constructor
    · rw [le_div_iff₀ (by norm_num)]; linarith
    · rw [div_le_iff₀ (by norm_num)]; linarith
  generalize ((2 * Nat.sqrt (n * 4 ^ 60) + if Nat.sqrt (n * 4 ^ 60) * Nat.sqrt (n * 4 ^ 60) = n * 4 ^ 60 then 0 else 1 : Nat) : ℚ) / 2 ^ 61 = s0 at *
  obtain ⟨b1, e1, -, v1⟩ := ofMag_err (r := s0) false (by linarith [hq.1]) (le_big (k := 82) (by norm_num) hq.2)
  obtain ⟨b2, e2, v2⟩ := ofMag_nat (n := 0) (by norm_num)
  rw [div_def, nat_def, e1, e2, div, v2, Nat.cast_zero, if_pos rfl, if_neg, Bool.xor_self]
  intro h
  rw [h, zero_sub, abs_neg, abs_of_pos (by linarith [hq.1])] at v1
  have : (1 : ℚ) / 2 ^ 100 ≤ 1 := by norm_num
  linarith [hq.1]

/-! ## Order -/

theorem lt_irrefl (x : Double) : lt x x = false := by
  cases x with
  | num a m => simp [lt]
  | inf a => cases a <;> rfl
  | nan => rfl

theorem lt_asymm (x y : Double) (h : lt x y = true) : lt y x = false := by
  cases x with
  | num a m =>
    cases y with
    | num b n =>
      simp only [lt, decide_eq_true_eq, decide_eq_false_iff_not, not_lt] at h ⊢
      exact h.le
    | inf b => simpa [lt] using h
    | nan => rfl
  | inf a =>
    cases y with
    | num b n => simp [lt] at h ⊢; exact h
    | inf b => cases a <;> cases b <;> simp_all [lt]
    | nan => rfl
  | nan => cases y <;> rfl

/-- What is not below what is not below. -/
theorem lt_trans' {x y z : Double} (hx : x ≠ nan) (hy : y ≠ nan) (hz : z ≠ nan) (h1 : lt x y = false) (h2 : lt y z = false) : lt x z = false := by
  cases x with
  | num a m =>
    cases y with
    | num b n =>
      cases z with
      | num c k =>
        simp only [lt, decide_eq_false_iff_not, not_lt] at h1 h2 ⊢
        exact h2.trans h1
      | inf c => simpa [lt] using h2
      | nan => exact absurd rfl hz
    | inf b =>
      cases z with
      | num c k => simp [lt] at h1 h2; rw [h1] at h2; cases h2
      | inf c => cases b <;> cases c <;> simp_all [lt]
      | nan => exact absurd rfl hz
    | nan => exact absurd rfl hy
  | inf a =>
    cases y with
    | num b n =>
      cases z with
      | num c k => simpa [lt] using h1
      | inf c => simp [lt] at h1 h2 ⊢; simp [h1]
      | nan => exact absurd rfl hz
    | inf b =>
      cases z with
      | num c k => cases a <;> cases b <;> simp_all [lt]
      | inf c => cases a <;> cases b <;> cases c <;> simp_all [lt]
      | nan => exact absurd rfl hz
    | nan => exact absurd rfl hy
  | nan => exact absurd rfl hx

/-- The choice of the best one after another, where `nan` is never better. -/
theorem foldl_best (r : Double → Double → Bool) (hi : ∀ x, r x x = false) (hn : ∀ x, r x nan = false)
    (ht : ∀ {x y z : Double}, x ≠ nan → y ≠ nan → z ≠ nan → r x y = false → r y z = false → r x z = false) (ha : ∀ x y, r x y = true → r y x = false)
    (l : List Double) : ∀ (x : Double), x ≠ nan →
      l.foldl (fun a b => if r a b then b else a) x ∈ x :: l ∧
      (∀ y ∈ x :: l, y ≠ nan → r (l.foldl (fun a b => if r a b then b else a) x) y = false) ∧
      l.foldl (fun a b => if r a b then b else a) x ≠ nan := by
  induction l with
  | nil => exact fun x hx => ⟨by simp, by simp [hi], hx⟩
  | cons b l ih =>
    intro x hx
    rw [List.foldl_cons]
    by_cases hr : r x b = true
    · have hb : b ≠ nan := fun h => by rw [h, hn] at hr; cases hr
      rw [if_pos hr]
      obtain ⟨h1, h2, h3⟩ := ih b hb
      refine ⟨List.mem_cons_of_mem _ h1, ?_, h3⟩
      intro y hy hyn
      rcases List.mem_cons.1 hy with rfl | hy
      · exact ht h3 hb hx (h2 b (List.mem_cons_self ..) hb) (ha _ _ hr)
      · exact h2 y hy hyn
    · rw [if_neg hr]
      obtain ⟨h1, h2, h3⟩ := ih x hx
      refine ⟨?_, ?_, h3⟩
      · rcases List.mem_cons.1 h1 with h | h
        · rw [h]; simp
        · simp [h]
      · intro y hy hyn
        rcases List.mem_cons.1 hy with rfl | hy
        · exact h2 y (List.mem_cons_self ..) hyn
        · rcases List.mem_cons.1 hy with rfl | hy
          · exact ht h3 hx hyn (h2 x (List.mem_cons_self ..) hx) (by simpa using hr)
          · exact h2 y (by simp [hy]) hyn

/-- Nothing is better than `nan` that comes first. -/
theorem foldl_nan (r : Double → Double → Bool) (hn : ∀ x, r nan x = false) (l : List Double) : l.foldl (fun a b => if r a b then b else a) nan = nan := by
  induction l with
  | nil => rfl
  | cons b l ih => rw [List.foldl_cons, hn, if_neg (by simp), ih]

theorem lt_nan_left (x : Double) : lt nan x = false := rfl

theorem lt_nan_right (x : Double) : lt x nan = false := by cases x <;> rfl

/-- The quality factor of a zone without faces. -/
theorem quality_empty : sqrtNat 0 / ((0 : Nat) : Double) = nan := by decide +kernel

end Verif.Double
