import Verif.Model.DoubleMul
import Verif.Proofs.DoubleRound
import Verif.Proofs.DoubleKey
import Verif.Proofs.SciText

/-! Percentages computed with floats. -/

namespace Verif.Double

/-- Numbers with at most 53 bits are floats. -/
theorem mag_ex {n i : Nat} (hn : n < 2 ^ 53) (hi : i ≤ 1000) : ∃ b, mag b = n / 2 ^ i := by
  rcases Nat.eq_zero_or_pos n with rfl | h0
  · exact ⟨0, by rw [mag_zero]; simp⟩
  · have hl : Nat.log 2 n ≤ 52 := by
      have := (Nat.log_lt_iff_lt_pow (b := 2) (by norm_num) h0.ne').2 hn
      omega
    have h1 : 2 ^ Nat.log 2 n ≤ n := Nat.pow_log_le_self 2 h0.ne'
    have h2 : n < 2 ^ (Nat.log 2 n + 1) := Nat.lt_pow_succ_log_self (by norm_num) n
    generalize Nat.log 2 n = l at *
    have e1 : 2 ^ l * 2 ^ (52 - l) = 2 ^ 52 := by rw [← pow_add]; congr 1; omega
    have e2 : 2 ^ (l + 1) * 2 ^ (52 - l) = 2 ^ 53 := by rw [← pow_add]; congr 1; omega
    have hp : Parts ((1022 + l - i) * 2 ^ 52 + n * 2 ^ (52 - l)) (1022 + l - i) (n * 2 ^ (52 - l)) := by
      refine ⟨rfl, ?_, .inr ?_⟩
      · rw [← e2]; exact Nat.mul_le_mul_right _ h2.le
      · rw [← e1]; exact Nat.mul_le_mul_right _ h1
    refine ⟨(1022 + l - i) * 2 ^ 52 + n * 2 ^ (52 - l), ?_⟩
    · rw [mag, units_parts hp]
      have e3 : (2 : ℚ) ^ 1074 = 2 ^ (52 - l) * 2 ^ (1022 + l - i) * 2 ^ i := by
        rw [← pow_add, ← pow_add]; congr 1; omega
      rw [e3, Nat.cast_mul, Nat.cast_mul, Nat.cast_pow, Nat.cast_pow, Nat.cast_ofNat]
      have p1 := pow_pos_q (52 - l)
      have p2 := pow_pos_q (1022 + l - i)
      have p3 := pow_pos_q i
      generalize (2 : ℚ) ^ (52 - l) = x at *
      generalize (2 : ℚ) ^ (1022 + l - i) = y at *
      generalize (2 : ℚ) ^ i = z at *
      clear e3
      field_simp

theorem small_limit {r : ℚ} (h : r < 2 ^ 53) : r < (2 ^ 54 - 1) * 2 ^ 970 := by
  have : (1 : ℚ) ≤ 2 ^ 970 := one_le_pow₀ (by norm_num)
  generalize (2 : ℚ) ^ 970 = X at *
  have h2 : (2 : ℚ) ^ 53 ≤ (2 ^ 54 - 1) * 1 := by norm_num
  have h3 : ((2 : ℚ) ^ 54 - 1) * 1 ≤ (2 ^ 54 - 1) * X := mul_le_mul_of_nonneg_left this (by norm_num)
  linarith

/-- The float of an integer with at most 53 bits is the integer. -/
theorem ofMag_nat {n : Nat} (hn : n < 2 ^ 53) : ∃ b, ofMag false n = num false b ∧ mag b = n := by
  have hq : (n : ℚ) < 2 ^ 53 := by exact_mod_cast hn
  have hr : (0 : ℚ) ≤ n := by positivity
  obtain ⟨w, hw, e⟩ := ofMag_finite (neg := false) ((bitsOf_limit hr).2 (small_limit hq))
  refine ⟨w, e, ?_⟩
  obtain ⟨b, hb⟩ := mag_ex (i := 0) hn (by norm_num)
  rw [pow_zero, div_one] at hb
  rw [hw, bitsOf_eq hr (.inl hb.symm), hb]

/-- Numbers up to 100 are rounded by no more than `2 ^ -46`. -/
theorem ofMag_percent {r : ℚ} (hr : 0 ≤ r) (h : r ≤ 100) : ∃ b, ofMag false r = num false b ∧ |mag b - r| ≤ 1 / 2 ^ 46 := by
  obtain ⟨w, hw, e⟩ := ofMag_finite (neg := false) ((bitsOf_limit hr).2 (small_limit (h.trans_lt (by norm_num))))
  refine ⟨w, e, ?_⟩
  rw [hw]
  have h0 : 0 ≤ r * 2 ^ 46 := by positivity
  have hf := Nat.floor_le h0
  have hf' := Nat.lt_floor_add_one (r * 2 ^ 46)
  have hn : ⌊r * 2 ^ 46⌋₊ < 2 ^ 53 := by
    have : (⌊r * 2 ^ 46⌋₊ : ℚ) < 2 ^ 53 := by linarith
    exact_mod_cast this
  obtain ⟨b, hb⟩ := mag_ex (i := 46) hn (by norm_num)
  refine (bitsOf_nearest hr b).trans ?_
  rw [hb, abs_le]
  constructor
  · rw [← sub_nonneg]
    have : (⌊r * 2 ^ 46⌋₊ : ℚ) / 2 ^ 46 - r - -(1 / 2 ^ 46) = (⌊r * 2 ^ 46⌋₊ + 1 - r * 2 ^ 46) / 2 ^ 46 := by ring
    rw [this]
    exact div_nonneg (by linarith) (by norm_num)
  · have : (⌊r * 2 ^ 46⌋₊ : ℚ) / 2 ^ 46 ≤ r := by rw [div_le_iff₀ (by norm_num)]; exact hf
    have h1 : (0 : ℚ) ≤ 1 / 2 ^ 46 := by norm_num
    linarith

theorem ofNat_def (n : Nat) : ofNat n = ofMag false n := by rw [ofNat]
theorem cast_aux {R : Type} (f : Nat → R) (n : Nat) : @Nat.cast R ⟨f⟩ n = f n := rfl
theorem cast_def (n : Nat) : (n : Double) = ofNat n := cast_aux ofNat n
theorem nat_def (n : Nat) : (n : Double) = ofMag false n := (cast_def n).trans (ofNat_def n)
theorem hundred_def : (100 : Double) = ofMag false ((100 : Nat) : ℚ) := (Nat.cast_ofNat (R := Double) (n := 100)).symm.trans (nat_def 100)
theorem mul_def (x y : Double) : x * y = mul x y := rfl
theorem div_def (x y : Double) : x / y = div x y := rfl

/-- `100.0 * n / e` as a float. -/
theorem percent_val {n e : Nat} (hn : n ≤ e) (h0 : 0 < e) (he : e < 2 ^ 38) :
    ∃ b, (100 * (n : Double) / (e : Double)) = num false b ∧ |mag b - 100 * n / e| ≤ 1 / 2 ^ 46 := by
  obtain ⟨b1, e1, v1⟩ := ofMag_nat (n := 100) (by norm_num)
  obtain ⟨b2, e2, v2⟩ := ofMag_nat (n := n) (by omega)
  obtain ⟨b3, e3, v3⟩ := ofMag_nat (n := e) (by omega)
  obtain ⟨b4, e4, v4⟩ := ofMag_nat (n := 100 * n) (by omega)
  have eq0 : (0 : ℚ) < e := by exact_mod_cast h0
  rw [div_def, mul_def, nat_def, nat_def, hundred_def, e1, e2, e3, mul, v1, v2, show ((100 : Nat) : ℚ) * n = ((100 * n : Nat) : ℚ) by push_cast; rfl, Bool.xor_self, e4, div, v3, v4,
    if_neg eq0.ne', Bool.xor_self]
  have := ofMag_percent (r := 100 * n / e) (by positivity) (by
    rw [div_le_iff₀ eq0]
    have : (n : ℚ) ≤ e := by exact_mod_cast hn
    linarith)
  push_cast
  exact this

/-- The nearest integer does not change if the number is moved by less than a part of the denominator. -/
theorem near_aux {n e m : Nat} (h0 : 0 < e) (he : e < 2 ^ 38) {v : ℚ} (hv : |v - 100 * n / e| ≤ 1 / 2 ^ 46) (hm : |(m : ℚ) - v * 10 ^ 2| ≤ 1 / 2) :
    |(m : ℚ) / 100 - 100 * n / e| ≤ 1 / 200 := by
  have eq0 : (0 : ℚ) < e := by exact_mod_cast h0
  have heq : (e : ℚ) < 2 ^ 38 := by exact_mod_cast he
  have h1 : |(m : ℚ) * e - 10000 * n| = |(m : ℚ) / 100 - 100 * n / e| * (100 * e) := by
    have e1 : (m : ℚ) * e - 10000 * n = ((m : ℚ) / 100 - 100 * n / e) * (100 * e) := by
      field_simp
      ring
    rw [e1, abs_mul, abs_of_pos (show (0 : ℚ) < 100 * e by positivity)]
  have h2 : |(m : ℚ) / 100 - 100 * n / e| ≤ 1 / 200 + 1 / 2 ^ 46 := by
    have e1 : (m : ℚ) / 100 - 100 * n / e = (m - v * 10 ^ 2) / 100 + (v - 100 * n / e) := by ring
    rw [e1]
    refine (abs_add_le _ _).trans (add_le_add ?_ hv)
    rw [abs_div, abs_of_pos (show (0 : ℚ) < 100 by norm_num), div_le_iff₀ (by norm_num)]
    linarith
  have h3 : 2 * |(m : ℚ) * e - 10000 * n| < e + 1 := by
    rw [h1]
    have : |(m : ℚ) / 100 - 100 * n / e| * (100 * e) ≤ (1 / 200 + 1 / 2 ^ 46) * (100 * e) := mul_le_mul_of_nonneg_right h2 (by positivity)
    linarith
  have h4 : 2 * |(m : Int) * e - 10000 * n| ≤ (e : Int) := by
    have : 2 * |(m : Int) * e - 10000 * n| < (e : Int) + 1 := by exact_mod_cast h3
    omega
  have h5 : 2 * |(m : ℚ) * e - 10000 * n| ≤ e := by exact_mod_cast h4
  rw [h1] at h5
  have h6 : (|(m : ℚ) / 100 - 100 * n / e| * 200) * e ≤ 1 * e := by linarith
  have := le_of_mul_le_mul_right h6 eq0
  linarith

theorem pad_two_digits : ∀ f : Fin 100, Py.natStrPad 2 f.val = [Char.ofNat (48 + f.val / 10), Char.ofNat (48 + f.val % 10)] := by decide +kernel

end Verif.Double
