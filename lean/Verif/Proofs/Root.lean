import Verif.Proofs.PrintInfo

/-! The square root of an integer is correctly rounded. -/

namespace Verif.Double

/-- Floats from 1 on are multiples of `2 ^ -52`. -/
theorem mag_multiple {m : Nat} (h : 1 ≤ mag m) : ∃ j : Nat, mag m = j / 2 ^ 52 := by
  have hu : 2 ^ 1074 ≤ units m := by
    unfold mag at h
    rw [le_div_iff₀ (by positivity), one_mul] at h
    exact_mod_cast h
  have hk : 1022 ≤ m / 2 ^ 52 - 1 := by
    by_contra hc
    have h1 : (m % 2 ^ 52 + if m / 2 ^ 52 = 0 then 0 else 2 ^ 52) < 2 ^ 53 := by
      have := Nat.mod_lt m (show 0 < 2 ^ 52 by norm_num)
      split <;> omega
    have h2 : 2 ^ (m / 2 ^ 52 - 1) ≤ 2 ^ 1021 := Nat.pow_le_pow_right (by norm_num) (by omega)
    have h3 : units m < 2 ^ 53 * 2 ^ 1021 := by
      unfold units
      exact (Nat.mul_le_mul_left _ h2).trans_lt (Nat.mul_lt_mul_of_pos_right h1 (by positivity))
    rw [← pow_add] at h3
    omega
  obtain ⟨d, hd⟩ := Nat.exists_eq_add_of_le hk
  refine ⟨(m % 2 ^ 52 + if m / 2 ^ 52 = 0 then 0 else 2 ^ 52) * 2 ^ d, ?_⟩
  unfold mag units
  rw [hd]
  generalize (m % 2 ^ 52 + if m / 2 ^ 52 = 0 then 0 else 2 ^ 52) = a
  rw [pow_add, show (2 : ℚ) ^ 1074 = 2 ^ 1022 * 2 ^ 52 by rw [← pow_add]]
  have : (2 : ℚ) ^ 1022 ≠ 0 := by positivity
  rw [Nat.cast_mul, Nat.cast_mul, Nat.cast_pow, Nat.cast_pow, Nat.cast_mul, Nat.cast_pow, Nat.cast_ofNat]
  generalize (2 : ℚ) ^ 1022 = X at *
  rw [show (a : ℚ) * (X * 2 ^ d) = X * (a * 2 ^ d) by ring, mul_div_mul_left _ _ this]

theorem root_bounds (n : Nat) : (Nat.sqrt (n * 4 ^ 60) : ℝ) ≤ √(n : ℝ) * 2 ^ 60 ∧ √(n : ℝ) * 2 ^ 60 < Nat.sqrt (n * 4 ^ 60) + 1 := by
  have e4 : √((4 : ℝ) ^ 60) = 2 ^ 60 := by
    rw [show (4 : ℝ) ^ 60 = (2 ^ 60) ^ 2 by norm_num]; exact Real.sqrt_sq (by positivity)
  constructor
  · have : ((Nat.sqrt (n * 4 ^ 60) : ℝ)) ^ 2 ≤ n * 4 ^ 60 := by exact_mod_cast Nat.sqrt_le' (n * 4 ^ 60)
    have h := Real.le_sqrt_of_sq_le this
    rwa [Real.sqrt_mul (by positivity), e4] at h
  · have : ((n * 4 ^ 60 : Nat) : ℝ) < (Nat.sqrt (n * 4 ^ 60) + 1 : Nat) ^ 2 := by exact_mod_cast Nat.lt_succ_sqrt' (n * 4 ^ 60)
    have h := Real.sqrt_lt_sqrt (by positivity) this
    rw [Real.sqrt_sq (by positivity)] at h
    rw [Nat.cast_mul, Nat.cast_pow, Nat.cast_ofNat, Nat.cast_add, Nat.cast_one] at h
    rwa [Real.sqrt_mul (by positivity), e4] at h

/-- The number that is rounded lies on the same side of every multiple of `2 ^ -60` as the root. -/
theorem root_side (n j : Nat) :
    let v : ℚ := ((2 * Nat.sqrt (n * 4 ^ 60) + if Nat.sqrt (n * 4 ^ 60) * Nat.sqrt (n * 4 ^ 60) = n * 4 ^ 60 then 0 else 1 : Nat) : ℚ) / 2 ^ 61
    (v < j / 2 ^ 60 ↔ √(n : ℝ) < j / 2 ^ 60) ∧ ((j : ℚ) / 2 ^ 60 < v ↔ (j : ℝ) / 2 ^ 60 < √(n : ℝ)) := by
  intro v
  obtain ⟨b1, b2⟩ := root_bounds n
  have hsq : Nat.sqrt (n * 4 ^ 60) * Nat.sqrt (n * 4 ^ 60) = n * 4 ^ 60 ↔ (Nat.sqrt (n * 4 ^ 60) : ℝ) = √(n : ℝ) * 2 ^ 60 := by
    have e : (n : ℝ) = √(n : ℝ) * √(n : ℝ) := (Real.mul_self_sqrt (Nat.cast_nonneg n)).symm
    constructor
    · intro h
      have h' : (Nat.sqrt (n * 4 ^ 60) : ℝ) * Nat.sqrt (n * 4 ^ 60) = n * 4 ^ 60 := by exact_mod_cast h
      rw [e, show √(n : ℝ) * √(n : ℝ) * 4 ^ 60 = (√(n : ℝ) * 2 ^ 60) * (√(n : ℝ) * 2 ^ 60) by ring] at h'
      exact (mul_self_inj (Nat.cast_nonneg _) (by positivity)).1 h'
    · intro h
      have h' : (Nat.sqrt (n * 4 ^ 60) : ℝ) * Nat.sqrt (n * 4 ^ 60) = n * 4 ^ 60 := by
        rw [h, e, Real.sqrt_mul_self (Real.sqrt_nonneg _)]; ring
      exact_mod_cast h'
  have hv : v = ((2 * Nat.sqrt (n * 4 ^ 60) + if Nat.sqrt (n * 4 ^ 60) * Nat.sqrt (n * 4 ^ 60) = n * 4 ^ 60 then 0 else 1 : Nat) : ℚ) / 2 ^ 61 := rfl
  clear_value v
  generalize Nat.sqrt (n * 4 ^ 60) = M at *
  have p1 : v < j / 2 ^ 60 ↔ (2 * M + if M * M = n * 4 ^ 60 then 0 else 1) < 2 * j := by
    rw [hv, show (j : ℚ) / 2 ^ 60 = ((2 * j : Nat) : ℚ) / 2 ^ 61 by push_cast; ring, div_lt_div_iff_of_pos_right (by positivity), Nat.cast_lt]
  have p2 : (j : ℚ) / 2 ^ 60 < v ↔ 2 * j < (2 * M + if M * M = n * 4 ^ 60 then 0 else 1) := by
    rw [hv, show (j : ℚ) / 2 ^ 60 = ((2 * j : Nat) : ℚ) / 2 ^ 61 by push_cast; ring, div_lt_div_iff_of_pos_right (by positivity), Nat.cast_lt]
  rw [p1, p2, lt_div_iff₀ (by positivity), div_lt_iff₀ (by positivity)]
  by_cases hs : M * M = n * 4 ^ 60
  · rw [if_pos hs, ← hsq.1 hs, Nat.cast_lt, Nat.cast_lt]
    constructor <;> omega
  · rw [if_neg hs]
    have b3 : (M : ℝ) < √(n : ℝ) * 2 ^ 60 := lt_of_le_of_ne b1 (fun h => hs (hsq.2 h))
    constructor
    · constructor
      · intro h
        have : ((M + 1 : Nat) : ℝ) ≤ j := by exact_mod_cast (by omega : M + 1 ≤ j)
        push_cast at this
        linarith
      · intro h
        have : (M : ℝ) < j := b3.trans h
        have : M < j := by exact_mod_cast this
        omega
    · constructor
      · intro h
        have : (j : ℝ) ≤ M := by exact_mod_cast (by omega : j ≤ M)
        linarith
      · intro h
        have : (j : ℝ) < (M + 1 : Nat) := by push_cast; exact h.trans b2
        have : j < M + 1 := by exact_mod_cast this
        omega

/-- A root that is a multiple of `2 ^ -60` is an integer. -/
theorem root_dyadic {n j : Nat} (h : √(n : ℝ) = j / 2 ^ 60) : ∃ k : Nat, j = k * 2 ^ 60 ∧ k * k = n := by
  have e : (n : ℝ) * (2 ^ 60) ^ 2 = j ^ 2 := by
    have := Real.mul_self_sqrt (Nat.cast_nonneg (α := ℝ) n)
    rw [h] at this
    rw [← this]
    field_simp
  have e' : n * (2 ^ 60) ^ 2 = j ^ 2 := by exact_mod_cast e
  obtain ⟨k, hk⟩ : 2 ^ 60 ∣ j := (Nat.pow_dvd_pow_iff (n := 2) (by norm_num)).1 ⟨n, by rw [← e', mul_comm]⟩
  refine ⟨k, by rw [hk, mul_comm], ?_⟩
  rw [hk, mul_pow, mul_comm] at e'
  have := Nat.eq_of_mul_eq_mul_left (by positivity) e'
  rw [this, sq]

/-- Of all floats the root computed is nearest to the root. -/
theorem sqrt_nearest {n : Nat} (h0 : 0 < n) (hn : n < 2 ^ 100) :
    ∃ b, sqrtNat n = num false b ∧ ∀ m : Nat, mag m ≠ mag b → |((mag b : ℚ) : ℝ) - √(n : ℝ)| < |((mag m : ℚ) : ℝ) - √(n : ℝ)| := by
  have hs := root_side n
  have hnear := root_near n
  unfold sqrtNat
  dsimp only at hs ⊢
  have hv0 : (0 : ℚ) ≤ ((2 * Nat.sqrt (n * 4 ^ 60) + if Nat.sqrt (n * 4 ^ 60) * Nat.sqrt (n * 4 ^ 60) = n * 4 ^ 60 then 0 else 1 : Nat) : ℚ) / 2 ^ 61 := by
    positivity
  generalize ((2 * Nat.sqrt (n * 4 ^ 60) + if Nat.sqrt (n * 4 ^ 60) * Nat.sqrt (n * 4 ^ 60) = n * 4 ^ 60 then 0 else 1 : Nat) : ℚ) / 2 ^ 61 = v at *
  have hr1 : (1 : ℝ) ≤ √(n : ℝ) := by
    rw [Real.one_le_sqrt]
    exact_mod_cast h0
  have hr2 : √(n : ℝ) < 2 ^ 50 := by
    rw [Real.sqrt_lt' (by positivity)]
    have : (n : ℝ) < 2 ^ 100 := by exact_mod_cast hn
    calc (n : ℝ) < 2 ^ 100 := this
      _ = (2 ^ 50) ^ 2 := by norm_num
  have hv1 : 1 ≤ v := by
    by_contra hc
    have := (hs (2 ^ 60)).1.1 (by norm_num; exact not_le.1 hc)
    norm_num at this
    linarith
  have hv2 : v < 2 ^ 53 := by
    have := (hs (2 ^ 113)).1.2 (by push_cast; norm_num; norm_num at hr2; linarith)
    push_cast at this
    norm_num at this ⊢
    exact this
  obtain ⟨w, hw, e⟩ := ofMag_finite (neg := false) ((bitsOf_limit hv0).2 (small_limit hv2))
  refine ⟨w, e, ?_⟩
  rw [hw]
  obtain ⟨o, ho⟩ := mag_ex (n := 1) (i := 0) (by norm_num) (by norm_num)
  rw [pow_zero, div_one, Nat.cast_one] at ho
  have hb1 : 1 ≤ mag (bitsOf v) := by
    by_contra hc
    have := bitsOf_nearest hv0 o
    rw [ho, abs_of_nonpos (by linarith), abs_of_nonpos (by linarith)] at this
    linarith
  obtain ⟨jb, hjb⟩ := mag_multiple hb1
  -- for floats from 1 on
  have main : ∀ m : Nat, 1 ≤ mag m → mag m ≠ mag (bitsOf v) → |((mag (bitsOf v) : ℚ) : ℝ) - √(n : ℝ)| < |((mag m : ℚ) : ℝ) - √(n : ℝ)| := by
    intro m hm hne
    have hb := bitsOf_nearest hv0 m
    obtain ⟨jm, hjm⟩ := mag_multiple hm
    have ec : (mag m + mag (bitsOf v)) / 2 = ((2 ^ 7 * (jm + jb) : Nat) : ℚ) / 2 ^ 60 := by
      rw [hjm, hjb]
      push_cast
      ring
    have ecr : (((mag m : ℚ) : ℝ) + ((mag (bitsOf v) : ℚ) : ℝ)) / 2 = ((2 ^ 7 * (jm + jb) : Nat) : ℝ) / 2 ^ 60 := by
      have := congrArg (fun x : ℚ => (x : ℝ)) ec
      push_cast at this ⊢
      exact this
    obtain ⟨s1, s2⟩ := hs (2 ^ 7 * (jm + jb))
    rw [← ec, ← ecr] at s1 s2
    -- the middle is not the root
    have hmid : √(n : ℝ) ≠ (((mag m : ℚ) : ℝ) + ((mag (bitsOf v) : ℚ) : ℝ)) / 2 := by
      intro hc
      obtain ⟨k, hk1, hk2⟩ := root_dyadic (hc.trans ecr)
      have hvk : v = k := by
        have h1 := mt s1.1 (by rw [hc]; exact _root_.lt_irrefl _)
        have h2 := mt s2.1 (by rw [hc]; exact _root_.lt_irrefl _)
        have : v = (mag m + mag (bitsOf v)) / 2 := le_antisymm (not_lt.1 h2) (not_lt.1 h1)
        rw [this, ec, hk1]
        norm_num
      have hk3 : k < 2 ^ 53 := by rw [hvk] at hv2; exact_mod_cast hv2
      obtain ⟨u, hu⟩ := mag_ex (n := k) (i := 0) hk3 (by norm_num)
      rw [pow_zero, div_one] at hu
      have h3 := bitsOf_nearest hv0 u
      rw [hu, hvk, sub_self, abs_zero] at h3
      have h4 := sub_eq_zero.1 (abs_eq_zero.1 (le_antisymm h3 (abs_nonneg _)))
      have h5 : v = (mag m + mag (bitsOf v)) / 2 := by
        rw [ec, hk1, hvk]
        norm_num
      rw [hvk] at h5 hne
      rw [h4] at h5 hne
      apply hne
      linarith
    have hmb : ((mag m : ℚ) : ℝ) ≠ ((mag (bitsOf v) : ℚ) : ℝ) := by exact_mod_cast hne
    have hb' : |((mag (bitsOf v) : ℚ) : ℝ) - (v : ℝ)| ≤ |((mag m : ℚ) : ℝ) - (v : ℝ)| := by exact_mod_cast hb
    rw [show (v < (mag m + mag (bitsOf v)) / 2) ↔ ((v : ℝ) < (((mag m : ℚ) : ℝ) + ((mag (bitsOf v) : ℚ) : ℝ)) / 2) by
      rw [← Rat.cast_lt (K := ℝ)]; push_cast; rfl] at s1
    rw [show ((mag m + mag (bitsOf v)) / 2 < v) ↔ ((((mag m : ℚ) : ℝ) + ((mag (bitsOf v) : ℚ) : ℝ)) / 2 < (v : ℝ)) by
      rw [← Rat.cast_lt (K := ℝ)]; push_cast; rfl] at s2
    generalize ((mag m : ℚ) : ℝ) = x at *
    generalize ((mag (bitsOf v) : ℚ) : ℝ) = y at *
    generalize (v : ℝ) = r at *
    generalize √(n : ℝ) = s at *
    rw [← sq_le_sq] at hb'
    rw [← sq_lt_sq]
    rcases lt_or_gt_of_ne hmb with h | h
    · have : ¬ r < (x + y) / 2 := by
        intro hc
        nlinarith
      have := mt s1.2 this
      have : (x + y) / 2 < s := lt_of_le_of_ne (not_lt.1 this) (fun h => hmid h.symm)
      nlinarith
    · have : ¬ (x + y) / 2 < r := by
        intro hc
        nlinarith
      have := mt s2.2 this
      have : s < (x + y) / 2 := lt_of_le_of_ne (not_lt.1 this) hmid
      nlinarith
  intro m hne
  by_cases hm : 1 ≤ mag m
  · exact main m hm hne
  · have hlt : ((mag m : ℚ) : ℝ) < 1 := by exact_mod_cast not_le.1 hm
    have h1 : |((mag o : ℚ) : ℝ) - √(n : ℝ)| < |((mag m : ℚ) : ℝ) - √(n : ℝ)| := by
      rw [ho, Rat.cast_one, abs_of_nonpos (by linarith), abs_of_neg (by linarith)]
      linarith
    by_cases ho' : mag o = mag (bitsOf v)
    · rw [← ho']; exact h1
    · exact (main o (by rw [ho]) ho').trans h1

end Verif.Double
