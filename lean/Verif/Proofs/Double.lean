import Verif.Model.Double
import Verif.Proofs.PyLemmas
import Mathlib.Tactic.Linarith
import Mathlib.Tactic.Ring
import Mathlib.Tactic.FieldSimp
import Mathlib.Tactic.Positivity
import Mathlib.Tactic.NormNum

/-! Arithmetic of floats: rounding gives the nearest one, and enough digits tell it from its neighbours. -/

namespace Verif.Double

theorem rne_near {r : ℚ} (hr : 0 ≤ r) : |(rne r : ℚ) - r| ≤ 1 / 2 := by
  have h1 := Nat.floor_le hr
  have h2 := Nat.lt_floor_add_one r
  unfold rne
  dsimp only
  rw [abs_le]
  split_ifs with a b c <;> push_cast <;> constructor <;> linarith

theorem rne_best {r : ℚ} (hr : 0 ≤ r) (m : Int) : |(rne r : ℚ) - r| ≤ |(m : ℚ) - r| := by
  have h0 := rne_near hr
  by_cases he : (rne r : Int) = m
  · rw [← he]; push_cast; exact le_refl _
  · have h1 : (1 : ℚ) ≤ |(m : ℚ) - rne r| := by
      have : (1 : Int) ≤ |m - rne r| := Int.one_le_abs (by omega)
      exact_mod_cast this
    have h2 : |(m : ℚ) - rne r| ≤ |(m : ℚ) - r| + |(rne r : ℚ) - r| := by
      have := abs_sub_le (m : ℚ) r (rne r)
      rwa [abs_sub_comm r] at this
    linarith

theorem rne_eq {r : ℚ} (hr : 0 ≤ r) {m : Nat} (h : |r - m| < 1 / 2) : rne r = m := by
  by_contra hn
  have h0 := rne_near hr
  have h1 : (1 : ℚ) ≤ |(rne r : ℚ) - m| := by
    have : (1 : Int) ≤ |(rne r : Int) - m| := Int.one_le_abs (by omega)
    exact_mod_cast this
  have h2 := abs_sub_le (rne r : ℚ) r m
  linarith

theorem rne_nat (m : Nat) : rne (m : ℚ) = m := rne_eq (by positivity) (by simp)

/-- Significand and exponent of the bits. -/
def Parts (n k q : Nat) : Prop := n = k * 2 ^ 52 + q ∧ q ≤ 2 ^ 53 ∧ (k = 0 ∨ 2 ^ 52 ≤ q)

theorem units_parts {n k q : Nat} (h : Parts n k q) : units n = q * 2 ^ k := by
  obtain ⟨rfl, h2, h3⟩ := h
  unfold units
  by_cases a : q < 2 ^ 52
  · have hk : k = 0 := by omega
    subst hk
    have e1 : (0 * 2 ^ 52 + q) / 2 ^ 52 = 0 := by omega
    have e2 : (0 * 2 ^ 52 + q) % 2 ^ 52 = q := by omega
    rw [e1, e2]
    simp
  · by_cases b : q < 2 ^ 53
    · have e1 : (k * 2 ^ 52 + q) / 2 ^ 52 = k + 1 := by omega
      have e2 : (k * 2 ^ 52 + q) % 2 ^ 52 = q - 2 ^ 52 := by omega
      rw [e1, e2, if_neg (by omega), Nat.add_sub_cancel]
      congr 1
      omega
    · have e0 : q = 2 ^ 53 := by omega
      have e1 : (k * 2 ^ 52 + q) / 2 ^ 52 = k + 2 := by omega
      have e2 : (k * 2 ^ 52 + q) % 2 ^ 52 = 0 := by omega
      rw [e1, e2, if_neg (by omega), e0, show k + 2 - 1 = k + 1 by omega, Nat.pow_succ 2 k]
      omega

theorem parts_ex (n : Nat) : ∃ k q, Parts n k q ∧ q < 2 ^ 53 := by
  by_cases h : n < 2 ^ 52
  · exact ⟨0, n, ⟨by omega, by omega, .inl rfl⟩, by omega⟩
  · refine ⟨n / 2 ^ 52 - 1, n % 2 ^ 52 + 2 ^ 52, ⟨?_, by omega, by omega⟩, by omega⟩
    omega

/-- Two floats differ by a part of `2 ^ -53` of each of them. -/
theorem units_gap {n m : Nat} (h : n ≠ m) : (units n : Int) ≤ 2 ^ 53 * |(units m : Int) - units n| ∧ 1 ≤ |(units m : Int) - units n| := by
  obtain ⟨k, q, hp, hq⟩ := parts_ex n
  obtain ⟨k', q', hp', hq'⟩ := parts_ex m
  rw [units_parts hp, units_parts hp']
  obtain ⟨e, -, h3⟩ := hp
  obtain ⟨e', -, h3'⟩ := hp'
  have pk : (1 : Int) ≤ 2 ^ k := one_le_pow₀ (by norm_num)
  have pk' : (1 : Int) ≤ 2 ^ k' := one_le_pow₀ (by norm_num)
  rcases Nat.lt_trichotomy k k' with hk | hk | hk
  · obtain ⟨j, rfl⟩ := Nat.exists_eq_add_of_lt hk
    have b : (2 : Int) ^ 52 ≤ q' := by
      rcases h3' with h | h
      · omega
      · exact_mod_cast h
    have hq1 : (q : Int) ≤ 2 ^ 53 - 1 := by have : (q : Int) < 2 ^ 53 := by exact_mod_cast hq
                                            omega
    have hj : (1 : Int) ≤ 2 ^ j := one_le_pow₀ (by norm_num)
    have l1 : (2 : Int) ^ 53 * 2 ^ k ≤ q' * 2 ^ (k + j + 1) := by
      have : (q' : Int) * 2 ^ (k + j + 1) = (q' * 2 ^ j * 2) * 2 ^ k := by ring
      rw [this]
      apply mul_le_mul_of_nonneg_right _ (by omega)
      nlinarith
    have l2 : (q : Int) * 2 ^ k ≤ (2 ^ 53 - 1) * 2 ^ k := mul_le_mul_of_nonneg_right hq1 (by omega)
    have l3 : (2 : Int) ^ k ≤ q' * 2 ^ (k + j + 1) - q * 2 ^ k := by linarith
    push_cast
    rw [abs_of_nonneg (by linarith)]
    constructor <;> linarith
  · subst hk
    have hne : (q' : Int) ≠ q := by
      intro h'
      have : q' = q := by exact_mod_cast h'
      subst this
      exact h (by omega)
    have h1 : (1 : Int) ≤ |(q' : Int) - q| := Int.one_le_abs (by omega)
    have e1 : |((q' * 2 ^ k : Nat) : Int) - (q * 2 ^ k : Nat)| = |(q' : Int) - q| * 2 ^ k := by
      push_cast
      rw [← sub_mul, abs_mul, abs_of_pos (show (0 : Int) < 2 ^ k by omega)]
    rw [e1]
    have hq1 : (q : Int) ≤ 2 ^ 53 := by exact_mod_cast hq.le
    have l0 : (2 : Int) ^ k ≤ |(q' : Int) - q| * 2 ^ k := by nlinarith
    have l2 : (q : Int) * 2 ^ k ≤ 2 ^ 53 * 2 ^ k := mul_le_mul_of_nonneg_right hq1 (by omega)
    push_cast
    constructor <;> linarith
  · obtain ⟨j, rfl⟩ := Nat.exists_eq_add_of_lt hk
    have b : (2 : Int) ^ 52 ≤ q := by
      rcases h3 with h | h
      · omega
      · exact_mod_cast h
    have hq1 : (q' : Int) ≤ 2 ^ 53 - 1 := by have : (q' : Int) < 2 ^ 53 := by exact_mod_cast hq'
                                             omega
    have hq2 : (q : Int) ≤ 2 ^ 53 := by exact_mod_cast hq.le
    have l1 : (q' : Int) * 2 ^ k' ≤ (2 ^ 53 - 1) * 2 ^ (k' + j) := by
      have : (2 : Int) ^ k' ≤ 2 ^ (k' + j) := pow_le_pow_right₀ (by norm_num) (by omega)
      nlinarith
    have pj : (1 : Int) ≤ 2 ^ (k' + j) := one_le_pow₀ (by norm_num)
    have e1 : (q : Int) * 2 ^ (k' + j + 1) = 2 * q * 2 ^ (k' + j) := by ring
    push_cast
    rw [e1]
    generalize (2 : Int) ^ (k' + j) = P at l1 pj
    generalize (q' : Int) * 2 ^ k' = A at l1
    rw [abs_sub_comm, abs_of_nonneg (by nlinarith)]
    constructor
    · rcases eq_or_lt_of_le b with hb | hb
      · rw [← hb]; nlinarith
      · have hb' : (2 : Int) ^ 52 + 1 ≤ q := by omega
        nlinarith
    · nlinarith

theorem units_inj {n m : Nat} (h : units n = units m) : n = m := by
  by_contra hn
  have := (units_gap hn).2
  rw [h] at this
  simp at this

theorem pow_pos_q (k : Nat) : (0 : ℚ) < 2 ^ k := by positivity

theorem scale_ex : ∃ P : ℚ, P = 2 ^ 1074 ∧ 0 < P := ⟨_, rfl, pow_pos_q _⟩

/-- The bits chosen by `bitsOf`. -/
theorem bitsOf_parts {r : ℚ} (hr : 0 ≤ r) : ∃ k q, Parts (bitsOf r) k q ∧ q = rne (r * 2 ^ 1074 / 2 ^ k) ∧
    (k = 0 ∨ (2 : ℚ) ^ 52 * 2 ^ k ≤ r * 2 ^ 1074) := by
  unfold bitsOf
  dsimp only
  have hu : 0 ≤ r * 2 ^ 1074 := mul_nonneg hr (pow_pos_q _).le
  generalize r * 2 ^ 1074 = u at hu
  obtain ⟨k, hk⟩ : ∃ k, k = Nat.log 2 ⌊u⌋₊ - 52 := ⟨_, rfl⟩
  rw [← hk]
  have pk := pow_pos_q k
  have hup : u < 2 ^ 53 * 2 ^ k := by
    have h1 : ⌊u⌋₊ < 2 ^ (53 + k) := by
      have := Nat.lt_pow_succ_log_self (b := 2) (by omega) ⌊u⌋₊
      exact lt_of_lt_of_le this (Nat.pow_le_pow_right (by omega) (by omega))
    have h2 : u < (2 ^ (53 + k) : Nat) := (Nat.floor_lt hu).1 h1
    rw [pow_add] at h2
    exact_mod_cast h2
  have hlo : k = 0 ∨ (2 : ℚ) ^ 52 * 2 ^ k ≤ u := by
    by_cases h0 : k = 0
    · exact .inl h0
    · refine .inr ?_
      have hf : ⌊u⌋₊ ≠ 0 := by
        intro h
        rw [h] at hk
        simp at hk
        exact h0 hk
      have h1 : 2 ^ (52 + k) ≤ ⌊u⌋₊ := by
        have := Nat.pow_log_le_self 2 hf
        rwa [show Nat.log 2 ⌊u⌋₊ = 52 + k by omega] at this
      have h2 : ((2 ^ (52 + k) : Nat) : ℚ) ≤ u := (Nat.le_floor_iff hu).1 h1
      rw [pow_add] at h2
      exact_mod_cast h2
  have hx : 0 ≤ u / 2 ^ k := div_nonneg hu pk.le
  have hx2 : u / 2 ^ k < 2 ^ 53 := by rwa [div_lt_iff₀ pk]
  have hne := abs_le.1 (rne_near hx)
  refine ⟨k, rne (u / 2 ^ k), ⟨rfl, ?_, ?_⟩, rfl, hlo⟩
  · have : (rne (u / 2 ^ k) : ℚ) < 2 ^ 53 + 1 := by linarith
    have : rne (u / 2 ^ k) < 2 ^ 53 + 1 := by exact_mod_cast this
    omega
  · rcases hlo with h | h
    · exact .inl h
    · refine .inr ?_
      have h3 : (2 : ℚ) ^ 52 ≤ u / 2 ^ k := by rwa [le_div_iff₀ pk]
      have : (2 : ℚ) ^ 52 < rne (u / 2 ^ k) + 1 := by linarith
      have : 2 ^ 52 < rne (u / 2 ^ k) + 1 := by exact_mod_cast this
      omega

/-- No float is nearer. -/
theorem bitsOf_nearest {r : ℚ} (hr : 0 ≤ r) (m : Nat) : |mag (bitsOf r) - r| ≤ |mag m - r| := by
  obtain ⟨k, q, hp, hq, hlo⟩ := bitsOf_parts hr
  obtain ⟨P, eP, hP⟩ := scale_ex
  rw [← eP] at hq hlo
  have hscale : ∀ n, |mag n - r| = |(units n : ℚ) - r * P| / P := by
    intro n
    rw [mag, ← eP, show (units n : ℚ) / P - r = (units n - r * P) / P by rw [sub_div, mul_div_assoc, div_self hP.ne', mul_one],
      abs_div, abs_of_pos hP]
  clear eP
  rw [hscale, hscale]
  apply div_le_div_of_nonneg_right _ hP.le
  rw [units_parts hp]
  have hu : 0 ≤ r * P := mul_nonneg hr hP.le
  generalize r * P = u at *
  have pk := pow_pos_q k
  have hx : 0 ≤ u / 2 ^ k := div_nonneg hu pk.le
  have hb : ∀ c : Int, |((q * 2 ^ k : Nat) : ℚ) - u| ≤ |(c : ℚ) * 2 ^ k - u| := by
    intro c
    have h1 := rne_best hx c
    rw [← hq] at h1
    have h2 : ∀ y : ℚ, |y * 2 ^ k - u| = |y - u / 2 ^ k| * 2 ^ k := by
      intro y
      rw [← abs_of_pos pk, ← abs_mul, abs_of_pos pk, sub_mul, div_mul_cancel₀ _ pk.ne']
    push_cast
    rw [h2, h2]
    exact mul_le_mul_of_nonneg_right h1 pk.le
  obtain ⟨k', q', hp', hq'⟩ := parts_ex m
  rw [units_parts hp']
  by_cases hkk : k ≤ k'
  · obtain ⟨j, rfl⟩ := Nat.exists_eq_add_of_le hkk
    have := hb (q' * 2 ^ j)
    push_cast at this ⊢
    rwa [mul_assoc, ← pow_add, Nat.add_comm j k] at this
  · have hk0 : k ≠ 0 := by omega
    have hlo' : (2 : ℚ) ^ 52 * 2 ^ k ≤ u := by
      rcases hlo with h | h
      · exact absurd h hk0
      · exact h
    have h1 := hb (2 ^ 52)
    have h2 : ((q' * 2 ^ k' : Nat) : ℚ) ≤ 2 ^ 52 * 2 ^ k := by
      obtain ⟨j, rfl⟩ := Nat.exists_eq_add_of_lt (show k' < k by omega)
      have : q' * 2 ^ k' ≤ 2 ^ 52 * 2 ^ (k' + j + 1) := by
        calc q' * 2 ^ k' ≤ 2 ^ 53 * 2 ^ k' := Nat.mul_le_mul_right _ hq'.le
          _ ≤ 2 ^ 53 * 2 ^ (k' + j) := Nat.mul_le_mul_left _ (Nat.pow_le_pow_right (by omega) (by omega))
          _ = 2 ^ 52 * 2 ^ (k' + j + 1) := by ring
      exact_mod_cast this
    refine h1.trans ?_
    push_cast at h2 ⊢
    rw [abs_of_nonpos (by linarith), abs_of_nonpos (by linarith)]
    linarith

theorem cast_gap {a b : Nat} (h : (a : Int) ≤ 2 ^ 53 * |(b : Int) - a| ∧ 1 ≤ |(b : Int) - a|) :
    (a : ℚ) ≤ 2 ^ 53 * |(b : ℚ) - a| ∧ (1 : ℚ) ≤ |(b : ℚ) - a| := ⟨by exact_mod_cast h.1, by exact_mod_cast h.2⟩

theorem far_zero {a c : ℚ} (hb : c ≤ 0) (ht : a ≤ c + 0) (h : 0 < a) : False := by linarith

theorem far_gap {a b c r : ℚ} (hb : c ≤ b) (ht : a ≤ c + b) (m : r ≤ 2 ^ 53 * a) (h : b * 2 ^ 54 < r) : False := by linarith

/-- A number nearer to a float than a part of `2 ^ -54` of it is read as this float. -/
theorem bitsOf_eq {n : Nat} {v : ℚ} (hv : 0 ≤ v) (h : v = mag n ∨ |v - mag n| * 2 ^ 54 < mag n) : bitsOf v = n := by
  by_contra hn
  obtain ⟨P, eP, hP⟩ := scale_ex
  have hg := units_gap (n := n) (m := bitsOf v) (fun e => hn e.symm)
  have g1 : (units n : ℚ) ≤ 2 ^ 53 * |(units (bitsOf v) : ℚ) - units n| := (cast_gap hg).1
  have g2 : (1 : ℚ) ≤ |(units (bitsOf v) : ℚ) - units n| := (cast_gap hg).2
  have hd : |mag (bitsOf v) - mag n| = |(units (bitsOf v) : ℚ) - units n| / P := by
    rw [mag, mag, ← eP, ← sub_div, abs_div, abs_of_pos hP]
  have m1 : mag n ≤ 2 ^ 53 * |mag (bitsOf v) - mag n| := by
    rw [hd, mag, ← eP, ← mul_div_assoc]
    exact div_le_div_of_nonneg_right g1 hP.le
  have m2 : 0 < |mag (bitsOf v) - mag n| := by
    rw [hd]
    exact div_pos (lt_of_lt_of_le one_pos g2) hP
  clear eP hd g1 g2 hg
  have hb := bitsOf_nearest hv n
  have ht := abs_sub_le (mag (bitsOf v)) v (mag n)
  rw [abs_sub_comm (mag n) v] at hb
  rcases h with h | h
  · have e0 : |v - mag n| = 0 := by rw [h, sub_self, abs_zero]
    rw [e0] at hb ht
    exact far_zero hb ht m2
  · exact far_gap hb ht m1 h

theorem mag_nonneg (n : Nat) : 0 ≤ mag n := div_nonneg (by positivity) (by positivity)

theorem ofMag_eq {neg : Bool} {b : Fin (2047 * 2 ^ 52)} {v : ℚ} (hv : 0 ≤ v)
    (h : v = mag b ∨ |v - mag b| * 2 ^ 54 < mag b) : ofMag neg v = num neg b := by
  have e := bitsOf_eq hv h
  unfold ofMag
  rw [dif_pos (by rw [e]; exact b.2)]
  congr 1
  exact Fin.ext e

end Verif.Double
