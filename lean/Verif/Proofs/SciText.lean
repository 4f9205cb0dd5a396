import Verif.Proofs.FloatText

/-! The texts that are written for floats. -/

namespace Verif.Double
open Py

theorem digits_plain {s : Str} {v : Nat} (h : AllDec s) (hv : parseDigits 0 false s = some v) : Digits s v s.length ∧ '_' ∉ s := by
  obtain ⟨k, hk⟩ := digits_of_parse hv
  have hc := digits_count hk
  rw [List.filter_eq_self.2 (fun c hc => by obtain ⟨d, hd⟩ := h c hc; simp [isDecimal, hd])] at hc
  refine ⟨by rw [hc]; exact hk, fun hu => ?_⟩
  exact (digit_facts (h _ hu)).2.2.2.1 rfl

theorem rne_even {r : ℚ} (hr : 0 ≤ r) : NearestEven r (rne r) := by
  refine ⟨by simpa using rne_near hr, fun h => ?_⟩
  have := rne_tie (by simpa using h) hr
  omega

theorem carry_aux {x K : ℚ} (hx : x < K * 10) (h : |K * 10 - x| ≤ 1 / 2) : |K - x / 10| ≤ 1 / 20 := by
  have h1 := abs_le.1 h
  rw [abs_le]
  constructor <;> linarith

theorem sciDigits_round {r : ℚ} (hr : 0 < r) (k : Nat) :
    10 ^ k ≤ (sciDigits k r).1 ∧ NearestEven (r * 10 ^ ((k : Int) - (sciDigits k r).2)) (sciDigits k r).1 := by
  unfold sciDigits
  rw [if_neg hr.ne']
  have l1 : (10 : ℚ) ^ Int.log 10 r ≤ r := by simpa using Int.zpow_log_le_self (b := 10) (by norm_num) hr
  have l2 : r < (10 : ℚ) ^ (Int.log 10 r + 1) := by simpa using Int.lt_zpow_succ_log_self (b := 10) (by norm_num) r
  dsimp only
  generalize Int.log 10 r = d at *
  have hd : r / 10 ^ (d - k) = r * 10 ^ ((k : Int) - d) := by
    rw [div_eq_mul_inv, ← zpow_neg, neg_sub]
  rw [hd]
  have hx0 : 0 ≤ r * 10 ^ ((k : Int) - d) := mul_nonneg hr.le (zpow_nonneg (by norm_num) _)
  have hlo : (10 : ℚ) ^ k ≤ r * 10 ^ ((k : Int) - d) := by
    have := mul_le_mul_of_nonneg_right l1 (zpow_nonneg (show (0 : ℚ) ≤ 10 by norm_num) ((k : Int) - d))
    rwa [← zpow_add₀ (by norm_num), add_sub_cancel, zpow_natCast] at this
  have hhi : r * 10 ^ ((k : Int) - d) < 10 ^ k * 10 := by
    have := mul_lt_mul_of_pos_right l2 (zpow_pos (show (0 : ℚ) < 10 by norm_num) ((k : Int) - d))
    rwa [← zpow_add₀ (by norm_num), show d + 1 + ((k : Int) - d) = ((k + 1 : Nat) : Int) by push_cast; ring, zpow_natCast, pow_succ] at this
  have hne := rne_even hx0
  have hnr := rne_near hx0
  split
  · rename_i hm
    refine ⟨le_refl _, ?_⟩
    dsimp only
    have e : r * 10 ^ ((k : Int) - (d + 1)) = r * 10 ^ ((k : Int) - d) / 10 := by
      rw [show (k : Int) - (d + 1) = ((k : Int) - d) + (-1) by ring, zpow_add₀ (by norm_num), zpow_neg, zpow_one]
      ring
    rw [e]
    rw [hm] at hnr
    push_cast at hnr
    rw [pow_succ] at hnr
    have := carry_aux hhi hnr
    constructor
    · push_cast
      linarith
    · intro h
      push_cast at h
      rw [h] at this
      norm_num at this
  · refine ⟨?_, hne⟩
    generalize r * 10 ^ ((k : Int) - d) = x at *
    have h1 := abs_le.1 hnr
    have h2 : ((10 ^ k : Nat) : ℚ) ≤ x := by exact_mod_cast hlo
    have h3 : 10 ^ k ≤ ⌊x⌋₊ := (Nat.le_floor_iff hx0).2 h2
    dsimp only
    unfold rne
    dsimp only
    split_ifs <;> omega

theorem pad_two (n : Nat) : natStrPad 2 n = (if n < 10 then ['0'] else []) ++ natStr n := by
  unfold natStrPad
  congr 1
  have h1 := natStr_length n 1 (by omega)
  have h2 := List.length_pos_iff.2 (natStr_ne_nil n)
  split
  · have : (natStr n).length = 1 := by omega
    rw [this]
    rfl
  · have : 2 - (natStr n).length = 0 := by omega
    rw [this]
    rfl

theorem sciText_is {r : ℚ} (hr : 0 ≤ r) (k : Nat) : SciText k r (sciText k (sciDigits k r)) := by
  have hlt := (sciDigits_spec hr k).1
  have hround := fun h : 0 < r => sciDigits_round h k
  have hz : r = 0 → sciDigits k r = (0, 0) := fun h => by rw [sciDigits, if_pos h]
  generalize sciDigits k r = p at *
  have hlen := natStrPad_length (k + 1) p.1 (by omega) hlt
  have hdec := natStrPad_allDec (k + 1) p.1
  have hpar := parse_pad (k + 1) p.1
  unfold sciText
  dsimp only
  obtain ⟨c, t, e1, e2, e3⟩ := take_one (natStrPad_ne_nil (k + 1) p.1)
  rw [e2, e3]
  rw [e1] at hlen hdec hpar
  obtain ⟨hd, hu⟩ := digits_plain hdec hpar
  rw [hlen] at hd
  refine ⟨c, t, p.1, p.2, ?_, hd, hu, ?_⟩
  · rw [pad_two]
    split <;> simp
  · split
    · rename_i h0
      rw [hz h0]
      exact ⟨rfl, rfl⟩
    · rename_i h0
      exact hround (lt_of_le_of_ne hr (fun h => h0 h.symm))

theorem fixed_is (k : Nat) (hk : 0 < k) (neg : Bool) (b : Fin (2047 * 2 ^ 52)) :
    ∃ s, fixed k (num neg b) = sign neg ++ s ∧ FixedText k (mag b) s := by
  rw [fixed]
  have hm := rne_even (mul_nonneg (mag_nonneg b) (show (0 : ℚ) ≤ 10 ^ k by positivity))
  generalize rne (mag b * 10 ^ k) = m at *
  have h2 : m % 10 ^ k < 10 ^ k := Nat.mod_lt _ (by positivity)
  obtain ⟨hd, hu⟩ := digits_plain (natStrPad_allDec k (m % 10 ^ k)) (parse_pad _ _)
  rw [natStrPad_length k _ hk h2] at hd
  refine ⟨_, ?_, m / 10 ^ k, m % 10 ^ k, _, rfl, hd, hu, ?_⟩
  · simp
  · rwa [Nat.div_add_mod' m (10 ^ k)]

end Verif.Double
