import Verif.Model.DoubleAdd
import Verif.Proofs.Double

/-! Errors of sums of floats. -/

namespace Verif.Double

/-- A multiple of the smallest float is changed by no more than a part of `2 ^ -53` of it. -/
theorem bitsOf_rel {r : ℚ} (hr : 0 ≤ r) {j : Nat} (hj : r * 2 ^ 1074 = j) : |mag (bitsOf r) - r| * 2 ^ 53 ≤ r := by
  obtain ⟨k, q, hp, hq, hlo⟩ := bitsOf_parts hr
  obtain ⟨P, eP, hP⟩ := scale_ex
  rw [← eP] at hq hlo hj
  have hs : |mag (bitsOf r) - r| = |(units (bitsOf r) : ℚ) - r * P| / P := by
    rw [mag, ← eP, show (units (bitsOf r) : ℚ) / P - r = (units (bitsOf r) - r * P) / P by rw [sub_div, mul_div_assoc, div_self hP.ne', mul_one],
      abs_div, abs_of_pos hP]
  clear eP
  rw [hs, units_parts hp, div_mul_eq_mul_div, div_le_iff₀ hP]
  clear hs hp
  have hu : 0 ≤ r * P := mul_nonneg hr hP.le
  generalize r * P = u at *
  subst hj
  have pk := pow_pos_q k
  rcases hlo with rfl | h
  · rw [pow_zero, div_one, rne_nat] at hq
    subst hq
    rw [pow_zero, mul_one, sub_self, abs_zero, zero_mul]
    exact hu
  · have h1 := rne_near (div_nonneg hu pk.le)
    rw [← hq] at h1
    have h2 : |((q * 2 ^ k : Nat) : ℚ) - j| = |(q : ℚ) - j / 2 ^ k| * 2 ^ k := by
      rw [← abs_of_pos pk, ← abs_mul, abs_of_pos pk, sub_mul, div_mul_cancel₀ _ pk.ne', Nat.cast_mul, Nat.cast_pow, Nat.cast_ofNat]
    rw [h2]
    have h3 := mul_le_mul_of_nonneg_right h1 pk.le
    generalize |(q : ℚ) - j / 2 ^ k| * 2 ^ k = z at *
    linarith

theorem units_sum (a b : Bool) (m n : Nat) :
    ∃ j : Nat, |(if a then - mag m else mag m) + (if b then - mag n else mag n)| * 2 ^ 1074 = j := by
  obtain ⟨P, eP, hP⟩ := scale_ex
  rw [← eP]
  have hm : ∀ n, mag n = units n / P := fun n => by rw [mag, eP]
  rw [hm, hm]
  clear hm eP
  generalize units m = x
  generalize units n = y
  have key : ∀ i : Int, |(i : ℚ) / P| * P = (i.natAbs : ℚ) := by
    intro i
    rw [abs_div, abs_of_pos hP, div_mul_cancel₀ _ hP.ne', Nat.cast_natAbs, Int.cast_abs]
  have e : (if a then -((x : ℚ) / P) else x / P) + (if b then -((y : ℚ) / P) else y / P) =
      (((if a then -(x : Int) else x) + (if b then -(y : Int) else y) : Int) : ℚ) / P := by
    cases a <;> cases b <;> simp <;> ring
  rw [e, key]
  exact ⟨_, rfl⟩

theorem add_num (a b : Bool) (m n : Fin (2047 * 2 ^ 52)) : num a m + num b n =
    ofMag (if (if a then - mag m else mag m) + (if b then - mag n else mag n) = 0 then a && b
      else decide ((if a then - mag m else mag m) + (if b then - mag n else mag n) < 0))
      |(if a then - mag m else mag m) + (if b then - mag n else mag n)| := rfl

theorem ofMag_val {neg : Bool} {r v : ℚ} (h : (ofMag neg r).val? = some v) : v = if neg then - mag (bitsOf r) else mag (bitsOf r) := by
  unfold ofMag at h
  split at h
  · injection h with h
    exact h.symm
  · cases h

/-- A finite sum is a sum of finite numbers and right up to a part of `2 ^ -53`. -/
theorem add_val {x y : Double} {v : ℚ} (h : (x + y).val? = some v) :
    ∃ r s, x.val? = some r ∧ y.val? = some s ∧ |v - (r + s)| * 2 ^ 53 ≤ |r + s| := by
  cases x with
  | num a m =>
    cases y with
    | num b n =>
      refine ⟨_, _, rfl, rfl, ?_⟩
      rw [add_num] at h
      obtain ⟨j, hj⟩ := units_sum a b m n
      generalize (if a then - mag m else mag m) + (if b then - mag n else mag n) = s at *
      have h1 := bitsOf_rel (abs_nonneg s) hj
      clear hj
      have h2 := ofMag_val h
      clear h
      generalize mag (bitsOf |s|) = w at *
      subst h2
      by_cases h0 : s = 0
      · subst h0
        rw [abs_zero, sub_zero] at h1
        have : w = 0 := by
          have := abs_nonneg w
          have : |w| = 0 := by linarith
          exact abs_eq_zero.1 this
        subst this
        simp
      · rw [if_neg h0]
        by_cases hs : s < 0
        · rw [if_pos (by simpa using hs), ← abs_neg, show -(-w - s) = w - -s by ring, ← abs_of_neg hs]
          exact h1
        · rw [if_neg (by simpa using hs)]
          have e : |s| = s := abs_of_nonneg (not_lt.1 hs)
          rw [e] at h1 ⊢
          exact h1
    | inf b => cases h
    | nan => cases h
  | inf a =>
    cases y with
    | num b n => cases h
    | inf b =>
      change (if a = b then inf a else nan).val? = some v at h
      split at h <;> cases h
    | nan => cases h
  | nan => cases y <;> cases h

/-- The order of two numbers does not matter. -/
theorem add_comm (x y : Double) : x + y = y + x := by
  cases x with
  | num a m =>
    cases y with
    | num b n => rw [add_num, add_num, Bool.and_comm, _root_.add_comm (if a then - mag m else mag m)]
    | inf b => rfl
    | nan => rfl
  | inf a =>
    cases y with
    | num b n => rfl
    | inf b =>
      change (if a = b then inf a else nan) = (if b = a then inf b else nan)
      by_cases h : a = b
      · subst h; rfl
      · rw [if_neg h, if_neg (fun e => h e.symm)]
    | nan => rfl
  | nan => cases y <;> rfl

theorem step_aux {v s x S E A e : ℚ} (he : 0 ≤ e) (h1 : |v - (s + x)| ≤ e * |s + x|) (h2 : |s - S| ≤ E) (h3 : |S| ≤ A) :
    |v - (S + x)| ≤ e * (A + |x|) + (1 + e) * E := by
  have h4 : |v - (S + x)| ≤ |v - (s + x)| + |s - S| := by
    rw [show v - (S + x) = (v - (s + x)) + (s - S) by ring]
    exact abs_add_le _ _
  have h5 : |s + x| ≤ A + |x| + E := by
    rw [show s + x = (s - S) + S + x by ring]
    have a1 := abs_add_le ((s - S) + S) x
    have a2 := abs_add_le (s - S) S
    linarith
  have h6 := mul_le_mul_of_nonneg_left h5 he
  linarith

/-- Adding many numbers. -/
theorem foldl_add {α : Type} (f : α → Double) (l : List α) (x : Double) {v : ℚ} (h : (l.foldl (fun s t => s + f t) x).val? = some v) :
    ∃ (r : ℚ) (g : α → ℚ), x.val? = some r ∧ (∀ a ∈ l, (f a).val? = some (g a)) ∧
      |v - (r + (l.map g).sum)| ≤ ((1 + 1 / 2 ^ 53) ^ l.length - 1) * (|r| + (l.map (fun a => |g a|)).sum) := by
  induction l using List.reverseRecOn generalizing v with
  | nil => exact ⟨v, fun _ => 0, h, by simp, by simp⟩
  | append_singleton l a ih =>
    rw [List.foldl_append, List.foldl_cons, List.foldl_nil] at h
    obtain ⟨s, y, hs, hy, hv⟩ := add_val h
    obtain ⟨r, g, hr, hg, hb⟩ := ih hs
    have hv' : |v - (s + y)| ≤ 1 / 2 ^ 53 * |s + y| := by
      rw [one_div, ← div_eq_inv_mul, le_div_iff₀ (by positivity)]
      exact hv
    refine ⟨r, fun b => ((f b).val?).getD 0, hr, ?_, ?_⟩
    · intro b hb
      rcases List.mem_append.1 hb with h | h
      · simp [hg b h]
      · simp [List.mem_singleton.1 h, hy]
    · have e1 : l.map (fun b => ((f b).val?).getD 0) = l.map g := List.map_congr_left (fun b hb => by rw [hg b hb]; rfl)
      have e2 : l.map (fun b => |((f b).val?).getD 0|) = l.map (fun b => |g b|) := List.map_congr_left (fun b hb => by rw [hg b hb]; rfl)
      simp only [List.map_append, List.map_cons, List.map_nil, List.sum_append, List.sum_cons, List.sum_nil, hy, Option.getD_some, add_zero,
        List.length_append, List.length_cons, List.length_nil, zero_add, e1, e2]
      have hA : |r + (l.map g).sum| ≤ |r| + (l.map (fun a => |g a|)).sum := by
        refine (abs_add_le _ _).trans (add_le_add (le_refl _) ?_)
        clear e1 e2 hb hg ih h hs
        induction l with
        | nil => simp
        | cons b l ih =>
          simp only [List.map_cons, List.sum_cons]
          exact (abs_add_le _ _).trans (add_le_add (le_refl _) ih)
      have h0 : 0 ≤ |r| + (l.map (fun a => |g a|)).sum := (abs_nonneg _).trans hA
      have hst := step_aux (by positivity) hv' hb hA
      rw [← add_assoc]
      refine hst.trans ?_
      rw [← add_assoc]
      generalize |r| + (l.map (fun a => |g a|)).sum = A at *
      have hp : (1 : ℚ) ≤ (1 + 1 / 2 ^ 53) ^ l.length := one_le_pow₀ (by norm_num)
      rw [pow_succ (1 + 1 / 2 ^ 53 : ℚ) l.length]
      generalize ((1 : ℚ) + 1 / 2 ^ 53) ^ l.length = X at *
      have he : (0 : ℚ) < 1 / 2 ^ 53 := by positivity
      generalize (1 : ℚ) / 2 ^ 53 = e at *
      have hy0 := abs_nonneg y
      have : 0 ≤ (X * (1 + e) - 1 - e) * |y| := mul_nonneg (by nlinarith) hy0
      nlinarith

end Verif.Double
