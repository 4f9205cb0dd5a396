import Verif.Proofs.DoubleText
import Verif.Spec.FloatText

/-! `Double.ofMag` rounds as `RoundsTo` says. -/

namespace Verif.Double

theorem mag_scale {P : ℚ} (eP : P = 2 ^ 1074) (hP : 0 < P) (n : Nat) (r : ℚ) : |mag n - r| = |(units n : ℚ) - r * P| / P := by
  rw [mag, ← eP, show (units n : ℚ) / P - r = (units n - r * P) / P by rw [sub_div, mul_div_assoc, div_self hP.ne', mul_one],
    abs_div, abs_of_pos hP]

theorem tie_half {q c : Int} {x : ℚ} (h : |(q : ℚ) - x| ≤ 1 / 2) (hc : c ≠ q) (he : |(q : ℚ) - x| = |(c : ℚ) - x|) : |(q : ℚ) - x| = 1 / 2 := by
  have h1 : (1 : ℚ) ≤ |(c : ℚ) - q| := by
    have : (1 : Int) ≤ |c - q| := Int.one_le_abs (by omega)
    exact_mod_cast this
  have h2 := abs_sub_le (c : ℚ) x q
  rw [abs_sub_comm x (q : ℚ), ← he] at h2
  linarith

/-- Of two floats that are nearest the one with even bits is taken. -/
theorem bitsOf_tie {r : ℚ} (hr : 0 ≤ r) {m : Nat} (hm : m ≠ bitsOf r) (h : |mag (bitsOf r) - r| = |mag m - r|) : bitsOf r % 2 = 0 := by
  obtain ⟨k, q, hp, hq, hlo⟩ := bitsOf_parts hr
  obtain ⟨P, eP, hP⟩ := scale_ex
  have hne : units m ≠ units (bitsOf r) := fun e => hm (units_inj e)
  rw [mag_scale eP hP, mag_scale eP hP] at h
  have h := (div_left_inj' hP.ne').1 h
  rw [← eP] at hq hlo
  clear eP
  rw [units_parts hp] at h hne
  have e2 : bitsOf r % 2 = q % 2 := by
    have := hp.1
    omega
  rw [e2]
  clear e2 hp hm
  have hu : 0 ≤ r * P := mul_nonneg hr hP.le
  generalize r * P = u at *
  have pk := pow_pos_q k
  have hx : 0 ≤ u / 2 ^ k := div_nonneg hu pk.le
  have h2 : ∀ y : ℚ, |y * 2 ^ k - u| = |y - u / 2 ^ k| * 2 ^ k := by
    intro y
    rw [← abs_of_pos pk, ← abs_mul, abs_of_pos pk, sub_mul, div_mul_cancel₀ _ pk.ne']
  have key : ∀ c : Int, c ≠ q → |((q * 2 ^ k : Nat) : ℚ) - u| = |(c : ℚ) * 2 ^ k - u| → q % 2 = 0 := by
    intro c hc he
    push_cast at he
    rw [h2, h2] at he
    have he := mul_right_cancel₀ pk.ne' he
    have hn := rne_near hx
    rw [← hq] at hn
    have ht := tie_half (q := q) (by exact_mod_cast hn) hc (by exact_mod_cast he)
    rw [hq]
    exact rne_tie (by rw [← hq]; exact_mod_cast ht) hx
  have hb : |((q * 2 ^ k : Nat) : ℚ) - u| ≤ |((2 ^ 52 : Int) : ℚ) * 2 ^ k - u| := by
    have h1 := rne_best hx (2 ^ 52)
    rw [← hq] at h1
    push_cast at h1 ⊢
    rw [h2, h2]
    exact mul_le_mul_of_nonneg_right h1 pk.le
  obtain ⟨k', q', hp', hq'⟩ := parts_ex m
  rw [units_parts hp'] at h hne
  by_cases hkk : k ≤ k'
  · obtain ⟨j, rfl⟩ := Nat.exists_eq_add_of_le hkk
    have e : q' * 2 ^ (k + j) = q' * 2 ^ j * 2 ^ k := by ring
    rw [e] at h hne
    refine key (q' * 2 ^ j : Nat) ?_ ?_
    · intro hc
      have : q' * 2 ^ j = q := by exact_mod_cast hc
      exact hne (by rw [this])
    · rw [h]
      push_cast
      rfl
  · have hk0 : k ≠ 0 := by omega
    have hlo' : (2 : ℚ) ^ 52 * 2 ^ k ≤ u := by
      rcases hlo with h | h
      · exact absurd h hk0
      · exact h
    have h3 : ((q' * 2 ^ k' : Nat) : ℚ) ≤ 2 ^ 52 * 2 ^ k := by
      obtain ⟨j, rfl⟩ := Nat.exists_eq_add_of_lt (show k' < k by omega)
      have : q' * 2 ^ k' ≤ 2 ^ 52 * 2 ^ (k' + j + 1) := by
        calc q' * 2 ^ k' ≤ 2 ^ 53 * 2 ^ k' := Nat.mul_le_mul_right _ hq'.le
          _ ≤ 2 ^ 53 * 2 ^ (k' + j) := Nat.mul_le_mul_left _ (Nat.pow_le_pow_right (by omega) (by omega))
          _ = 2 ^ 52 * 2 ^ (k' + j + 1) := by ring
      exact_mod_cast this
    rw [h] at hb
    obtain ⟨z, ez⟩ : ∃ z : ℚ, z = ((q' * 2 ^ k' : Nat) : ℚ) := ⟨_, rfl⟩
    rw [← ez] at h h3 hb
    push_cast at hb
    rw [abs_of_nonpos (by linarith), abs_of_nonpos (by linarith)] at hb
    have hz : z = 2 ^ 52 * 2 ^ k := by linarith
    refine key (2 ^ 52) ?_ ?_
    · intro hc
      have hc : 2 ^ 52 = q := by exact_mod_cast hc
      rw [ez, ← Nat.cast_ofNat (R := ℚ), ← Nat.cast_pow, ← Nat.cast_pow, ← Nat.cast_mul, Nat.cast_inj, hc] at hz
      exact hne hz
    · rw [h, hz]
      push_cast
      rfl

theorem units_le {n : Nat} (h : n < 2047 * 2 ^ 52) : units n ≤ (2 ^ 54 - 2) * 2 ^ 2044 := by
  obtain ⟨k, q, hp, hq⟩ := parts_ex n
  rw [units_parts hp]
  obtain ⟨e, -, h3⟩ := hp
  have hk : k ≤ 2045 := by omega
  calc q * 2 ^ k ≤ (2 ^ 53 - 1) * 2 ^ 2045 := Nat.mul_le_mul (by omega) (Nat.pow_le_pow_right (by omega) hk)
    _ = (2 ^ 54 - 2) * 2 ^ 2044 := by rw [pow_succ 2 2044]; generalize 2 ^ 2044 = X; omega

theorem units_ge {n : Nat} (h : 2047 * 2 ^ 52 ≤ n) : 2 ^ 54 * 2 ^ 2044 ≤ units n := by
  obtain ⟨k, q, hp, hq⟩ := parts_ex n
  rw [units_parts hp]
  obtain ⟨e, -, h3⟩ := hp
  have hk : 2046 ≤ k := by omega
  calc 2 ^ 54 * 2 ^ 2044 = 2 ^ 52 * 2 ^ 2046 := by rw [pow_add 2 2044 2]; generalize 2 ^ 2044 = X; omega
    _ ≤ q * 2 ^ k := Nat.mul_le_mul (by omega) (Nat.pow_le_pow_right (by omega) hk)

theorem units_first : units (2047 * 2 ^ 52) = 2 ^ 54 * 2 ^ 2044 := by
  rw [units_parts (k := 2046) (q := 2 ^ 52) ⟨by norm_num, by norm_num, .inr (le_refl _)⟩, pow_add 2 2044 2]
  generalize 2 ^ 2044 = X
  omega

theorem units_last : units (2047 * 2 ^ 52 - 1) = (2 ^ 54 - 2) * 2 ^ 2044 := by
  rw [units_parts (k := 2045) (q := 2 ^ 53 - 1) ⟨by norm_num, by norm_num, .inr (by norm_num)⟩, pow_succ 2 2044]
  generalize 2 ^ 2044 = X
  omega

theorem limit_aux {a u X : ℚ} (hX : 0 < X) (ha : a ≤ (2 ^ 54 - 2) * X) (hu : (2 ^ 54 - 1) * X ≤ u) (h : |a - u| ≤ |2 ^ 54 * X - u|) :
    a = (2 ^ 54 - 2) * X ∧ |a - u| = |2 ^ 54 * X - u| := by
  have h1 : a - u ≤ 0 := by linarith
  rw [abs_of_nonpos h1] at h ⊢
  rcases le_total u (2 ^ 54 * X) with h2 | h2
  · rw [abs_of_nonneg (by linarith)] at h ⊢
    constructor <;> linarith
  · rw [abs_of_nonpos (by linarith)] at h
    linarith

theorem limit_aux2 {a u X : ℚ} (hX : 0 < X) (ha : 2 ^ 54 * X ≤ a) (hu : u < (2 ^ 54 - 1) * X) (h : |a - u| ≤ |(2 ^ 54 - 2) * X - u|) : False := by
  rw [abs_of_nonneg (by linarith)] at h
  rcases le_total u ((2 ^ 54 - 2) * X) with h2 | h2
  · rw [abs_of_nonneg (by linarith)] at h
    linarith
  · rw [abs_of_nonpos (by linarith)] at h
    linarith

theorem scale_limit {P : ℚ} (eP : P = 2 ^ 1074) : ((2 : ℚ) ^ 54 - 1) * 2 ^ 970 * P = (2 ^ 54 - 1) * 2 ^ 2044 := by
  rw [eP, mul_assoc, ← pow_add]

theorem cast_scale {a : Nat} {n : Nat} (h : units n = a * 2 ^ 2044) : (units n : ℚ) = a * 2 ^ 2044 := by
  rw [h, Nat.cast_mul, Nat.cast_pow, Nat.cast_ofNat]

theorem cast_le {a : Nat} {n : Nat} (h : units n ≤ a * 2 ^ 2044) : (units n : ℚ) ≤ a * 2 ^ 2044 := by
  have := (Nat.cast_le (α := ℚ)).2 h
  rwa [Nat.cast_mul, Nat.cast_pow, Nat.cast_ofNat] at this

theorem cast_ge {a : Nat} {n : Nat} (h : a * 2 ^ 2044 ≤ units n) : (a : ℚ) * 2 ^ 2044 ≤ (units n : ℚ) := by
  have := (Nat.cast_le (α := ℚ)).2 h
  rwa [Nat.cast_mul, Nat.cast_pow, Nat.cast_ofNat] at this

/-- Numbers from half a unit above the largest float on are too large. -/
theorem bitsOf_limit {r : ℚ} (hr : 0 ≤ r) : bitsOf r < 2047 * 2 ^ 52 ↔ r < (2 ^ 54 - 1) * 2 ^ 970 := by
  obtain ⟨P, eP, hP⟩ := scale_ex
  have hb : ∀ m, |(units (bitsOf r) : ℚ) - r * P| ≤ |(units m : ℚ) - r * P| := by
    intro m
    have := bitsOf_nearest hr m
    rw [mag_scale eP hP, mag_scale eP hP] at this
    exact (div_le_div_iff_of_pos_right hP).1 this
  have ht : ∀ m, m ≠ bitsOf r → |(units (bitsOf r) : ℚ) - r * P| = |(units m : ℚ) - r * P| → bitsOf r % 2 = 0 := by
    intro m hm h
    refine bitsOf_tie hr hm ?_
    rw [mag_scale eP hP, mag_scale eP hP, h]
  have hL : r < (2 ^ 54 - 1) * 2 ^ 970 ↔ r * P < (2 ^ 54 - 1) * 2 ^ 2044 := by
    rw [← scale_limit eP]
    exact (mul_lt_mul_iff_left₀ hP).symm
  rw [hL]
  clear eP hL
  have u1 := cast_scale units_first
  have u2 := cast_scale units_last
  have b1 := hb (2047 * 2 ^ 52)
  have b2 := hb (2047 * 2 ^ 52 - 1)
  have t1 := ht (2047 * 2 ^ 52)
  rw [u1] at b1 t1
  rw [u2] at b2
  have X0 := pow_pos_q 2044
  have hle : bitsOf r < 2047 * 2 ^ 52 → (units (bitsOf r) : ℚ) ≤ ((2 ^ 54 - 2 : Nat) : ℚ) * 2 ^ 2044 := fun h => cast_le (units_le h)
  have hge : 2047 * 2 ^ 52 ≤ bitsOf r → ((2 ^ 54 : Nat) : ℚ) * 2 ^ 2044 ≤ (units (bitsOf r) : ℚ) := fun h => cast_ge (units_ge h)
  have hlast : (units (bitsOf r) : ℚ) = ((2 ^ 54 - 2 : Nat) : ℚ) * 2 ^ 2044 → bitsOf r = 2047 * 2 ^ 52 - 1 := by
    intro h
    rw [← u2, Nat.cast_inj] at h
    exact units_inj h
  clear u1 u2 hb ht
  generalize (2 : ℚ) ^ 2044 = X at *
  generalize (units (bitsOf r) : ℚ) = a at *
  generalize r * P = u at *
  have e1 : ((2 ^ 54 - 2 : Nat) : ℚ) = 2 ^ 54 - 2 := by norm_num
  have e2 : ((2 ^ 54 : Nat) : ℚ) = 2 ^ 54 := by norm_num
  rw [e1] at b2 hle hlast
  rw [e2] at b1 t1 hge
  clear e1 e2
  constructor
  · intro h
    by_contra hu
    obtain ⟨h1, h2⟩ := limit_aux X0 (hle h) (not_lt.1 hu) b1
    have h3 := hlast h1
    have h4 := t1 (by omega) h2
    omega
  · intro hu
    by_contra h
    exact limit_aux2 X0 (hge (not_lt.1 h)) hu b2

theorem sign_abs {neg : Bool} {v r : ℚ} : |(if neg then -v else v) - (if neg then -r else r)| = |v - r| := by
  cases neg
  · rfl
  · rw [if_pos rfl, if_pos rfl, ← abs_neg]
    congr 1
    ring

theorem ofMag_rounds {neg : Bool} {r : ℚ} (hr : 0 ≤ r) : RoundsTo neg r (ofMag neg r) := by
  unfold ofMag
  split
  · rename_i h
    refine ⟨rfl, (bitsOf_limit hr).1 h, ?_⟩
    intro v hv y w hw
    have hb := bitsOf_nearest hr
    have ht := fun m => bitsOf_tie (m := m) hr
    generalize bitsOf r = n at *
    have hv : v = if neg then - mag n else mag n := by
      simp only [val?, Option.some.injEq] at hv
      exact hv.symm
    subst hv
    rw [sign_abs]
    cases y with
    | num n' b =>
      have hw : w = if n' then - mag b else mag b := by
        simp only [val?, Option.some.injEq] at hw
        exact hw.symm
      subst hw
      by_cases hs : n' = neg
      · subst hs
        rw [sign_abs]
        refine ⟨hb b, fun h1 h2 => ht b ?_ h2⟩
        rintro rfl
        exact h1 rfl
      · have e : |(if n' then - mag b else mag b) - (if neg then -r else r)| = mag b + r := by
          have hm := mag_nonneg b
          generalize mag b = z at *
          cases neg <;> cases n'
          · exact absurd rfl hs
          · rw [if_pos rfl, if_neg (by simp), abs_of_nonpos (by linarith)]; ring
          · rw [if_pos rfl, if_neg (by simp), abs_of_nonneg (by linarith)]; ring
          · exact absurd rfl hs
        rw [e]
        have h0 := hb 0
        have t0 := ht 0
        have hz : mag 0 = 0 := by rw [mag, show units 0 = 0 from by decide, Nat.cast_zero, zero_div]
        rw [hz, zero_sub, abs_neg, abs_of_nonneg hr] at h0 t0
        have hm := mag_nonneg b
        refine ⟨by linarith, fun h1 h2 => ?_⟩
        have hmb : mag b = 0 := by linarith
        rw [hmb] at h1 h2
        refine t0 ?_ (by linarith)
        rintro rfl
        rw [hz] at h1
        apply h1
        cases neg <;> cases n' <;> simp
    | inf _ => cases hw
    | nan => cases hw
  · rename_i h
    exact ⟨rfl, not_lt.1 (fun hl => h ((bitsOf_limit hr).2 hl))⟩

end Verif.Double
