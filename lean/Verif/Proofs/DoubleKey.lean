import Verif.Proofs.DoubleText
import Verif.Spec.Double
import Verif.Proofs.Strings

/-! Equal keys mean equal decimal fractions. -/

namespace Verif.Double
open Py

theorem abs_pin {w m m' a b : ℚ} (h1 : |w - m| ≤ |a - m|) (h2 : |w - m'| ≤ |b - m'|) (ha : |m - a| ≤ 1 / 2) (hb : |m' - b| ≤ 1 / 2)
    (hm : 1 ≤ |m - m'|) : |m - a| = 1 / 2 ∧ |m' - b| = 1 / 2 ∧ |m - m'| = 1 := by
  have h3 := abs_sub_le m w m'
  rw [abs_sub_comm m w] at h3
  rw [abs_sub_comm a m] at h1
  rw [abs_sub_comm b m'] at h2
  refine ⟨?_, ?_, ?_⟩ <;> linarith

theorem rne_zero : rne 0 = 0 := by
  have := rne_nat 0
  exact_mod_cast this

theorem mag_zero : mag 0 = 0 := by
  rw [mag, show units 0 = 0 from by decide, Nat.cast_zero, zero_div]

/-- Different decimal fractions have different floats when they are the roundings of floats. -/
theorem dec_bits {k n m : Nat} (h : bitsOf (rne (mag n * 10 ^ k) / 10 ^ k) = bitsOf (rne (mag m * 10 ^ k) / 10 ^ k)) :
    rne (mag n * 10 ^ k) = rne (mag m * 10 ^ k) := by
  have hT : (0 : ℚ) < 10 ^ k := by positivity
  have hn : 0 ≤ mag n * 10 ^ k := mul_nonneg (mag_nonneg n) hT.le
  have hm : 0 ≤ mag m * 10 ^ k := mul_nonneg (mag_nonneg m) hT.le
  have b1 := bitsOf_nearest (div_nonneg (Nat.cast_nonneg (rne (mag n * 10 ^ k))) hT.le) n
  have b2 := bitsOf_nearest (div_nonneg (Nat.cast_nonneg (rne (mag m * 10 ^ k))) hT.le) m
  rw [← h] at b2
  have t1 := rne_tie (r := mag n * 10 ^ k)
  have t2 := rne_tie (r := mag m * 10 ^ k)
  have n1 := rne_near hn
  have n2 := rne_near hm
  have sc : ∀ x y : ℚ, |x - y / 10 ^ k| * 10 ^ k = |x * 10 ^ k - y| := by
    intro x y
    rw [← abs_of_pos hT, ← abs_mul, abs_of_pos hT, sub_mul, div_mul_cancel₀ _ hT.ne']
  have c1 := mul_le_mul_of_nonneg_right b1 hT.le
  have c2 := mul_le_mul_of_nonneg_right b2 hT.le
  rw [sc, sc] at c1 c2
  clear b1 b2 sc h
  generalize mag (bitsOf (rne (mag n * 10 ^ k) / 10 ^ k)) * 10 ^ k = w at *
  generalize mag n * 10 ^ k = a at *
  generalize mag m * 10 ^ k = b at *
  by_contra hne
  have h1 : (1 : ℚ) ≤ |(rne a : ℚ) - rne b| := by
    have : (1 : Int) ≤ |(rne a : Int) - rne b| := Int.one_le_abs (by omega)
    exact_mod_cast this
  obtain ⟨e1, e2, e3⟩ := abs_pin c1 c2 n1 n2 h1
  have p1 := t1 e1 hn
  have p2 := t2 e2 hm
  have e4 : |(rne a : Int) - rne b| = 1 := by exact_mod_cast e3
  rcases abs_eq (by norm_num : (0 : Int) ≤ 1) |>.1 e4 with h | h <;> omega

theorem units_top {n : Nat} (h : 2047 * 2 ^ 52 ≤ n) : 2 ^ 2098 ≤ units n := by
  obtain ⟨k, q, hp, hq⟩ := parts_ex n
  rw [units_parts hp]
  obtain ⟨e, -, h3⟩ := hp
  have hk : 2046 ≤ k := by omega
  have hq2 : 2 ^ 52 ≤ q := by omega
  calc 2 ^ 2098 = 2 ^ 52 * 2 ^ 2046 := Nat.pow_add 2 52 2046
    _ ≤ q * 2 ^ k := Nat.mul_le_mul hq2 (Nat.pow_le_pow_right (by omega) hk)

theorem mag_top {n : Nat} (h : 2047 * 2 ^ 52 ≤ n) : (2 : ℚ) ^ 54 ≤ mag n := by
  have h1 : ((2 ^ 2098 : Nat) : ℚ) ≤ units n := Nat.cast_le.2 (units_top h)
  obtain ⟨P, eP, hP⟩ := scale_ex
  rw [mag, ← eP, le_div_iff₀ hP, eP]
  refine le_trans ?_ h1
  rw [Nat.cast_pow, Nat.cast_ofNat, ← pow_add]
  exact pow_le_pow_right₀ (by norm_num) (by norm_num)

theorem top_aux {w v b : ℚ} (h1 : |w - v| ≤ |b - v|) (h2 : |v - b| ≤ 1 / 2) (h3 : 2 ^ 54 ≤ w) (h4 : b ≤ 2 ^ 53 * |w - b|) (h5 : 0 < |w - b|)
    (h6 : v = b ∨ b < 2 ^ 53) : False := by
  rw [abs_sub_comm b v] at h1
  rcases h6 with rfl | h6
  · rw [sub_self, abs_zero] at h1
    linarith
  · have := le_abs_self (w - v)
    have := le_abs_self (v - b)
    linarith

/-- Large floats are integers. -/
theorem mag_int {n : Nat} (h : (2 : ℚ) ^ 53 ≤ mag n) : ∃ m : Nat, mag n = m := by
  obtain ⟨k, q, hp, hq⟩ := parts_ex n
  obtain ⟨P, eP, hP⟩ := scale_ex
  have h1 : (2 : ℚ) ^ 53 * P ≤ (q : ℚ) * 2 ^ k := by
    rw [mag, ← eP, le_div_iff₀ hP, units_parts hp] at h
    exact_mod_cast h
  have hk : 1074 ≤ k := by
    by_contra hc
    have hk : (2 : ℚ) ^ k ≤ P := by
      rw [eP]
      exact pow_le_pow_right₀ (by norm_num) (by omega)
    have hq' : (q : ℚ) < 2 ^ 53 := by exact_mod_cast hq
    have : (q : ℚ) * 2 ^ k < 2 ^ 53 * P := by
      calc (q : ℚ) * 2 ^ k ≤ q * P := mul_le_mul_of_nonneg_left hk (Nat.cast_nonneg q)
        _ < 2 ^ 53 * P := mul_lt_mul_of_pos_right hq' hP
    exact absurd h1 (not_le.2 this)
  obtain ⟨j, rfl⟩ := Nat.exists_eq_add_of_le hk
  refine ⟨q * 2 ^ j, ?_⟩
  rw [mag, ← eP, units_parts hp, div_eq_iff hP.ne']
  rw [Nat.cast_mul, Nat.cast_mul, Nat.cast_pow, Nat.cast_pow, Nat.cast_ofNat, pow_add, ← eP]
  ring

/-- Rounding does not overflow. -/
theorem round_finite {k : Nat} (b : Fin (2047 * 2 ^ 52)) :
    bitsOf (rne (mag b * 10 ^ k) / 10 ^ k) < 2047 * 2 ^ 52 := by
  by_contra hc
  have hc : 2047 * 2 ^ 52 ≤ bitsOf (rne (mag b * 10 ^ k) / 10 ^ k) := not_lt.1 hc
  have hT : (0 : ℚ) < 10 ^ k := by positivity
  have b1 := bitsOf_nearest (div_nonneg (Nat.cast_nonneg (rne (mag b * 10 ^ k))) hT.le) b
  have d1 := dec_near k (mag_nonneg b)
  have d2 : |(rne (mag b * 10 ^ k) : ℚ) / 10 ^ k - mag b| ≤ 1 / 2 := by
    refine d1.trans (div_le_self (by norm_num) ?_)
    exact one_le_pow₀ (by norm_num)
  have hne : (b : Nat) ≠ bitsOf (rne (mag b * 10 ^ k) / 10 ^ k) := by have := b.2; omega
  obtain ⟨P, eP, hP⟩ := scale_ex
  obtain ⟨g1, g2⟩ := cast_gap (units_gap hne)
  have hd : |mag (bitsOf (rne (mag b * 10 ^ k) / 10 ^ k)) - mag b| =
      |(units (bitsOf (rne (mag b * 10 ^ k) / 10 ^ k)) : ℚ) - units b| / P := by
    rw [mag, mag, ← eP, ← sub_div, abs_div, abs_of_pos hP]
  have m1 : mag b ≤ 2 ^ 53 * |mag (bitsOf (rne (mag b * 10 ^ k) / 10 ^ k)) - mag b| := by
    rw [hd, ← mul_div_assoc]
    conv_lhs => rw [mag, ← eP]
    exact div_le_div_of_nonneg_right g1 hP.le
  have m2 : 0 < |mag (bitsOf (rne (mag b * 10 ^ k) / 10 ^ k)) - mag b| := by
    rw [hd]
    exact div_pos (lt_of_lt_of_le one_pos g2) hP
  refine top_aux b1 d2 (mag_top hc) m1 m2 ?_
  by_cases hb : mag b < 2 ^ 53
  · exact .inr hb
  · refine .inl ?_
    obtain ⟨j, hj⟩ := mag_int (not_lt.1 hb)
    rw [hj, show (j : ℚ) * 10 ^ k = ((j * 10 ^ k : Nat) : ℚ) by push_cast; rfl, rne_nat]
    push_cast
    rw [mul_div_assoc, div_self hT.ne', mul_one]

/-- The integer a float is rounded to, in units of the last digit. -/
def dec (k : Nat) (neg : Bool) (n : Nat) : Int := if neg then -(rne (mag n * 10 ^ k) : Int) else rne (mag n * 10 ^ k)

theorem bits_zero {k n : Nat} : bitsOf (rne (mag n * 10 ^ k) / 10 ^ k) = 0 ↔ rne (mag n * 10 ^ k) = 0 := by
  have h0 : bitsOf 0 = 0 := bitsOf_eq (le_refl _) (.inl mag_zero.symm)
  constructor
  · intro h
    have := dec_bits (k := k) (n := n) (m := 0) (by rw [h, mag_zero, zero_mul, rne_zero, Nat.cast_zero, zero_div, h0])
    rwa [mag_zero, zero_mul, rne_zero] at this
  · intro h
    rw [h, Nat.cast_zero, zero_div, h0]

theorem ofMag_finite {neg : Bool} {r : ℚ} (h : bitsOf r < 2047 * 2 ^ 52) :
    ∃ w : Fin (2047 * 2 ^ 52), w.val = bitsOf r ∧ ofMag neg r = num neg w := by
  unfold ofMag
  rw [dif_pos h]
  exact ⟨⟨_, h⟩, rfl, rfl⟩

theorem key_of_round {x : Double} {neg : Bool} {w : Fin (2047 * 2 ^ 52)} (h : round 10 x = num neg w) :
    key x = num (if w.val = 0 then false else neg) w := by
  unfold key
  rw [h]
  dsimp only
  split <;> rfl

theorem key_num (neg : Bool) (b : Fin (2047 * 2 ^ 52)) : ∃ w : Fin (2047 * 2 ^ 52), w.val = bitsOf (rne (mag b * 10 ^ 10) / 10 ^ 10) ∧
    (w.val = 0 ↔ rne (mag b * 10 ^ 10) = 0) ∧ key (num neg b) = num (if w.val = 0 then false else neg) w := by
  obtain ⟨w, hw, e⟩ := ofMag_finite (neg := neg) (round_finite (k := 10) b)
  exact ⟨w, hw, by rw [hw]; exact bits_zero, key_of_round e⟩

theorem key_eq_iff (s t : Bool) (n m : Fin (2047 * 2 ^ 52)) : key (num s n) = key (num t m) ↔ dec 10 s n = dec 10 t m := by
  obtain ⟨w, hw, h0, e⟩ := key_num s n
  obtain ⟨w', hw', h0', e'⟩ := key_num t m
  rw [e, e']
  have hd := dec_bits (k := 10) (n := n) (m := m)
  rw [← hw, ← hw'] at hd
  have hd' : rne (mag n * 10 ^ 10) = rne (mag m * 10 ^ 10) → w = w' := by
    intro h
    apply Fin.ext
    rw [hw, hw', h]
  clear hw hw' e e'
  unfold dec
  generalize rne (mag n * 10 ^ 10) = a at *
  generalize rne (mag m * 10 ^ 10) = b at *
  constructor
  · intro h
    injection h with h1 h2
    have h3 := hd (congrArg Fin.val h2)
    subst h2 h3
    by_cases hz : a = 0
    · simp [hz]
    · rw [if_neg (fun h => hz (h0.1 h)), if_neg (fun h => hz (h0.1 h))] at h1
      rw [h1]
  · intro h
    have h3 : a = b := by split at h <;> split at h <;> omega
    have h4 := hd' h3
    subst h3 h4
    by_cases hz : a = 0
    · rw [if_pos (h0.2 hz), if_pos (h0.2 hz)]
    · have hst : s = t := by
        cases s <;> cases t <;> simp only [Bool.false_eq_true, if_false, if_true] at h <;> first | rfl | omega
      rw [hst]

theorem nearestEven_dec (k : Nat) (neg : Bool) (n : Nat) : NearestEven ((if neg then - mag n else mag n) * 10 ^ k) (dec k neg n) := by
  have hn : 0 ≤ mag n * 10 ^ k := mul_nonneg (mag_nonneg n) (by positivity)
  have h1 := rne_near hn
  have h2 := rne_tie (r := mag n * 10 ^ k)
  unfold dec
  cases neg with
  | false =>
    simp only [Bool.false_eq_true, if_false, NearestEven, Int.cast_natCast]
    exact ⟨h1, fun h => by have := h2 h hn; omega⟩
  | true =>
    have e : |((-(rne (mag n * 10 ^ k) : Int) : Int) : ℚ) - -mag n * 10 ^ k| = |(rne (mag n * 10 ^ k) : ℚ) - mag n * 10 ^ k| := by
      rw [← abs_neg]
      congr 1
      push_cast
      ring
    simp only [if_true, NearestEven]
    rw [e]
    exact ⟨h1, fun h => by have := h2 h hn; omega⟩

theorem nearestEven_unique {r : ℚ} {m m' : Int} (h : NearestEven r m) (h' : NearestEven r m') : m = m' := by
  by_contra hne
  have h1 : (1 : ℚ) ≤ |(m : ℚ) - m'| := by
    have : (1 : Int) ≤ |m - m'| := Int.one_le_abs (by omega)
    exact_mod_cast this
  have h2 := abs_sub_le (m : ℚ) r m'
  rw [abs_sub_comm r] at h2
  have a := h.1
  have b := h'.1
  have p1 := h.2 (by linarith)
  have p2 := h'.2 (by linarith)
  have e : |(m : ℚ) - m'| = 1 := by linarith
  have e4 : |m - m'| = 1 := by exact_mod_cast e
  rcases abs_eq (by norm_num : (0 : Int) ≤ 1) |>.1 e4 with h | h <;> omega

theorem key_iff {x y : Double} {r s : ℚ} (hx : x.val? = some r) (hy : y.val? = some s) : key x = key y ↔ SameDecimals 10 r s := by
  cases x with
  | num a n =>
    cases y with
    | num b m =>
      injection hx with hx
      injection hy with hy
      subst hx hy
      rw [key_eq_iff]
      constructor
      · intro h
        exact ⟨_, nearestEven_dec 10 a n, h ▸ nearestEven_dec 10 b m⟩
      · rintro ⟨d, h1, h2⟩
        rw [nearestEven_unique (nearestEven_dec 10 a n) h1, nearestEven_unique (nearestEven_dec 10 b m) h2]
    | inf _ => cases hy
    | nan => cases hy
  | inf _ => cases hx
  | nan => cases hx

/-- Rounding to `k` digits moves a float by a unit of the last digit at most, and gives equal floats to equal decimals. -/
theorem round_val {k : Nat} {x : Double} {r : ℚ} (hx : x.val? = some r) : ∃ s, (round k x).val? = some s ∧ |s - r| ≤ 1 / 10 ^ k := by
  cases x with
  | num neg b =>
    injection hx with hx
    subst hx
    obtain ⟨w, hw, e⟩ := ofMag_finite (neg := neg) (round_finite (k := k) b)
    rw [round, e]
    refine ⟨_, rfl, ?_⟩
    have hT : (0 : ℚ) < 10 ^ k := by positivity
    have b1 := bitsOf_nearest (div_nonneg (Nat.cast_nonneg (rne (mag b * 10 ^ k))) hT.le) b
    have d1 := dec_near k (mag_nonneg b)
    rw [← hw] at b1
    have h : |mag w - mag b| ≤ 1 / 10 ^ k := by
      rw [abs_sub_comm (mag b)] at b1
      have h3 := abs_sub_le (mag w) (rne (mag b * 10 ^ k) / 10 ^ k) (mag b)
      have e2 : (1 : ℚ) / 10 ^ k = 1 / 2 / 10 ^ k + 1 / 2 / 10 ^ k := by ring
      rw [e2]
      linarith
    cases neg with
    | false => simpa using h
    | true =>
      simp only [if_true]
      rw [← abs_neg, show -(-mag ↑w - -mag ↑b) = mag w - mag b by ring]
      exact h
  | inf _ => cases hx
  | nan => cases hx

theorem round_same {k : Nat} {x y : Double} {r s : ℚ} (hx : x.val? = some r) (hy : y.val? = some s) (h : SameDecimals k r s) :
    (round k x).val? = (round k y).val? := by
  cases x with
  | num a n =>
    cases y with
    | num b m =>
      injection hx with hx
      injection hy with hy
      subst hx hy
      obtain ⟨d, h1, h2⟩ := h
      have e := (nearestEven_unique (nearestEven_dec k a n) h1).trans (nearestEven_unique (nearestEven_dec k b m) h2).symm
      obtain ⟨w, hw, ew⟩ := ofMag_finite (neg := a) (round_finite (k := k) n)
      obtain ⟨u, hu, eu⟩ := ofMag_finite (neg := b) (round_finite (k := k) m)
      rw [round, round, ew, eu]
      unfold dec at e
      have h3 : rne (mag n * 10 ^ k) = rne (mag m * 10 ^ k) := by split at e <;> split at e <;> omega
      have h4 : w = u := Fin.ext (by rw [hw, hu, h3])
      subst h4
      by_cases hz : rne (mag n * 10 ^ k) = 0
      · have hw0 : w.val = 0 := by rw [hw]; exact bits_zero.2 hz
        simp only [val?, hw0, mag_zero, neg_zero, ite_self]
      · have hst : a = b := by
          rw [← h3] at e
          cases a <;> cases b <;> simp only [Bool.false_eq_true, if_false, if_true] at e <;> first | rfl | omega
        rw [hst]
    | inf _ => cases hy
    | nan => cases hy
  | inf _ => cases hx
  | nan => cases hx

theorem signed?_intStr (e : Int) : signed? (intStr e) = some e := by
  cases e with
  | ofNat n =>
    have h := natStr_allDec n
    have h0 := natStr_ne_nil n
    have hp := parse_natStr n
    rw [intStr]
    generalize natStr n = s at *
    cases s with
    | nil => exact absurd rfl h0
    | cons c t =>
      have hc := digit_facts (h c (by simp))
      unfold signed?
      split
      · rename_i heq; injection heq with h1 _; exact absurd h1 hc.2.1
      · rename_i heq; injection heq with h1 _; exact absurd h1 hc.2.2.1
      · rw [hp]; rfl
  | negSucc n =>
    simp only [intStr, signed?, parse_natStr, Option.map_some]
    rfl

theorem float_sci_text {neg : Bool} {i f k : Nat} {e : Int} (hk : 0 < k) (hf : f < 10 ^ k) :
    float ((if neg then ['-'] else []) ++ natStr i ++ ['.'] ++ natStrPad k f ++ ['e'] ++ intStr e) =
      .ok (ofMag neg ((i + f / 10 ^ k) * 10 ^ e)) := by
  have ha := natStr_allDec i
  have hb := natStrPad_allDec k f
  have hd := decimal?_exp ha hb (natStr_ne_nil i) (natStrPad_ne_nil k f) (parse_natStr i) (parse_pad k f) (signed?_intStr e)
  rw [natStrPad_length k f hk hf] at hd
  have hw : ∀ c ∈ natStr i ++ '.' :: natStrPad k f ++ 'e' :: intStr e, isWs c = false := by
    intro c hc
    rcases List.mem_append.1 hc with h | h
    · exact dot_ws ha hb c h
    · rcases List.mem_cons.1 h with rfl | h
      · decide
      · exact (intStr_facts e).2 c h
  obtain ⟨c, t, ec, -, -⟩ := take_one (natStr_ne_nil i)
  have e1 : (if neg then ['-'] else []) ++ natStr i ++ ['.'] ++ natStrPad k f ++ ['e'] ++ intStr e =
      sign neg ++ (natStr i ++ '.' :: natStrPad k f ++ 'e' :: intStr e) := by simp [sign]
  rw [e1]
  have hv : (((i * 10 ^ k + f : Nat) : ℚ) * 10 ^ (e - k)) = (i + f / 10 ^ k) * 10 ^ e := by
    have h10 : (10 : ℚ) ^ k ≠ 0 := by positivity
    rw [zpow_sub₀ (by norm_num), zpow_natCast]
    push_cast
    field_simp
  rw [hv] at hd
  rw [ec] at ha hd hw ⊢
  rw [List.cons_append, List.cons_append] at hd hw ⊢
  exact float_text (ha c (by simp)) hw hd

theorem nearest_sign {v w r : ℚ} (hw : 0 ≤ w) (hr : 0 ≤ r) (h : |v - r| ≤ |w - r|) : |v - r| ≤ |-w - r| := by
  refine h.trans ?_
  rw [abs_of_nonpos (by linarith : -w - r ≤ 0)]
  exact abs_le.2 ⟨by linarith, by linarith⟩

theorem ofMag_nearest {neg : Bool} {r : ℚ} (hr : 0 ≤ r) {x : Double} {v : ℚ} (h : ofMag neg r = x) (hv : x.val? = some v) {y : Double} {w : ℚ}
    (hw : y.val? = some w) : |v - (if neg then -1 else 1) * r| ≤ |w - (if neg then -1 else 1) * r| := by
  subst h
  unfold ofMag at hv
  split at hv
  · rename_i hb
    injection hv with hv
    subst hv
    cases y with
    | num t m =>
      injection hw with hw
      subst hw
      have h1 := bitsOf_nearest hr m
      have h2 := nearest_sign (mag_nonneg m) hr h1
      dsimp only
      generalize mag (bitsOf r) = a at *
      generalize mag m = b at *
      have flip : ∀ z : ℚ, |(-z) - -1 * r| = |z - r| := fun z => by rw [← abs_neg]; congr 1; ring
      have flip' : ∀ z : ℚ, |z - -1 * r| = |-z - r| := fun z => by rw [← abs_neg]; congr 1; ring
      cases neg <;> cases t <;> simp only [Bool.false_eq_true, if_false, if_true, one_mul]
      · exact h1
      · exact h2
      · rw [flip, flip']; exact h2
      · rw [flip, flip]; exact h1
    | inf _ => cases hw
    | nan => cases hw
  · cases hv

theorem same_near {k : Nat} {r s : ℚ} (h : SameDecimals k r s) : |r - s| ≤ 1 / 10 ^ k := by
  obtain ⟨m, h1, h2⟩ := h
  have hT : (0 : ℚ) < 10 ^ k := by positivity
  have h3 := abs_sub_le (r * 10 ^ k) m (s * 10 ^ k)
  rw [abs_sub_comm (r * 10 ^ k) m] at h3
  have a := h1.1
  have b := h2.1
  have e : |r - s| * 10 ^ k = |r * 10 ^ k - s * 10 ^ k| := by rw [← sub_mul, abs_mul, abs_of_pos hT]
  rw [le_div_iff₀ hT, e]
  linarith

end Verif.Double
