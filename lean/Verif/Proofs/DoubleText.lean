import Verif.Proofs.Double
import Verif.Spec.Text

/-! Texts of floats and their reading. -/

namespace Verif.Py

theorem parse_acc {s : Str} (hs : AllDec s) (h0 : s ≠ []) :
    ∃ v, ∀ (acc : Nat) (pd : Bool), parseDigits acc pd s = some (acc * 10 ^ s.length + v) := by
  induction s with
  | nil => exact absurd rfl h0
  | cons c cs ih =>
    obtain ⟨d, hd⟩ := hs c (by simp)
    by_cases hcs : cs = []
    · subst hcs
      exact ⟨d, fun acc pd => by simp [parseDigits, hd]⟩
    · obtain ⟨v, hv⟩ := ih (fun c hc => hs c (by simp [hc])) hcs
      refine ⟨d * 10 ^ cs.length + v, fun acc pd => ?_⟩
      simp only [parseDigits, hd, hv, List.length_cons, Option.some.injEq]
      ring

theorem parse_cut {a b : Str} {x y m : Nat} (ha : AllDec a) (hb : AllDec b) (a0 : a ≠ []) (b0 : b ≠ [])
    (hx : parseDigits 0 false a = some x) (hy : parseDigits 0 false b = some y) (hm : parseDigits 0 false (a ++ b) = some m) :
    x * 10 ^ b.length + y = m := by
  obtain ⟨v, h1, h2⟩ := parseDigits_append ha b 0 false a0
  obtain ⟨w, hw⟩ := parse_acc hb b0
  rw [hx] at h2
  injection h2 with h2
  subst h2
  rw [h1, hw] at hm
  injection hm with hm
  rw [hw] at hy
  injection hy with hy
  omega

theorem cutAt_some {p : Char → Bool} {a b : Str} {c : Char} (ha : ∀ x ∈ a, p x = false) (hc : p c = true) :
    cutAt p (a ++ c :: b) = (a, some b) := by
  unfold cutAt
  rw [List.takeWhile_append_of_pos (by simpa using ha), List.dropWhile_append_of_pos (by simpa using ha)]
  simp [List.takeWhile, List.dropWhile, hc]

theorem cutAt_none {p : Char → Bool} {a : Str} (ha : ∀ x ∈ a, p x = false) : cutAt p a = (a, none) := by
  unfold cutAt
  have h1 := List.takeWhile_append_of_pos (p := fun c => !p c) (l₁ := a) (l₂ := []) (by simpa using ha)
  have h2 := List.dropWhile_append_of_pos (p := fun c => !p c) (l₁ := a) (l₂ := []) (by simpa using ha)
  simp only [List.append_nil, List.takeWhile_nil, List.dropWhile_nil] at h1 h2
  rw [h1, h2]
  rfl

theorem dec_ne {c d : Char} (h : ∃ n, digitVal? c = some n) (hd : digitVal? d = none) : c ≠ d := by
  rintro rfl
  obtain ⟨n, hn⟩ := h
  rw [hd] at hn
  cases hn

theorem digits?_some {s : Str} {v : Nat} (h0 : s ≠ []) (h : parseDigits 0 false s = some v) : digits? s = some v := by
  rw [digits?, if_neg h0, h]

theorem mantissa?_text {a b : Str} {x y : Nat} (ha : AllDec a) (hb : AllDec b) (a0 : a ≠ []) (b0 : b ≠ [])
    (hx : parseDigits 0 false a = some x) (hy : parseDigits 0 false b = some y) :
    mantissa? (a ++ '.' :: b) = some (x * 10 ^ b.length + y, b.length) := by
  have e : cutAt (· == '.') (a ++ '.' :: b) = (a, some b) :=
    cutAt_some (fun c hc => by simpa using dec_ne (ha c hc) (by decide)) (by simp)
  have hf : (b.filter isDecimal).length = b.length := by
    rw [List.filter_eq_self.2]
    intro c hc
    obtain ⟨d, hd⟩ := hb c hc
    simp [isDecimal, hd]
  unfold mantissa?
  simp only [e, Option.getD_some]
  rw [if_neg (by simp [a0]), digits?_some a0 hx, digits?_some b0 hy]
  simp [hf]

/-- The characters of a mantissa are not those of an exponent. -/
theorem not_exp {a b : Str} (ha : AllDec a) (hb : AllDec b) : ∀ c ∈ a ++ '.' :: b, (c == 'e' || c == 'E') = false := by
  intro c hc
  simp only [List.mem_append, List.mem_cons] at hc
  rcases hc with h | rfl | h
  · simp [dec_ne (ha c h) (d := 'e') (by decide), dec_ne (ha c h) (d := 'E') (by decide)]
  · decide
  · simp [dec_ne (hb c h) (d := 'e') (by decide), dec_ne (hb c h) (d := 'E') (by decide)]

theorem decimal?_plain {a b : Str} {x y : Nat} (ha : AllDec a) (hb : AllDec b) (a0 : a ≠ []) (b0 : b ≠ [])
    (hx : parseDigits 0 false a = some x) (hy : parseDigits 0 false b = some y) :
    decimal? (a ++ '.' :: b) = some (((x * 10 ^ b.length + y : Nat) : ℚ) * 10 ^ ((0 : Int) - b.length)) := by
  unfold decimal?
  simp only [cutAt_none (not_exp ha hb), mantissa?_text ha hb a0 b0 hx hy]
  rfl

theorem decimal?_exp {a b t : Str} {x y : Nat} {e : Int} (ha : AllDec a) (hb : AllDec b) (a0 : a ≠ []) (b0 : b ≠ [])
    (hx : parseDigits 0 false a = some x) (hy : parseDigits 0 false b = some y) (ht : signed? t = some e) :
    decimal? (a ++ '.' :: b ++ 'e' :: t) = some (((x * 10 ^ b.length + y : Nat) : ℚ) * 10 ^ (e - b.length)) := by
  unfold decimal?
  simp only [cutAt_some (not_exp ha hb) (show ('e' == 'e' || 'e' == 'E') = true by decide), mantissa?_text ha hb a0 b0 hx hy, ht]
  rfl

/-- A text of a number without white space, with or without a sign. -/
theorem float_text {neg : Bool} {t : Str} {c : Char} {r : ℚ} (hc : ∃ n, digitVal? c = some n) (hw : ∀ x ∈ c :: t, isWs x = false)
    (h : decimal? (c :: t) = some r) : float (Double.sign neg ++ c :: t) = .ok (Double.ofMag neg r) := by
  have h1 : ∀ x ∈ Double.sign neg ++ c :: t, isWs x = false := by
    intro x hx
    rcases List.mem_append.1 hx with h | h
    · cases neg
      · simp [Double.sign] at h
      · simp [Double.sign] at h; subst h; decide
    · exact hw x h
  have hl : ∀ d : Char, (∃ n, digitVal? d = some n) → d.toLower = d := by
    rintro d ⟨n, hn⟩
    unfold digitVal? at hn
    split at hn
    · rename_i hd
      unfold Char.toLower
      rw [dif_neg]
      intro hh
      have : 65 ≤ d.toNat := hh.1
      omega
    · cases hn
  have hci : c ≠ 'i' := dec_ne hc (by decide)
  have hcn : c ≠ 'n' := dec_ne hc (by decide)
  have e1 : (c :: t).map Char.toLower = c :: t.map Char.toLower := by rw [List.map_cons, hl c hc]
  have i1 : ¬ ((c :: t).map Char.toLower = "inf".toList ∨ (c :: t).map Char.toLower = "infinity".toList) := by
    rw [e1]
    rintro (h | h) <;> · injection h with h _; exact hci h
  have i2 : ¬ (c :: t).map Char.toLower = "nan".toList := by
    rw [e1]
    intro h
    injection h with h _
    exact hcn h
  have hu : unsign (Double.sign neg ++ c :: t) = (neg, c :: t) := by
    cases neg with
    | true => rfl
    | false =>
      have hp := digit_facts hc
      show unsign (c :: t) = _
      unfold unsign
      split
      · rename_i h'; injection h' with h' _; exact absurd h' hp.2.2.1
      · rename_i h'; injection h' with h' _; exact absurd h' hp.2.1
      · rfl
  unfold float
  simp only [strip_of_noWs h1, hu, if_neg i1, if_neg i2, h]

theorem parse_pad (w n : Nat) : parseDigits 0 false (natStrPad w n) = some n := by
  unfold natStrPad
  rw [parseDigits_zeros _ _ (natStr_ne_nil n) (natStr_allDec n)]
  exact parse_natStr n

theorem dot_ws {a b : Str} (ha : AllDec a) (hb : AllDec b) : ∀ c ∈ a ++ '.' :: b, isWs c = false := by
  intro c hc
  simp only [List.mem_append, List.mem_cons] at hc
  rcases hc with h | rfl | h
  · exact (digit_facts (ha c h)).1
  · decide
  · exact (digit_facts (hb c h)).1

end Verif.Py

namespace Verif.Double
open Py

/-- The value of digits and exponent. -/
def sciVal (k : Nat) (p : Nat × Int) : ℚ := p.1 * 10 ^ (p.2 - k)

theorem sci_step {k : Nat} {d : Int} {r : ℚ} (h1 : (10 : ℚ) ^ d ≤ r) (h2 : r < 10 ^ (d + 1)) :
    rne (r / 10 ^ (d - k)) ≤ 10 ^ (k + 1) ∧ |(rne (r / 10 ^ (d - k)) : ℚ) * 10 ^ (d - k) - r| * (2 * 10 ^ k) ≤ r := by
  have e : (10 : ℚ) ^ d = 10 ^ (d - k) * 10 ^ k := by
    rw [← zpow_natCast, ← zpow_add₀ (by norm_num), sub_add_cancel]
  have e2 : (10 : ℚ) ^ (d + 1) = 10 ^ (d - k) * 10 ^ (k + 1) := by
    rw [← zpow_natCast, ← zpow_add₀ (by norm_num)]
    congr 1
    push_cast
    ring
  have hp : (0 : ℚ) < 10 ^ (d - k) := zpow_pos (by norm_num) _
  rw [e] at h1
  rw [e2] at h2
  generalize (10 : ℚ) ^ (d - k) = P at *
  have hk : (0 : ℚ) < 10 ^ k := by positivity
  have hr : 0 ≤ r := le_trans (by positivity) h1
  have hx : 0 ≤ r / P := div_nonneg hr hp.le
  constructor
  · have h3 : r / P < ((10 ^ (k + 1) : Nat) : ℚ) := by
      rw [div_lt_iff₀ hp, mul_comm]
      exact_mod_cast h2
    have h4 : ⌊r / P⌋₊ < 10 ^ (k + 1) := (Nat.floor_lt hx).2 h3
    unfold rne
    dsimp only
    split_ifs <;> omega
  · have h3 := rne_near hx
    have h4 : |(rne (r / P) : ℚ) * P - r| = |(rne (r / P) : ℚ) - r / P| * P := by
      rw [← abs_of_pos hp, ← abs_mul, abs_of_pos hp, sub_mul, div_mul_cancel₀ _ hp.ne']
    rw [h4]
    have h5 : |(rne (r / P) : ℚ) - r / P| * P ≤ 1 / 2 * P := mul_le_mul_of_nonneg_right h3 hp.le
    have h6 : |(rne (r / P) : ℚ) - r / P| * P * (2 * 10 ^ k) ≤ 1 / 2 * P * (2 * 10 ^ k) :=
      mul_le_mul_of_nonneg_right h5 (by positivity)
    linarith

/-- The digits differ from the number by half a unit of the last of them. -/
theorem sciDigits_spec {r : ℚ} (hr : 0 ≤ r) (k : Nat) : (sciDigits k r).1 < 10 ^ (k + 1) ∧
    |sciVal k (sciDigits k r) - r| * (2 * 10 ^ k) ≤ r := by
  unfold sciDigits
  by_cases h0 : r = 0
  · subst h0
    simp [sciVal]
  · rw [if_neg h0]
    have hpos : 0 < r := lt_of_le_of_ne hr (fun h => h0 h.symm)
    have l1 : (10 : ℚ) ^ Int.log 10 r ≤ r := by simpa using Int.zpow_log_le_self (b := 10) (by norm_num) hpos
    have l2 : r < (10 : ℚ) ^ (Int.log 10 r + 1) := by simpa using Int.lt_zpow_succ_log_self (b := 10) (by norm_num) r
    have hs := sci_step (k := k) l1 l2
    dsimp only
    generalize Int.log 10 r = d at *
    split
    · rename_i hm
      refine ⟨Nat.pow_lt_pow_right (by norm_num) (by omega), ?_⟩
      have e : sciVal k (10 ^ k, d + 1) = (rne (r / 10 ^ (d - k)) : ℚ) * 10 ^ (d - k) := by
        rw [hm, sciVal]
        push_cast
        rw [show d + 1 - (k : Int) = 1 + (d - k) by ring, zpow_add₀ (by norm_num), pow_succ, zpow_one]
        ring
      rw [e]
      exact hs.2
    · rename_i hm
      exact ⟨by have := hs.1; omega, hs.2⟩

theorem signed?_exp (e : Int) : signed? ((if e < 0 then ['-'] else ['+']) ++ natStrPad 2 e.natAbs) = some e := by
  split
  · rename_i h
    simp only [List.cons_append, List.nil_append, signed?, parse_pad, Option.map_some, Option.some.injEq, Int.ofNat_eq_natCast]
    omega
  · rename_i h
    simp only [List.cons_append, List.nil_append, signed?, parse_pad, Option.map_some, Option.some.injEq, Int.ofNat_eq_natCast]
    omega

theorem take_one {s : Str} (h : s ≠ []) : ∃ c t, s = c :: t ∧ s.take 1 = [c] ∧ s.drop 1 = t := by
  cases s with
  | nil => exact absurd rfl h
  | cons c t => exact ⟨c, t, rfl, rfl, rfl⟩

theorem sciText_shape {k : Nat} (hk : 0 < k) {p : Nat × Int} (hp : p.1 < 10 ^ (k + 1)) : ∃ c t, sciText k p = c :: t ∧
    (∃ n, digitVal? c = some n) ∧ (∀ x ∈ c :: t, isWs x = false) ∧ decimal? (c :: t) = some (sciVal k p) := by
  have hlen := natStrPad_length (k + 1) p.1 (by omega) hp
  have hdec := natStrPad_allDec (k + 1) p.1
  have hpar := parse_pad (k + 1) p.1
  unfold sciText
  dsimp only
  obtain ⟨c, t, e1, e2, e3⟩ := take_one (natStrPad_ne_nil (k + 1) p.1)
  rw [e2, e3]
  clear e2 e3
  rw [e1] at hlen hdec hpar
  have hc : AllDec [c] := fun x hx => hdec x (by simp at hx; simp [hx])
  have ht : AllDec t := fun x hx => hdec x (by simp [hx])
  have hl : t.length = k := by simpa using hlen
  have t0 : t ≠ [] := by
    rintro rfl
    simp at hl
    omega
  obtain ⟨x, hx⟩ := parseDigits_some hc (by simp) 0 false
  obtain ⟨y, hy⟩ := parseDigits_some ht t0 0 false
  have hxy := parse_cut hc ht (by simp) t0 hx hy hpar
  have hd := decimal?_exp hc ht (by simp) t0 hx hy (signed?_exp p.2)
  rw [hxy, hl] at hd
  refine ⟨c, '.' :: (t ++ 'e' :: ((if p.2 < 0 then ['-'] else ['+']) ++ natStrPad 2 p.2.natAbs)), by simp, hc c (by simp), ?_, ?_⟩
  · intro x hx
    have h1 := dot_ws hc ht x
    have h2 : ∀ x ∈ natStrPad 2 p.2.natAbs, isWs x = false := fun x hx => (digit_facts (natStrPad_allDec _ _ x hx)).1
    simp only [List.nil_append, List.cons_append, List.mem_cons, List.mem_append] at hx h1
    rcases hx with h | h | h | h | h | h
    · exact h1 (.inl h)
    · exact h1 (.inr (.inl h))
    · exact h1 (.inr (.inr h))
    · subst h; decide
    · split at h <;> · simp at h; subst h; decide
    · exact h2 x h
  · rw [show sciVal k p = (p.1 : ℚ) * 10 ^ (p.2 - k) from rfl, ← hd]
    congr 1

theorem sciVal_nonneg (k : Nat) (p : Nat × Int) : 0 ≤ sciVal k p := mul_nonneg (by positivity) (zpow_nonneg (by norm_num) _)

/-- Reading the text of a finite number gives the float nearest to its digits. -/
theorem float_sci {k : Nat} (hk : 0 < k) {neg : Bool} {r : ℚ} (hr : 0 ≤ r) :
    float (sign neg ++ sciText k (sciDigits k r)) = .ok (ofMag neg (sciVal k (sciDigits k r))) := by
  obtain ⟨c, t, e, hc, hw, hd⟩ := sciText_shape hk (sciDigits_spec hr k).1
  rw [e]
  exact float_text hc hw hd

theorem close_enough {k : Nat} (hk : 16 ≤ k) {v r : ℚ} (h : |v - r| * (2 * 10 ^ k) ≤ r) : v = r ∨ |v - r| * 2 ^ 54 < r := by
  have h10 : (10 : ℚ) ^ 16 ≤ 10 ^ k := pow_le_pow_right₀ (by norm_num) hk
  have h0 := abs_nonneg (v - r)
  have h1 : |v - r| * (2 * 10 ^ 16) ≤ r := le_trans (mul_le_mul_of_nonneg_left (by linarith) h0) h
  rcases eq_or_lt_of_le h0 with hz | hz
  · exact .inl (sub_eq_zero.1 (abs_eq_zero.1 hz.symm))
  · refine .inr ?_
    have : |v - r| * 2 ^ 54 < |v - r| * (2 * 10 ^ 16) := mul_lt_mul_of_pos_left (by norm_num) hz
    linarith

theorem float_inf (neg : Bool) : float (sign neg ++ "inf".toList) = .ok (inf neg) := by cases neg <;> decide

theorem float_nan : float "nan".toList = .ok nan := by decide

theorem roundtrip {k : Nat} (hk : 16 ≤ k) (x : Double) : float (sci k x) = .ok x := by
  cases x with
  | num neg b =>
    rw [sci, float_sci (by omega) (mag_nonneg b)]
    congr 1
    exact ofMag_eq (sciVal_nonneg _ _) (close_enough hk (sciDigits_spec (mag_nonneg b) k).2)
  | inf neg => exact float_inf neg
  | nan => exact float_nan

/-- Reading a text with `k` digits behind the point is rounding to `k` digits. -/
theorem float_fixed {k : Nat} (hk : 0 < k) (x : Double) : float (fixed k x) = .ok (round k x) := by
  cases x with
  | num neg b =>
    rw [fixed, round]
    generalize rne (mag b * 10 ^ k) = m
    have h2 : m % 10 ^ k < 10 ^ k := Nat.mod_lt _ (by positivity)
    have ha := natStr_allDec (m / 10 ^ k)
    have hb := natStrPad_allDec k (m % 10 ^ k)
    have a0 := natStr_ne_nil (m / 10 ^ k)
    have hl := natStrPad_length k _ hk h2
    have hd := decimal?_plain ha hb a0 (natStrPad_ne_nil _ _) (parse_natStr _) (parse_pad _ _)
    have hw := dot_ws ha hb
    rw [hl, Nat.div_add_mod' m (10 ^ k)] at hd
    rw [List.append_assoc, List.append_assoc, List.singleton_append]
    obtain ⟨c, t, e, -, -⟩ := take_one a0
    rw [e] at ha hd hw ⊢
    rw [List.cons_append] at hd hw ⊢
    rw [float_text (ha c (by simp)) hw hd]
    congr 2
    rw [zero_sub, zpow_neg, zpow_natCast, div_eq_mul_inv]
  | inf neg => exact float_inf neg
  | nan => exact float_nan

theorem sci_word {k : Nat} (hk : 0 < k) (x : Double) : sci k x ≠ [] ∧ ∀ c ∈ sci k x, isWs c = false := by
  cases x with
  | num neg b =>
    obtain ⟨c, t, e, -, hw, -⟩ := sciText_shape hk (sciDigits_spec (mag_nonneg b) k).1
    rw [sci, e]
    refine ⟨by simp, fun x hx => ?_⟩
    rcases List.mem_append.1 hx with h | h
    · cases neg
      · simp [sign] at h
      · simp [sign] at h; subst h; decide
    · exact hw x h
  | inf neg => simp only [sci]; revert neg; decide
  | nan => simp only [sci]; decide

theorem fixed_word (k : Nat) (x : Double) : fixed k x ≠ [] ∧ ∀ c ∈ fixed k x, isWs c = false := by
  cases x with
  | num neg b =>
    rw [fixed]
    generalize rne (mag b * 10 ^ k) = m
    refine ⟨by simp, fun x hx => ?_⟩
    rw [List.append_assoc, List.append_assoc, List.singleton_append] at hx
    rcases List.mem_append.1 hx with h | h
    · cases neg
      · simp [sign] at h
      · simp [sign] at h; subst h; decide
    · exact dot_ws (natStr_allDec _) (natStrPad_allDec _ _) x h
  | inf neg => simp only [fixed]; revert neg; decide
  | nan => simp only [fixed]; decide

theorem floatCodec_lawful : floatCodec.Lawful :=
  ⟨fun x => roundtrip (by omega) x, fun x => (sci_word (by omega) x).1, fun x => (sci_word (by omega) x).2⟩

end Verif.Double

namespace Verif.Double

theorem round_num {k : Nat} {neg : Bool} {b : Fin (2047 * 2 ^ 52)} : round k (num neg b) = ofMag neg (rne (mag b * 10 ^ k) / 10 ^ k) := rfl

theorem dec_near (k : Nat) {a : ℚ} (ha : 0 ≤ a) : |(rne (a * 10 ^ k) : ℚ) / 10 ^ k - a| ≤ 1 / 2 / 10 ^ k := by
  have hk : (0 : ℚ) < 10 ^ k := by positivity
  have h := rne_near (mul_nonneg ha hk.le)
  have e : (rne (a * 10 ^ k) : ℚ) / 10 ^ k - a = (rne (a * 10 ^ k) - a * 10 ^ k) / 10 ^ k := by
    rw [sub_div, mul_div_assoc, div_self hk.ne', mul_one]
  rw [e, abs_div, abs_of_pos hk]
  exact div_le_div_of_nonneg_right h hk.le

/-- A tie is rounded to an even number. -/
theorem rne_tie {r : ℚ} (h : |(rne r : ℚ) - r| = 1 / 2) (hr : 0 ≤ r) : rne r % 2 = 0 := by
  have h1 := Nat.floor_le hr
  have h2 := Nat.lt_floor_add_one r
  revert h
  unfold rne
  dsimp only
  split_ifs with a b c
  · intro h
    rw [abs_of_nonpos (by linarith)] at h
    linarith
  · intro h
    push_cast at h
    rw [abs_of_nonneg (by linarith)] at h
    linarith
  · intro _; exact c
  · intro _; omega

end Verif.Double
