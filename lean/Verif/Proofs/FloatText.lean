import Verif.Proofs.DoubleText
import Verif.Spec.FloatText

/-! The texts which `float` accepts. -/

namespace Verif.Py

theorem digit_iff {c : Char} {d : Nat} : Digit c d ↔ digitVal? c = some d := by
  constructor
  · rintro ⟨h, rfl⟩
    exact digitVal?_digitCh h
  · intro h
    unfold digitVal? at h
    split at h
    · rename_i hc
      injection h with h
      refine ⟨by omega, ?_⟩
      rw [show 48 + d = c.toNat by omega, Char.ofNat_toNat]
    · cases h

theorem digits_parse {s : Str} {v k : Nat} (h : Digits s v k) : ∀ (acc : Nat) (pd : Bool) (t : Str),
    parseDigits acc pd (s ++ t) = parseDigits (acc * 10 ^ k + v) true t := by
  induction h with
  | one hd =>
    intro acc pd t
    simp [parseDigits, digit_iff.1 hd]
  | more _ hd ih =>
    intro acc pd t
    rw [List.append_assoc, ih]
    simp only [List.cons_append, List.nil_append, parseDigits, digit_iff.1 hd]
    congr 1
    ring
  | skip _ hd ih =>
    intro acc pd t
    rw [List.append_assoc, ih]
    have hu : digitVal? '_' = none := by decide
    simp only [List.cons_append, List.nil_append, parseDigits, hu, digit_iff.1 hd]
    rw [if_pos ⟨trivial, trivial⟩]
    congr 1
    ring

theorem digits_parse0 {s : Str} {v k : Nat} (h : Digits s v k) : parseDigits 0 false s = some v := by
  have := digits_parse h 0 false []
  simpa [parseDigits] using this

theorem parse_digits_aux (s : Str) : ∀ (acc : Nat) (pd : Bool) (v : Nat), parseDigits acc pd s = some v →
    ∀ pre k, (pd = true → Digits pre acc k) → (pd = false → (pre = [] ∧ acc = 0) ∨ ∃ p, pre = p ++ ['_'] ∧ Digits p acc k) →
    ∃ k', Digits (pre ++ s) v k' := by
  induction s with
  | nil =>
    intro acc pd v h pre k h1 h2
    cases pd with
    | true =>
      simp only [parseDigits, if_true, Option.some.injEq] at h
      subst h
      exact ⟨k, by simpa using h1 rfl⟩
    | false => simp [parseDigits] at h
  | cons c cs ih =>
    intro acc pd v h pre k h1 h2
    rw [parseDigits] at h
    cases hd : digitVal? c with
    | some d =>
      rw [hd] at h
      dsimp only at h
      have hd := digit_iff.2 hd
      have hs : pre ++ c :: cs = (pre ++ [c]) ++ cs := by simp
      rw [hs, Nat.mul_comm] at *
      cases pd with
      | true => exact ih _ _ _ h _ (k + 1) (fun _ => .more (h1 rfl) hd) (fun h => by cases h)
      | false =>
        rcases h2 rfl with ⟨rfl, rfl⟩ | ⟨p, rfl, hp⟩
        · refine ih _ _ _ h _ 1 (fun _ => ?_) (fun h => by cases h)
          simpa using Digits.one hd
        · refine ih _ _ _ h _ (k + 1) (fun _ => ?_) (fun h => by cases h)
          simpa using Digits.skip hp hd
    | none =>
      rw [hd] at h
      dsimp only at h
      split at h
      · rename_i hc
        obtain ⟨rfl, rfl⟩ := hc
        have hs : pre ++ '_' :: cs = (pre ++ ['_']) ++ cs := by simp
        rw [hs]
        exact ih _ _ _ h _ k (fun h => by cases h) (fun _ => .inr ⟨pre, rfl, h1 rfl⟩)
      · cases h

theorem digits_of_parse {s : Str} {v : Nat} (h : parseDigits 0 false s = some v) : ∃ k, Digits s v k := by
  simpa using parse_digits_aux s 0 false v h [] 0 (fun h => by cases h) (fun _ => .inl ⟨rfl, rfl⟩)

theorem digits_ne {s : Str} {v k : Nat} (h : Digits s v k) : s ≠ [] := by cases h <;> simp

theorem digits_char {s : Str} {v k : Nat} (h : Digits s v k) : ∀ c ∈ s, c = '_' ∨ ∃ d, digitVal? c = some d := by
  induction h with
  | one hd => intro c hc; simp at hc; subst hc; exact .inr ⟨_, digit_iff.1 hd⟩
  | more _ hd ih =>
    intro c hc
    rcases List.mem_append.1 hc with h | h
    · exact ih c h
    · simp at h; subst h; exact .inr ⟨_, digit_iff.1 hd⟩
  | skip _ hd ih =>
    intro c hc
    rcases List.mem_append.1 hc with h | h
    · exact ih c h
    · simp at h
      rcases h with rfl | rfl
      · exact .inl rfl
      · exact .inr ⟨_, digit_iff.1 hd⟩

theorem digits_count {s : Str} {v k : Nat} (h : Digits s v k) : (s.filter isDecimal).length = k := by
  induction h with
  | one hd => simp [isDecimal, digit_iff.1 hd]
  | more _ hd ih => simp [isDecimal, digit_iff.1 hd, ih]
  | skip _ hd ih =>
    rw [List.filter_append, List.length_append, ih]
    simp [isDecimal, digit_iff.1 hd, show digitVal? '_' = none by decide]

/-- The first character is a digit. -/
theorem digits_head {s : Str} {v k : Nat} (h : Digits s v k) : ∃ c t, s = c :: t ∧ ∃ d, digitVal? c = some d := by
  induction h with
  | one hd => exact ⟨_, [], rfl, _, digit_iff.1 hd⟩
  | more _ _ ih => obtain ⟨c, t, rfl, hc⟩ := ih; exact ⟨c, _, rfl, hc⟩
  | skip _ _ ih => obtain ⟨c, t, rfl, hc⟩ := ih; exact ⟨c, _, rfl, hc⟩

theorem digits_avoid {s : Str} {v k : Nat} (h : Digits s v k) {x : Char} (h1 : x ≠ '_') (h2 : digitVal? x = none) : ∀ c ∈ s, c ≠ x := by
  intro c hc
  rcases digits_char h c hc with rfl | hd
  · exact h1.symm
  · exact dec_ne hd h2

theorem digits?_of {s : Str} {v k : Nat} (h : Digits s v k) : digits? s = some v := digits?_some (digits_ne h) (digits_parse0 h)

theorem cutAt_join {p : Char → Bool} {s : Str} : (∃ b c, p c = true ∧ (cutAt p s).2 = some b ∧ s = (cutAt p s).1 ++ c :: b) ∨
    ((cutAt p s).2 = none ∧ s = (cutAt p s).1) := by
  have hs := List.takeWhile_append_dropWhile (p := fun c => !p c) (l := s)
  unfold cutAt
  cases h : s.dropWhile (fun c => !p c) with
  | nil =>
    rw [h] at hs
    exact .inr ⟨rfl, by simpa using hs.symm⟩
  | cons c b =>
    rw [h] at hs
    refine .inl ⟨b, c, ?_, rfl, hs.symm⟩
    have := List.head?_dropWhile_not (fun c => !p c) s
    rw [h] at this
    simpa using this

theorem mantissa_of {a : Str} {m : ℚ} (h : Mantissa a m) : ∃ x k : Nat, mantissa? a = some (x, k) ∧ m = x * 10 ^ (-(k : Int)) := by
  have hdot : digitVal? '.' = none := by decide
  have av : ∀ {s v k}, Digits s v k → ∀ c ∈ s, (c == '.') = false := fun hs c hc => by
    simpa using digits_avoid hs (x := '.') (by decide) hdot c hc
  have ez : ∀ k : Nat, (10 : ℚ) ^ (-(k : Int)) = 1 / 10 ^ k := fun k => by rw [zpow_neg, zpow_natCast, one_div]
  cases h with
  | @whole a x n ha =>
    refine ⟨x, 0, ?_, by simp⟩
    unfold mantissa?
    simp only [cutAt_none (av ha)]
    rw [if_neg (by simp [digits_ne ha]), digits?_of ha]
    simp [digits?]
  | @dot a x n ha =>
    refine ⟨x, 0, ?_, by simp⟩
    unfold mantissa?
    simp only [cutAt_some (p := (· == '.')) (b := []) (c := '.') (av ha) (by simp)]
    rw [if_neg (by simp [digits_ne ha]), digits?_of ha]
    simp [digits?]
  | @part b y k hb =>
    refine ⟨y, k, ?_, by rw [ez]; ring⟩
    unfold mantissa?
    have := cutAt_some (p := (· == '.')) (a := []) (b := b) (c := '.') (by simp) (by simp)
    rw [List.nil_append] at this
    simp only [this, Option.getD_some]
    rw [if_neg (by simp [digits_ne hb]), digits?_of hb, digits_count hb]
    simp [digits?]
  | @both a b x n y k ha hb =>
    refine ⟨x * 10 ^ k + y, k, ?_, by rw [ez]; push_cast; rw [add_mul, mul_one_div, mul_one_div, mul_div_cancel_right₀ _ (by positivity)]⟩
    unfold mantissa?
    simp only [cutAt_some (p := (· == '.')) (b := b) (c := '.') (av ha) (by simp), Option.getD_some]
    rw [if_neg (by simp [digits_ne ha]), digits?_of ha, digits?_of hb, digits_count hb]
    rfl

theorem digits?_inv {s : Str} {v : Nat} (h : digits? s = some v) : (s = [] ∧ v = 0) ∨ ∃ k, Digits s v k := by
  unfold digits? at h
  split at h
  · rename_i h0; injection h with h; exact .inl ⟨h0, h.symm⟩
  · exact .inr (digits_of_parse h)

theorem of_mantissa {a : Str} {x k : Nat} (h : mantissa? a = some (x, k)) : Mantissa a (x * 10 ^ (-(k : Int))) := by
  have ez : ∀ k : Nat, (10 : ℚ) ^ (-(k : Int)) = 1 / 10 ^ k := fun k => by rw [zpow_neg, zpow_natCast, one_div]
  unfold mantissa? at h
  dsimp only at h
  split at h
  · cases h
  rename_i hne
  rcases cutAt_join (p := (· == '.')) (s := a) with ⟨b, c, hc, e2, e1⟩ | ⟨e2, e1⟩
  · obtain rfl : c = '.' := by simpa using hc
    rw [e2] at h hne
    generalize (cutAt (· == '.') a).1 = u at *
    simp only [Option.getD_some] at h hne
    obtain ⟨v, hv, h⟩ := Option.bind_eq_some_iff.1 h
    obtain ⟨y, hy, h⟩ := Option.bind_eq_some_iff.1 h
    injection h with h
    injection h with h1 h2
    rw [e1]
    rcases digits?_inv hv with ⟨rfl, rfl⟩ | ⟨n, hu⟩ <;> rcases digits?_inv hy with ⟨rfl, rfl⟩ | ⟨j, hb⟩
    · exact absurd ⟨rfl, rfl⟩ hne
    · rw [digits_count hb] at h1 h2
      subst h1 h2
      have := Mantissa.part hb
      rw [ez]
      push_cast
      rw [zero_mul, zero_add, mul_one_div]
      exact this
    · simp at h1 h2
      subst h1 h2
      simpa using Mantissa.dot hu
    · rw [digits_count hb] at h1 h2
      subst h1 h2
      have := Mantissa.both hu hb
      rw [ez]
      push_cast
      rwa [add_mul, mul_one_div, mul_one_div, mul_div_cancel_right₀ _ (by positivity)]
  · rw [e2, ← e1] at h hne
    simp only [Option.getD_none, and_true] at h hne
    obtain ⟨v, hv, h⟩ := Option.bind_eq_some_iff.1 h
    obtain ⟨y, hy, h⟩ := Option.bind_eq_some_iff.1 h
    injection h with h
    injection h with h1 h2
    simp [digits?] at hy
    simp at h1 h2
    subst h1 h2 hy
    rcases digits?_inv hv with ⟨rfl, rfl⟩ | ⟨n, hu⟩
    · exact absurd rfl hne
    · simpa using Mantissa.whole hu

theorem signed?_of_digits {s : Str} {v k : Nat} (h : Digits s v k) : signed? s = some v := by
  obtain ⟨c, t, rfl, hc⟩ := digits_head h
  have hp := digit_facts hc
  unfold signed?
  split
  · rename_i h'; injection h' with h' _; exact absurd h' hp.2.1
  · rename_i h'; injection h' with h' _; exact absurd h' hp.2.2.1
  · rw [digits_parse0 h]; rfl

theorem mantissa_avoid {a : Str} {m : ℚ} (h : Mantissa a m) {x : Char} (h1 : x ≠ '_') (h2 : digitVal? x = none) (h3 : x ≠ '.') :
    ∀ c ∈ a, c ≠ x := by
  intro c hc
  cases h with
  | whole ha => exact digits_avoid ha h1 h2 c hc
  | dot ha =>
    rcases List.mem_append.1 hc with h | h
    · exact digits_avoid ha h1 h2 c h
    · simp at h; subst h; exact h3.symm
  | part hb =>
    rcases List.mem_cons.1 hc with rfl | h
    · exact h3.symm
    · exact digits_avoid hb h1 h2 c h
  | both ha hb =>
    rcases List.mem_append.1 hc with h | h
    · exact digits_avoid ha h1 h2 c h
    · rcases List.mem_cons.1 h with rfl | h
      · exact h3.symm
      · exact digits_avoid hb h1 h2 c h

theorem decimal_of {a b : Str} {m : ℚ} {e : Int} (ha : Mantissa a m) (hb : Exponent b e) : decimal? (a ++ b) = some (m * 10 ^ e) := by
  obtain ⟨x, k, hm, rfl⟩ := mantissa_of ha
  have hno : ∀ c ∈ a, (c == 'e' || c == 'E') = false := by
    intro c hc
    have h1 := mantissa_avoid ha (x := 'e') (by decide) (by decide) (by decide) c hc
    have h2 := mantissa_avoid ha (x := 'E') (by decide) (by decide) (by decide) c hc
    simp [h1, h2]
  have ev : ∀ e : Int, ((x : ℚ) * 10 ^ (e - k)) = x * 10 ^ (-(k : Int)) * 10 ^ e := by
    intro e
    rw [mul_assoc, ← zpow_add₀ (by norm_num), add_comm, ← sub_eq_add_neg]
  unfold decimal?
  cases hb with
  | none =>
    rw [List.append_nil]
    simp only [cutAt_none hno, hm]
    rw [← ev]
    rfl
  | @pos c t b y n hc ht hb =>
    have hcc : (c == 'e' || c == 'E') = true := by rcases hc with rfl | rfl <;> decide
    simp only [cutAt_some hno hcc, hm]
    have hs : signed? (t ++ b) = some (y : Int) := by
      rcases ht with rfl | rfl
      · exact signed?_of_digits hb
      · simp [signed?, digits_parse0 hb]
    rw [hs, ← ev]
    rfl
  | @neg c b y n hc hb =>
    have hcc : (c == 'e' || c == 'E') = true := by rcases hc with rfl | rfl <;> decide
    simp only [cutAt_some hno hcc, hm]
    have hs : signed? ('-' :: b) = some (-(y : Int)) := by simp [signed?, digits_parse0 hb]
    rw [hs, ← ev]
    rfl

theorem of_decimal {s : Str} {r : ℚ} (h : decimal? s = some r) : ∃ a b m e, s = a ++ b ∧ Mantissa a m ∧ Exponent b e ∧ r = m * 10 ^ e := by
  unfold decimal? at h
  dsimp only at h
  obtain ⟨⟨x, k⟩, hm, h⟩ := Option.bind_eq_some_iff.1 h
  have fin : ∀ e : Int, some ((x : ℚ) * 10 ^ (e - k)) = some r → r = x * 10 ^ (-(k : Int)) * 10 ^ e := by
    intro e h
    injection h with h
    rw [← h, sub_eq_neg_add, zpow_add₀ (by norm_num), ← mul_assoc]
  rcases cutAt_join (p := fun c => c == 'e' || c == 'E') (s := s) with ⟨b, c, hc, e2, e1⟩ | ⟨e2, e1⟩
  · rw [e2] at h
    have hc : c = 'e' ∨ c = 'E' := by simpa using hc
    dsimp only at h
    obtain ⟨e, he, h⟩ := Option.bind_eq_some_iff.1 h
    refine ⟨_, c :: b, _, e, e1, of_mantissa hm, ?_, fin e h⟩
    unfold signed? at he
    split at he
    · obtain ⟨v, hv, rfl⟩ := Option.map_eq_some_iff.1 he
      obtain ⟨n, hn⟩ := digits_of_parse hv
      exact Exponent.pos (t := ['+']) hc (.inr rfl) hn
    · obtain ⟨v, hv, rfl⟩ := Option.map_eq_some_iff.1 he
      obtain ⟨n, hn⟩ := digits_of_parse hv
      exact Exponent.neg hc hn
    · obtain ⟨v, hv, rfl⟩ := Option.map_eq_some_iff.1 he
      obtain ⟨n, hn⟩ := digits_of_parse hv
      exact Exponent.pos (t := []) hc (.inl rfl) hn
  · rw [e2] at h
    dsimp only at h
    obtain ⟨e, he, h⟩ := Option.bind_eq_some_iff.1 h
    injection he with he
    subst he
    exact ⟨_, [], _, 0, by rw [List.append_nil]; exact e1, of_mantissa hm, .none, fin 0 h⟩

theorem strip_around {w s w' : Str} (hw : ∀ c ∈ w, isWs c = true) (hw' : ∀ c ∈ w', isWs c = true) (hs : ∀ c ∈ s, isWs c = false) (h0 : s ≠ []) :
    strip (w ++ s ++ w') = s := by
  have d : ∀ {p q : Str}, (∀ c ∈ p, isWs c = true) → (∀ c ∈ q.head?, isWs c = false) → (p ++ q).dropWhile isWs = q := by
    intro p q hp hq
    rw [List.dropWhile_append_of_pos hp]
    cases q with
    | nil => rfl
    | cons c t => simp [List.dropWhile, hq c (by simp)]
  unfold strip
  rw [List.append_assoc, d hw, List.reverse_append, d (by simpa using hw'), List.reverse_reverse]
  · intro c hc
    exact hs c (by simpa using List.mem_of_mem_head? hc)
  · intro c hc
    apply hs
    cases s with
    | nil => exact absurd rfl h0
    | cons x t => simp at hc; simp [hc]

theorem around_strip (s : Str) : ∃ w w', (∀ c ∈ w, isWs c = true) ∧ (∀ c ∈ w', isWs c = true) ∧ s = w ++ strip s ++ w' := by
  have h1 := List.takeWhile_append_dropWhile (p := isWs) (l := s)
  have h2 := List.takeWhile_append_dropWhile (p := isWs) (l := (s.dropWhile isWs).reverse)
  refine ⟨s.takeWhile isWs, ((s.dropWhile isWs).reverse.takeWhile isWs).reverse, fun c hc => List.all_eq_true.1 List.all_takeWhile c hc,
    fun c hc => List.all_eq_true.1 List.all_takeWhile c (List.mem_reverse.1 hc), ?_⟩
  unfold strip
  rw [List.append_assoc, ← List.reverse_append, h2, List.reverse_reverse, h1]

theorem unsign_around (s : Str) : Around s (unsign (strip s)).1 (unsign (strip s)).2 := by
  obtain ⟨w, w', h1, h2, h3⟩ := around_strip s
  unfold unsign
  split
  · rename_i t ht
    exact ⟨w, w', ['-'], h1, h2, by rw [ht] at h3; simpa using h3, by simp⟩
  · rename_i t ht
    exact ⟨w, w', ['+'], h1, h2, by rw [ht] at h3; simpa using h3, by simp⟩
  · exact ⟨w, w', [], h1, h2, by simpa using h3, by simp⟩

/-- A text that begins with no sign and has no white space is found. -/
theorem around_unsign {s : Str} {neg : Bool} {c : Char} {t : Str} (h : Around s neg (c :: t)) (hw : ∀ x ∈ c :: t, isWs x = false)
    (h1 : c ≠ '+') (h2 : c ≠ '-') : unsign (strip s) = (neg, c :: t) := by
  obtain ⟨w, w', u, a1, a2, rfl, a3⟩ := h
  have key : ∀ u : Str, (∀ x ∈ u, isWs x = false) → strip (w ++ u ++ c :: t ++ w') = u ++ c :: t := by
    intro u hu
    rw [List.append_assoc w]
    refine strip_around a1 a2 (fun x hx => ?_) (by simp)
    rcases List.mem_append.1 hx with h | h
    · exact hu x h
    · exact hw x h
  have plain : unsign (c :: t) = (false, c :: t) := by
    unfold unsign
    split
    · rename_i h'; injection h' with h' _; exact absurd h' h2
    · rename_i h'; injection h' with h' _; exact absurd h' h1
    · rfl
  cases neg with
  | true =>
    simp only [if_true] at a3
    subst a3
    rw [key _ (by decide)]
    rfl
  | false =>
    simp only [Bool.false_eq_true, if_false] at a3
    rcases a3 with rfl | rfl
    · rw [key _ (by simp)]
      exact plain
    · rw [key _ (by decide)]
      rfl

theorem mantissa_head {a : Str} {m : ℚ} (h : Mantissa a m) : ∃ c t, a = c :: t ∧ (c = '.' ∨ ∃ d, digitVal? c = some d) := by
  cases h with
  | whole ha => obtain ⟨c, t, rfl, hc⟩ := digits_head ha; exact ⟨c, t, rfl, .inr hc⟩
  | dot ha => obtain ⟨c, t, rfl, hc⟩ := digits_head ha; exact ⟨c, _, rfl, .inr hc⟩
  | part hb => exact ⟨_, _, rfl, .inl rfl⟩
  | both ha hb => obtain ⟨c, t, rfl, hc⟩ := digits_head ha; exact ⟨c, _, rfl, .inr hc⟩

theorem digits_ws {s : Str} {v k : Nat} (h : Digits s v k) : ∀ c ∈ s, isWs c = false := by
  intro c hc
  rcases digits_char h c hc with rfl | hd
  · decide
  · exact (digit_facts hd).1

theorem mantissa_ws {a : Str} {m : ℚ} (h : Mantissa a m) : ∀ c ∈ a, isWs c = false := by
  intro c hc
  have hdot : isWs '.' = false := by decide
  cases h with
  | whole ha => exact digits_ws ha c hc
  | dot ha =>
    rcases List.mem_append.1 hc with h | h
    · exact digits_ws ha c h
    · simp at h; subst h; exact hdot
  | part hb =>
    rcases List.mem_cons.1 hc with rfl | h
    · exact hdot
    · exact digits_ws hb c h
  | both ha hb =>
    rcases List.mem_append.1 hc with h | h
    · exact digits_ws ha c h
    · rcases List.mem_cons.1 h with rfl | h
      · exact hdot
      · exact digits_ws hb c h

theorem exponent_ws {b : Str} {e : Int} (h : Exponent b e) : ∀ c ∈ b, isWs c = false := by
  intro x hx
  have hee : ∀ c : Char, c = 'e' ∨ c = 'E' → isWs c = false := by rintro c (rfl | rfl) <;> decide
  cases h with
  | none => simp at hx
  | pos hc ht hb =>
    rcases List.mem_cons.1 hx with rfl | h
    · exact hee _ hc
    · rcases List.mem_append.1 h with h | h
      · rcases ht with rfl | rfl
        · simp at h
        · simp at h; subst h; decide
      · exact digits_ws hb x h
  | neg hc hb =>
    rcases List.mem_cons.1 hx with rfl | h
    · exact hee _ hc
    · rcases List.mem_cons.1 h with rfl | h
      · decide
      · exact digits_ws hb x h

theorem lower_digit {c : Char} (h : c = '.' ∨ ∃ n, digitVal? c = some n) : c.toLower = c := by
  rcases h with rfl | ⟨n, hn⟩
  · decide
  · unfold digitVal? at hn
    split at hn
    · rename_i hd
      unfold Char.toLower
      rw [dif_neg]
      intro hh
      have : 65 ≤ c.toNat := hh.1
      omega
    · cases hn

/-- Every text of a number is read. -/
theorem float_number {s : Str} {neg : Bool} {r : ℚ} (h : NumberText s neg r) : float s = .ok (Double.ofMag neg r) := by
  obtain ⟨a, b, m, e, h1, h2, h3, rfl⟩ := h
  have hd := decimal_of h2 h3
  have hws : ∀ c ∈ a ++ b, isWs c = false := fun c hc => (List.mem_append.1 hc).elim (mantissa_ws h2 c) (exponent_ws h3 c)
  obtain ⟨c, t, rfl, hc⟩ := mantissa_head h2
  rw [List.cons_append] at h1 hd hws
  have n1 : c ≠ '+' := by rintro rfl; rcases hc with h | ⟨n, h⟩ <;> revert h <;> decide +revert
  have n2 : c ≠ '-' := by rintro rfl; rcases hc with h | ⟨n, h⟩ <;> revert h <;> decide +revert
  have n3 : c ≠ 'i' := by rintro rfl; rcases hc with h | ⟨n, h⟩ <;> revert h <;> decide +revert
  have n4 : c ≠ 'n' := by rintro rfl; rcases hc with h | ⟨n, h⟩ <;> revert h <;> decide +revert
  have hu := around_unsign h1 hws n1 n2
  unfold float
  simp only [hu, List.map_cons, lower_digit hc]
  rw [if_neg, if_neg, hd]
  · intro h; injection h with h _; exact n4 h
  · rintro (h | h) <;> · injection h with h _; exact n3 h

theorem lower_ws {c d : Char} (h : c.toLower = d) (hd : d ∈ "infinityanINFINITYAN".toList) : isWs c = false ∧ (c = '+' ∨ c = '-' → False) := by
  have : c.toNat < 128 := by
    by_contra hc
    have e : c.toLower = c := by
      unfold Char.toLower
      rw [dif_neg]
      intro hh
      have : c.toNat ≤ 90 := hh.2
      omega
    rw [e] at h
    subst h
    have : ∀ x ∈ "infinityanINFINITYAN".toList, x.toNat < 128 := by decide
    exact hc (this c hd)
  have hc : c = Char.ofNat c.toNat := (Char.ofNat_toNat c).symm
  generalize c.toNat = n at this hc
  subst hc
  subst h
  revert hd
  revert this
  revert n
  decide

theorem float_name {names : List String} (hn : names = ["inf", "infinity"] ∨ names = ["nan"]) {s : Str} {neg : Bool} (h : NameText names s neg) :
    float s = .ok (if names = ["nan"] then .nan else .inf neg) := by
  obtain ⟨t, h1, n, hm, ht⟩ := h
  have hch : ∀ x ∈ t, isWs x = false ∧ (x = '+' ∨ x = '-' → False) := by
    intro x hx
    refine lower_ws rfl ?_
    have h2 : x.toLower ∈ n.toList := by rw [← ht]; exact List.mem_map.2 ⟨x, hx, rfl⟩
    have h3 : ∀ n ∈ ["inf", "infinity", "nan"], ∀ y ∈ n.toList, y ∈ "infinityanINFINITYAN".toList := by decide
    refine h3 n ?_ _ h2
    rcases hn with rfl | rfl
    · simp at hm ⊢; rcases hm with rfl | rfl <;> simp
    · simp at hm ⊢; subst hm; simp
  have h0 : t ≠ [] := by
    rintro rfl
    have : ∀ n ∈ ["inf", "infinity", "nan"], n.toList ≠ [] := by decide
    refine this n ?_ ht.symm
    rcases hn with rfl | rfl
    · simp at hm ⊢; rcases hm with rfl | rfl <;> simp
    · simp at hm ⊢; subst hm; simp
  obtain ⟨c, t, rfl⟩ := List.exists_cons_of_ne_nil h0
  have hu := around_unsign h1 (fun x hx => (hch x hx).1) (fun e => (hch c (by simp)).2 (.inl e)) (fun e => (hch c (by simp)).2 (.inr e))
  unfold float
  simp only [hu, ht]
  rcases hn with rfl | rfl
  · simp at hm
    rcases hm with rfl | rfl
    · rw [if_pos (.inl rfl)]; rfl
    · rw [if_pos (.inr rfl)]; rfl
  · simp at hm
    subst hm
    rw [if_neg (by decide), if_pos rfl, if_pos rfl]

/-- Whatever is read is a number or one of the names. -/
theorem float_inv {s : Str} {x : Double} (h : float s = .ok x) : (∃ neg r, NumberText s neg r ∧ x = Double.ofMag neg r) ∨
    (∃ neg, NameText ["inf", "infinity"] s neg ∧ x = .inf neg) ∨ (∃ neg, NameText ["nan"] s neg ∧ x = .nan) := by
  have ha := unsign_around s
  unfold float at h
  dsimp only at h
  generalize unsign (strip s) = p at *
  split at h
  · rename_i hn
    injection h with h
    refine .inr (.inl ⟨p.1, ⟨p.2, ha, ?_⟩, h.symm⟩)
    rcases hn with hn | hn
    · exact ⟨"inf", by simp, hn⟩
    · exact ⟨"infinity", by simp, hn⟩
  split at h
  · rename_i hn
    injection h with h
    exact .inr (.inr ⟨p.1, ⟨p.2, ha, "nan", by simp, hn⟩, h.symm⟩)
  split at h
  · rename_i r hr
    injection h with h
    obtain ⟨a, b, m, e, e1, e2, e3, e4⟩ := of_decimal hr
    rw [e1] at ha
    exact .inl ⟨p.1, r, ⟨a, b, m, e, ha, e2, e3, e4⟩, h.symm⟩
  · cases h

theorem float_err {s : Str} {e : Err} (h : float s = .error e) : e = .value := by
  unfold float at h
  dsimp only at h
  split at h
  · cases h
  split at h
  · cases h
  split at h
  · cases h
  · injection h with h; exact h.symm

theorem digits_nonneg {a : Str} {m : ℚ} (h : Mantissa a m) : 0 ≤ m := by cases h <;> positivity

theorem number_nonneg {s : Str} {neg : Bool} {r : ℚ} (h : NumberText s neg r) : 0 ≤ r := by
  obtain ⟨a, b, m, e, -, h2, -, rfl⟩ := h
  exact mul_nonneg (digits_nonneg h2) (zpow_nonneg (by norm_num) _)

end Verif.Py
