import Verif.Py

/-! Lemmas about the Python primitives. -/

namespace Verif.Py

theorem digitVal?_digitCh {d : Nat} (h : d < 10) : digitVal? (digitCh d) = some d := by
  have : d = 0 ∨ d = 1 ∨ d = 2 ∨ d = 3 ∨ d = 4 ∨ d = 5 ∨ d = 6 ∨ d = 7 ∨ d = 8 ∨ d = 9 := by omega
  rcases this with h | h | h | h | h | h | h | h | h | h <;> subst h <;> decide

theorem isWs_digitCh {d : Nat} (h : d < 10) : isWs (digitCh d) = false := by
  have : d = 0 ∨ d = 1 ∨ d = 2 ∨ d = 3 ∨ d = 4 ∨ d = 5 ∨ d = 6 ∨ d = 7 ∨ d = 8 ∨ d = 9 := by omega
  rcases this with h | h | h | h | h | h | h | h | h | h <;> subst h <;> decide

/-- A string of decimal digits. -/
def AllDec (s : Str) : Prop := ∀ c ∈ s, ∃ d, digitVal? c = some d

theorem allDec_iff {s : Str} : AllDec s ↔ s.all isDecimal = true := by
  simp [AllDec, isDecimal, Option.isSome_iff_exists]

theorem parseDigits_append {s : Str} (hs : AllDec s) :
    ∀ (t : Str) (acc : Nat) (pd : Bool), s ≠ [] → ∃ v, parseDigits acc pd (s ++ t) = parseDigits v true t
      ∧ parseDigits acc pd s = some v := by
  induction s with
  | nil => intro _ _ _ h; exact absurd rfl h
  | cons c cs ih =>
    intro t acc pd _
    obtain ⟨d, hd⟩ := hs c (by simp)
    by_cases hcs : cs = []
    · subst hcs
      refine ⟨acc * 10 + d, ?_, ?_⟩ <;> simp [parseDigits, hd]
    · obtain ⟨v, h1, h2⟩ := ih (fun c hc => hs c (by simp [hc])) t (acc * 10 + d) true hcs
      refine ⟨v, ?_, ?_⟩
      · simp [parseDigits, hd, h1]
      · simp [parseDigits, hd, h2]

theorem parseDigits_some {s : Str} (hs : AllDec s) (h0 : s ≠ []) (acc : Nat) (pd : Bool) :
    ∃ v, parseDigits acc pd s = some v := by
  obtain ⟨v, _, h⟩ := parseDigits_append hs [] acc pd h0
  exact ⟨v, h⟩

theorem natStrAux_ne_nil (fuel n : Nat) (h : n < fuel) : natStrAux fuel n ≠ [] := by
  cases fuel with
  | zero => omega
  | succ f => rw [natStrAux]; split <;> simp

theorem natStrAux_allDec (fuel n : Nat) : AllDec (natStrAux fuel n) := by
  induction fuel generalizing n with
  | zero => simp [natStrAux, AllDec]
  | succ f ih =>
    rw [natStrAux]
    split
    · rename_i h
      intro c hc
      simp at hc
      exact ⟨n, by rw [hc]; exact digitVal?_digitCh h⟩
    · intro c hc
      simp at hc
      rcases hc with hc | hc
      · exact ih _ c hc
      · exact ⟨n % 10, by rw [hc]; exact digitVal?_digitCh (by omega)⟩

theorem natStr_ne_nil (n : Nat) : natStr n ≠ [] := natStrAux_ne_nil _ _ (by omega)

theorem natStr_allDec (n : Nat) : AllDec (natStr n) := natStrAux_allDec _ _

theorem parse_natStrAux (fuel n : Nat) (h : n < fuel) :
    parseDigits 0 false (natStrAux fuel n) = some n := by
  induction fuel generalizing n with
  | zero => omega
  | succ f ih =>
    rw [natStrAux]
    split
    · rename_i h10
      simp [parseDigits, digitVal?_digitCh h10]
    · rename_i h10
      obtain ⟨v, h1, h2⟩ := parseDigits_append (natStrAux_allDec f (n / 10)) [digitCh (n % 10)] 0 false
        (natStrAux_ne_nil _ _ (by omega))
      rw [h1]
      have h3 := ih (n / 10) (by omega)
      rw [h3] at h2
      injection h2 with h2
      rw [← h2]
      simp [parseDigits, digitVal?_digitCh (show n % 10 < 10 by omega)]
      omega

theorem parse_natStr (n : Nat) : parseDigits 0 false (natStr n) = some n :=
  parse_natStrAux _ _ (by omega)

theorem allDec_append {s t : Str} (hs : AllDec s) (ht : AllDec t) : AllDec (s ++ t) := by
  intro c hc
  simp at hc
  rcases hc with h | h
  · exact hs c h
  · exact ht c h

theorem digit_facts {c : Char} (h : ∃ d, digitVal? c = some d) :
    isWs c = false ∧ c ≠ '+' ∧ c ≠ '-' ∧ c ≠ '_' ∧ c ≠ '\n' ∧ c ≠ '\r' ∧ c ≠ '=' ∧ isDigitCh c = true := by
  obtain ⟨d, hd⟩ := h
  have hr : 48 ≤ c.toNat ∧ c.toNat ≤ 57 := by
    unfold digitVal? at hd
    split at hd
    · assumption
    · cases hd
  refine ⟨?_, ?_, ?_, ?_, ?_, ?_, ?_, ?_⟩
  · unfold isWs
    have : ∀ n : Nat, 48 ≤ n → n ≤ 57 → ((9 ≤ n && n ≤ 13) || (28 ≤ n && n ≤ 32) || n == 0x85 || n == 0xA0
       || n == 0x1680 || (0x2000 ≤ n && n ≤ 0x200A) || n == 0x2028 || n == 0x2029 || n == 0x202F
       || n == 0x205F || n == 0x3000) = false := by
      intro n h1 h2
      have : n = 48 ∨ n = 49 ∨ n = 50 ∨ n = 51 ∨ n = 52 ∨ n = 53 ∨ n = 54 ∨ n = 55 ∨ n = 56 ∨ n = 57 := by
        omega
      rcases this with h | h | h | h | h | h | h | h | h | h <;> subst h <;> rfl
    exact this _ hr.1 hr.2
  all_goals first
    | (intro hc; subst hc; revert hr; decide)
    | skip
  simp [isDigitCh, isDecimal, hd]

theorem strip_of_noWs {s : Str} (h : ∀ c ∈ s, isWs c = false) : strip s = s := by
  have h1 : s.dropWhile isWs = s := by
    cases s with
    | nil => rfl
    | cons c cs => simp [List.dropWhile, h c (by simp)]
  unfold strip
  rw [h1]
  have h2 : s.reverse.dropWhile isWs = s.reverse := by
    cases hr : s.reverse with
    | nil => rfl
    | cons c cs =>
      have : c ∈ s := by
        have : c ∈ s.reverse := by rw [hr]; simp
        simpa using this
      simp [List.dropWhile, h c this]
  rw [h2, List.reverse_reverse]

theorem int_of_allDec {s : Str} (hs : AllDec s) (h0 : s ≠ []) {v : Nat}
    (hv : parseDigits 0 false s = some v) : int s = .ok (v : Int) := by
  unfold int
  rw [strip_of_noWs (fun c hc => (digit_facts (hs c hc)).1)]
  cases s with
  | nil => exact absurd rfl h0
  | cons c cs =>
    have hc := digit_facts (hs c (by simp))
    have : signed? (c :: cs) = some (v : Int) := by
      unfold signed?
      split
      · rename_i heq; injection heq with h1 _; exact absurd h1 hc.2.1
      · rename_i heq; injection heq with h1 _; exact absurd h1 hc.2.2.1
      · rw [hv]; rfl
    rw [this]

theorem int_natStr (n : Nat) : int (natStr n) = .ok (n : Int) :=
  int_of_allDec (natStr_allDec n) (natStr_ne_nil n) (parse_natStr n)

/-- Leading zeros do not change the value. -/
theorem parseDigits_zeros (k : Nat) (s : Str) (hs : s ≠ []) (hd : AllDec s) (pd : Bool) :
    parseDigits 0 pd (List.replicate k '0' ++ s) = parseDigits 0 false s := by
  induction k generalizing pd with
  | zero =>
    cases s with
    | nil => exact absurd rfl hs
    | cons c cs =>
      obtain ⟨d, hd⟩ := hd c (by simp)
      simp [parseDigits, hd]
  | succ k ih =>
    have h0 : digitVal? '0' = some 0 := by decide
    rw [List.replicate_succ, List.cons_append, parseDigits, h0]
    exact ih true

theorem natStrPad_allDec (w n : Nat) : AllDec (natStrPad w n) := by
  unfold natStrPad
  apply allDec_append _ (natStr_allDec n)
  intro c hc
  rw [List.mem_replicate] at hc
  exact ⟨0, by rw [hc.2]; decide⟩

theorem natStrPad_ne_nil (w n : Nat) : natStrPad w n ≠ [] := by
  unfold natStrPad
  simp [natStr_ne_nil]

theorem int_natStrPad (w n : Nat) : int (natStrPad w n) = .ok (n : Int) := by
  apply int_of_allDec (natStrPad_allDec w n) (natStrPad_ne_nil w n)
  unfold natStrPad
  rw [parseDigits_zeros _ _ (natStr_ne_nil n) (natStr_allDec n), parse_natStr]

theorem natStrAux_length (fuel n : Nat) (h : n < fuel) (k : Nat) (hk : 0 < k) :
    (natStrAux fuel n).length ≤ k ↔ n < 10 ^ k := by
  induction fuel generalizing n k with
  | zero => omega
  | succ f ih =>
    rw [natStrAux]
    split
    · rename_i h10
      simp
      constructor
      · intro _
        calc n < 10 ^ 1 := by omega
          _ ≤ 10 ^ k := Nat.pow_le_pow_right (by omega) hk
      · intro _; omega
    · rename_i h10
      simp only [List.length_append, List.length_cons, List.length_nil]
      cases k with
      | zero => omega
      | succ k =>
        by_cases hk0 : k = 0
        · subst hk0
          have := natStrAux_ne_nil f (n / 10) (by omega)
          have h1 : 0 < (natStrAux f (n / 10)).length := List.length_pos_iff.mpr this
          omega
        · have := ih (n / 10) (by omega) k (by omega)
          rw [Nat.pow_succ]
          constructor
          · intro hh
            have := this.mp (by omega)
            omega
          · intro hh
            have := this.mpr (by omega)
            omega

theorem natStr_length (n k : Nat) (hk : 0 < k) : (natStr n).length ≤ k ↔ n < 10 ^ k :=
  natStrAux_length _ _ (by omega) _ hk

theorem natStrPad_length (w n : Nat) (hw : 0 < w) (h : n < 10 ^ w) : (natStrPad w n).length = w := by
  have := (natStr_length n w hw).mpr h
  simp [natStrPad]; omega

theorem natStrPad_length_gt (w n : Nat) (hw : 0 < w) (h : 10 ^ w ≤ n) : w < (natStrPad w n).length := by
  have h1 : ¬ (natStr n).length ≤ w := fun h2 => by
    have := (natStr_length n w hw).mp h2; omega
  simp [natStrPad]; omega

theorem isdigit_of_allDec {s : Str} (hs : AllDec s) (h0 : s ≠ []) : isdigit s = true := by
  unfold isdigit
  cases s with
  | nil => exact absurd rfl h0
  | cons c cs =>
    simp only [List.isEmpty_cons, Bool.not_false, Bool.true_and, List.all_eq_true]
    intro x hx
    exact (digit_facts (hs x hx)).2.2.2.2.2.2.2

/-! ### Slices from the end -/

theorem bound_neg (n k : Nat) (hk : 0 < k) : bound n (-(k : Int)) = n - k := by
  unfold bound
  simp only
  rw [if_pos (by omega)]
  omega

theorem slice_to_neg {α : Type _} (a b : List α) (k : Nat) (hk : 0 < k) (hb : b.length = k) :
    slice (a ++ b) none (some (-(k : Int))) = a := by
  unfold slice
  simp [bound_neg _ _ hk, hb]

theorem slice_from_neg {α : Type _} (a b : List α) (k : Nat) (hk : 0 < k) (hb : b.length = k) :
    slice (a ++ b) (some (-(k : Int))) none = b := by
  unfold slice
  simp only [bound_neg _ _ hk, List.length_append, hb]
  simp [← hb]

theorem slice_mid_neg {α : Type _} (a b c : List α) (k m : Nat) (hm : 0 < m) (hc : c.length = m)
    (hk : b.length + m = k) :
    slice (a ++ b ++ c) (some (-(k : Int))) (some (-(m : Int))) = b := by
  unfold slice
  have h1 : a.length + b.length + m - k = a.length := by omega
  have h2 : a.length + b.length + m - m - a.length = b.length := by omega
  simp only [bound_neg _ _ (show 0 < k by omega), bound_neg _ _ hm, List.length_append, hc, h1, h2]
  simp

theorem slice_neg_general {α : Type _} (l : List α) (k m : Nat) (hm : 0 < m) (hk : m ≤ k) :
    slice l (some (-(k : Int))) (some (-(m : Int))) = (l.drop (l.length - k)).take ((l.length - m) - (l.length - k)) := by
  unfold slice
  simp only [bound_neg _ _ (show 0 < k by omega), bound_neg _ _ hm]

theorem slice_to_neg_general {α : Type _} (l : List α) (k : Nat) (hk : 0 < k) :
    slice l none (some (-(k : Int))) = l.take (l.length - k) := by
  unfold slice
  simp [bound_neg _ _ hk]

theorem slice_from_neg_general {α : Type _} (l : List α) (k : Nat) (hk : 0 < k) :
    slice l (some (-(k : Int))) none = l.drop (l.length - k) := by
  unfold slice
  simp only [bound_neg _ _ hk]
  apply List.take_of_length_le
  simp

end Verif.Py
