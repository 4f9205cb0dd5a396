import Verif.Model.Smooth
import Verif.Proofs.Strings
import Verif.Proofs.Basic
import Mathlib.Tactic.Ring

/-! Names of iterations and moving of nodes. -/

namespace Verif.Smooth
open Verif
variable {F R : Type}

theorem name_eq (i : Nat) : nameOfIteration i = Py.natStrPad 3 i := by
  unfold nameOfIteration Py.natStrPad
  have h : 0 < (Py.natStr i).length := List.length_pos_of_ne_nil (Py.natStr_ne_nil i)
  simp only []
  rw [Py.slice_to_neg_general _ _ h]
  congr 1
  generalize (Py.natStr i).length = n at h
  match n, h with
  | 1, _ => rfl
  | 2, _ => rfl
  | n + 3, _ => simp

theorem digit_lt {c d : Char} {a b : Nat} (h1 : Py.digitVal? c = some a) (h2 : Py.digitVal? d = some b) : c < d ↔ a < b := by
  unfold Py.digitVal? at h1 h2
  split at h1 <;> simp at h1
  split at h2 <;> simp at h2
  have : c < d ↔ c.toNat < d.toNat := by
    rw [Char.lt_def, UInt32.lt_iff_toNat_lt]
    rfl
  rw [this]
  omega

theorem parse_bound {s : Str} (hs : Py.AllDec s) {acc : Nat} {pd : Bool} {v : Nat} (h : Py.parseDigits acc pd s = some v) :
    acc * 10 ^ s.length ≤ v ∧ v < (acc + 1) * 10 ^ s.length := by
  induction s generalizing acc pd with
  | nil =>
    unfold Py.parseDigits at h
    split at h <;> simp at h
    subst h; simp
  | cons c s ih =>
    obtain ⟨d, hd⟩ := hs c (by simp)
    have hd9 : d < 10 := by
      unfold Py.digitVal? at hd
      split at hd <;> simp at hd
      omega
    unfold Py.parseDigits at h
    rw [hd] at h
    have := ih (fun x hx => hs x (List.mem_cons_of_mem _ hx)) h
    rw [List.length_cons, pow_succ]
    constructor
    · refine le_trans ?_ this.1
      have : acc * (10 ^ s.length * 10) = (acc * 10) * 10 ^ s.length := by ring
      rw [this]
      exact Nat.mul_le_mul_right _ (by omega)
    · refine lt_of_lt_of_le this.2 ?_
      have : (acc + 1) * (10 ^ s.length * 10) = ((acc + 1) * 10) * 10 ^ s.length := by ring
      rw [this]
      exact Nat.mul_le_mul_right _ (by omega)

/-- Digits of equal length are ordered as strings like the numbers. -/
theorem lex_iff {s t : Str} (hs : Py.AllDec s) (ht : Py.AllDec t) (hl : s.length = t.length) {acc : Nat} {pd : Bool} {v w : Nat}
    (h1 : Py.parseDigits acc pd s = some v) (h2 : Py.parseDigits acc pd t = some w) : s < t ↔ v < w := by
  induction s generalizing t acc pd with
  | nil =>
    have : t = [] := List.length_eq_zero_iff.1 hl.symm
    subst this
    rw [h1] at h2
    simp at h2
    subst h2
    simp
  | cons c s ih =>
    cases t with
    | nil => simp at hl
    | cons d t =>
      simp only [List.length_cons, Nat.add_right_cancel_iff] at hl
      obtain ⟨a, ha⟩ := hs c (by simp)
      obtain ⟨b, hb⟩ := ht d (by simp)
      unfold Py.parseDigits at h1 h2
      rw [ha] at h1
      rw [hb] at h2
      have hs' : Py.AllDec s := fun x hx => hs x (List.mem_cons_of_mem _ hx)
      have ht' : Py.AllDec t := fun x hx => ht x (List.mem_cons_of_mem _ hx)
      have p1 := parse_bound hs' h1
      have p2 := parse_bound ht' h2
      rw [List.cons_lt_cons_iff]
      have hcd : c = d ↔ a = b := by
        constructor
        · rintro rfl
          rw [ha] at hb
          simpa using hb
        · rintro rfl
          unfold Py.digitVal? at ha hb
          split at ha <;> simp at ha
          split at hb <;> simp at hb
          apply Char.ext
          apply UInt32.toNat_inj.1
          show c.toNat = d.toNat
          omega
      rw [digit_lt ha hb, hcd]
      constructor
      · rintro (h | ⟨h, h'⟩)
        · refine lt_of_lt_of_le p1.2 (le_trans ?_ p2.1)
          rw [hl]
          exact Nat.mul_le_mul_right _ (by omega)
        · subst h
          exact (ih hs' ht' hl h1 h2).1 h'
      · intro h
        rcases Nat.lt_trichotomy a b with h' | h' | h'
        · exact .inl h'
        · subst h'
          exact .inr ⟨rfl, (ih hs' ht' hl h1 h2).2 h⟩
        · exfalso
          have : (acc * 10 + b + 1) * 10 ^ t.length ≤ (acc * 10 + a) * 10 ^ s.length := by
            rw [hl]
            exact Nat.mul_le_mul_right _ (by omega)
          omega

theorem pad_parse (w n : Nat) : Py.parseDigits 0 false (Py.natStrPad w n) = some n := by
  unfold Py.natStrPad
  rw [Py.parseDigits_zeros _ _ (Py.natStr_ne_nil n) (Py.natStr_allDec n)]
  exact Py.parse_natStr n

variable [Field F]

theorem moves (fix : Bool) (ps : List (Nat × Vec F)) (hn : (ps.map Prod.fst).Nodup) (g : Grid F R) :
    ∃ q, ps.foldl (moveNode fix) g = { g with nP := q } ∧ (∀ n ∉ ps.map Prod.fst, q n = g.nP n) ∧
      ∀ p ∈ ps, q p.1 = if fix = true ∧ g.nBorder p.1 = true then g.nP p.1 else (g.nP p.1).add p.2 := by
  induction ps generalizing g with
  | nil => exact ⟨g.nP, rfl, fun _ _ => rfl, by simp⟩
  | cons p ps ih =>
    rw [List.map_cons, List.nodup_cons] at hn
    obtain ⟨q0, e0⟩ : ∃ q0, moveNode fix g p = { g with nP := q0 } ∧ (∀ n, n ≠ p.1 → q0 n = g.nP n) ∧
        q0 p.1 = if fix = true ∧ g.nBorder p.1 = true then g.nP p.1 else (g.nP p.1).add p.2 := by
      unfold moveNode
      cases fix <;> by_cases hb : g.nBorder p.1 = true
      · exact ⟨_, rfl, fun n h => upd_ne _ _ h, by simp [upd]⟩
      · exact ⟨_, rfl, fun n h => upd_ne _ _ h, by simp [upd]⟩
      · exact ⟨g.nP, by simp [hb], fun _ _ => rfl, by simp [hb]⟩
      · exact ⟨upd g.nP p.1 ((g.nP p.1).add p.2), by simp [hb], fun n h => upd_ne _ _ h, by simp [upd, hb]⟩
    obtain ⟨q, h1, h2, h3⟩ := ih hn.2 { g with nP := q0 }
    refine ⟨q, ?_, ?_, ?_⟩
    · rw [List.foldl_cons, e0.1, h1]
    · intro n hn'
      rw [List.map_cons, List.mem_cons, not_or] at hn'
      rw [h2 n hn'.2]
      exact e0.2.1 n hn'.1
    · intro x hx
      rcases List.mem_cons.1 hx with rfl | hx
      · rw [h2 x.1 hn.1]
        exact e0.2.2
      · rw [h3 x hx]
        have : x.1 ≠ p.1 := fun h => hn.1 (h ▸ List.mem_map_of_mem hx)
        show (if fix = true ∧ g.nBorder x.1 = true then q0 x.1 else (q0 x.1).add x.2) = _
        rw [e0.2.1 _ this]

end Verif.Smooth
