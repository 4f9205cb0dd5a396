import Verif.Py
import Verif.Model.Grid
import Mathlib.Data.List.Basic
import Mathlib.Data.List.Nodup
import Mathlib.Tactic.Common

/-! General lemmas: monadic folds, attribute updates, Python list access. -/

namespace Verif

theorem range'_snoc (base k : Nat) : List.range' base (k + 1) = List.range' base k ++ [base + k] := by
  rw [List.range'_concat]; simp

@[simp] theorem upd_self {α : Type _} (f : Nat → α) (i : Nat) (v : α) : upd f i v i = v := by simp [upd]

theorem upd_ne {α : Type _} (f : Nat → α) {i j : Nat} (v : α) (h : j ≠ i) : upd f i v j = f j := by simp [upd, h]

theorem upd_apply {α : Type _} (f : Nat → α) (i : Nat) (v : α) (j : Nat) :
    upd f i v j = if j = i then v else f j := rfl

@[simp] theorem res_pure {α : Type _} (a : α) : (pure a : Res α) = .ok a := rfl
@[simp] theorem res_bind_ok {α β : Type _} (a : α) (f : α → Res β) : ((Except.ok a : Res α) >>= f) = f a := rfl
@[simp] theorem res_bind_error {α β : Type _} (e : Err) (f : α → Res β) :
    ((Except.error e : Res α) >>= f) = .error e := rfl

theorem res_bind_eq_ok {α β : Type _} {x : Res α} {f : α → Res β} {b : β} :
    (x >>= f) = .ok b ↔ ∃ a, x = .ok a ∧ f a = .ok b := by
  cases x with
  | error e => simp
  | ok a => simp

theorem res_bind_eq_error {α β : Type _} {x : Res α} {f : α → Res β} {e : Err} :
    (x >>= f) = .error e ↔ x = .error e ∨ ∃ a, x = .ok a ∧ f a = .error e := by
  cases x with
  | error e => simp
  | ok a => simp

/-- Total correctness of a monadic fold by an invariant over the processed prefix. -/
theorem foldlM_total {α β : Type _} (f : β → α → Res β) (l : List α) (I : List α → β → Prop) (s : β)
    (h0 : I [] s)
    (hs : ∀ pre a post s, l = pre ++ a :: post → I pre s → ∃ s', f s a = .ok s' ∧ I (pre ++ [a]) s') :
    ∃ s', l.foldlM f s = .ok s' ∧ I l s' := by
  suffices H : ∀ post pre s, l = pre ++ post → I pre s → ∃ s', post.foldlM f s = .ok s' ∧ I l s' from
    H l [] s rfl h0
  intro post
  induction post with
  | nil => intro pre s hl hi; exact ⟨s, rfl, by simpa [hl] using hi⟩
  | cons a post ih =>
    intro pre s hl hi
    obtain ⟨s1, h1, hi1⟩ := hs pre a post s hl hi
    obtain ⟨s2, h2, hi2⟩ := ih (pre ++ [a]) s1 (by simp [hl]) hi1
    exact ⟨s2, by simp [List.foldlM_cons, h1, h2], hi2⟩

/-- Partial correctness of a monadic fold. -/
theorem foldlM_partial {α β : Type _} (f : β → α → Res β) (l : List α) (I : List α → β → Prop) (s s' : β)
    (hr : l.foldlM f s = .ok s') (h0 : I [] s)
    (hs : ∀ pre a post s s', l = pre ++ a :: post → I pre s → f s a = .ok s' → I (pre ++ [a]) s') :
    I l s' := by
  suffices H : ∀ post pre s, l = pre ++ post → I pre s → post.foldlM f s = .ok s' → I l s' from
    H l [] s rfl h0 hr
  intro post
  induction post with
  | nil => intro pre s hl hi h; simp only [List.foldlM_nil, res_pure, Except.ok.injEq] at h; subst h; simpa [hl] using hi
  | cons a post ih =>
    intro pre s hl hi h
    rw [List.foldlM_cons, res_bind_eq_ok] at h
    obtain ⟨s1, h1, h2⟩ := h
    exact ih (pre ++ [a]) s1 (by simp [hl]) (hs pre a post s s1 hl hi h1) h2

theorem get_ofNat {α : Type _} (l : List α) (i : Nat) :
    Py.get l (i : Int) = match l[i]? with | some a => .ok a | none => .error .index := by
  have h0 : ¬ ((i : Int) < 0) := by omega
  unfold Py.get
  simp only [h0, if_false, Int.toNat_natCast]
  cases l[i]? <;> rfl

end Verif
