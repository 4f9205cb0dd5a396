import Verif.Model.Laws
import Mathlib.Tactic.Linarith
import Mathlib.Tactic.FieldSimp
import Mathlib.Tactic.Ring
import Mathlib.Order.Monotone.Basic

/-! Lemmas about the polygon through the points of a table. -/

namespace Verif.Laws
variable {F : Type} [Field F] [LinearOrder F] [IsStrictOrderedRing F]

/-- The abscissas increase. -/
def Inc (l : List (F × F)) : Prop := l.Pairwise (fun a b => a.1 < b.1)

theorem line_eq {p q : F × F} (h : p.1 < q.1) (v : F) : line p q v = p.2 + (q.2 - p.2) * ((v - p.1) / (q.1 - p.1)) := by
  have : q.1 - p.1 ≠ 0 := (sub_pos.2 h).ne'
  unfold line; field_simp; ring

theorem line_left {p q : F × F} (h : p.1 < q.1) : line p q p.1 = p.2 := by rw [line_eq h]; simp

theorem line_right {p q : F × F} (h : p.1 < q.1) : line p q q.1 = q.2 := by
  have : q.1 - p.1 ≠ 0 := (sub_pos.2 h).ne'
  rw [line_eq h, div_self this]; ring

theorem line_mono {p q : F × F} (h : p.1 < q.1) (hy : p.2 ≤ q.2) {v w : F} (hv : v ≤ w) : line p q v ≤ line p q w := by
  rw [line_eq h, line_eq h]
  have h1 : (v - p.1) / (q.1 - p.1) ≤ (w - p.1) / (q.1 - p.1) := div_le_div_of_nonneg_right (by linarith) (sub_pos.2 h).le
  have := mul_le_mul_of_nonneg_left h1 (sub_nonneg.2 hy)
  linarith

theorem line_strict {p q : F × F} (h : p.1 < q.1) (hy : p.2 < q.2) {v w : F} (hv : v < w) : line p q v < line p q w := by
  rw [line_eq h, line_eq h]
  have h1 : (v - p.1) / (q.1 - p.1) < (w - p.1) / (q.1 - p.1) := div_lt_div_of_pos_right (by linarith) (sub_pos.2 h)
  have := mul_lt_mul_of_pos_left h1 (sub_pos.2 hy)
  linarith

theorem line_range {p q : F × F} (h : p.1 < q.1) {lo hi : F} (hp : lo ≤ p.2 ∧ p.2 ≤ hi) (hq : lo ≤ q.2 ∧ q.2 ≤ hi) {v : F} (h1 : p.1 ≤ v) (h2 : v ≤ q.1) :
    lo ≤ line p q v ∧ line p q v ≤ hi := by
  have hd := sub_pos.2 h
  obtain ⟨s, hs⟩ : ∃ s, s = (v - p.1) / (q.1 - p.1) := ⟨_, rfl⟩
  have s0 : 0 ≤ s := by rw [hs]; exact div_nonneg (by linarith) hd.le
  have s1 : s ≤ 1 := by rw [hs, div_le_one hd]; linarith
  rw [line_eq h, ← hs]
  constructor
  · nlinarith [mul_nonneg s0 (sub_nonneg.2 hq.1), mul_nonneg (sub_nonneg.2 s1) (sub_nonneg.2 hp.1)]
  · nlinarith [mul_nonneg s0 (sub_nonneg.2 hq.2), mul_nonneg (sub_nonneg.2 s1) (sub_nonneg.2 hp.2)]

theorem Inc.head {p q : F × F} {r : List (F × F)} (h : Inc (p :: q :: r)) : p.1 < q.1 := (List.pairwise_cons.1 h).1 q (by simp)
theorem Inc.tail {p : F × F} {r : List (F × F)} (h : Inc (p :: r)) : Inc r := (List.pairwise_cons.1 h).2

theorem Inc.le_head {q : F × F} {r : List (F × F)} (h : Inc (q :: r)) {s : F × F} (hs : s ∈ q :: r) : q.1 ≤ s.1 := by
  rcases List.mem_cons.1 hs with rfl | hs
  · exact le_rfl
  · exact ((List.pairwise_cons.1 h).1 s hs).le

theorem polygon_at (r : List (F × F)) : ∀ p q : F × F, Inc (p :: q :: r) → ∀ s ∈ p :: q :: r, polygon p q r s.1 = s.2 := by
  induction r with
  | nil =>
    intro p q h s hs
    simp only [List.mem_cons, List.not_mem_nil, or_false] at hs
    rcases hs with rfl | rfl
    · exact line_left h.head
    · exact line_right h.head
  | cons a t ih =>
    intro p q h s hs
    unfold polygon
    rcases List.mem_cons.1 hs with rfl | hs
    · rw [if_pos h.head, line_left h.head]
    · rw [if_neg (not_lt.2 (h.tail.le_head hs))]
      exact ih q a h.tail s hs

theorem polygon_between (r : List (F × F)) : ∀ (p q : F × F), Inc (p :: q :: r) → ∀ (i : Nat) (s s' : F × F), (p :: q :: r)[i]? = some s →
    (p :: q :: r)[i + 1]? = some s' → ∀ v, s.1 ≤ v → v ≤ s'.1 → polygon p q r v = line s s' v := by
  induction r with
  | nil =>
    intro p q h i s s' h1 h2 v _ _
    cases i with
    | zero => simp at h1 h2; subst h1; subst h2; rfl
    | succ i => simp at h2
  | cons a t ih =>
    intro p q h i s s' h1 h2 v h3 h4
    unfold polygon
    cases i with
    | zero =>
      simp at h1 h2; subst h1; subst h2
      split_ifs with hv
      · rfl
      · have : v = q.1 := le_antisymm h4 (not_lt.1 hv)
        subst this
        rw [line_right h.head]
        exact polygon_at t q a h.tail q (by simp)
    | succ i =>
      rw [List.getElem?_cons_succ] at h1 h2
      rw [if_neg (not_lt.2 ((h.tail.le_head (List.mem_of_getElem? h1)).trans h3))]
      exact ih q a h.tail i s s' h1 h2 v h3 h4

theorem polygon_first (r : List (F × F)) (p q : F × F) (h : Inc (p :: q :: r)) (v : F) (hv : v ≤ q.1) : polygon p q r v = line p q v := by
  cases r with
  | nil => rfl
  | cons a t =>
    unfold polygon
    split_ifs with h1
    · rfl
    · have : v = q.1 := le_antisymm hv (not_lt.1 h1)
      subst this
      rw [line_right h.head]
      exact polygon_at t q a h.tail q (by simp)

theorem polygon_last (r : List (F × F)) : ∀ (p q : F × F), Inc (p :: q :: r) → ∀ (i : Nat) (s s' : F × F), (p :: q :: r)[i]? = some s →
    (p :: q :: r)[i + 1]? = some s' → i + 2 = (p :: q :: r).length → ∀ v, s.1 ≤ v → polygon p q r v = line s s' v := by
  induction r with
  | nil =>
    intro p q h i s s' h1 h2 hl v _
    cases i with
    | zero => simp at h1 h2; subst h1; subst h2; rfl
    | succ i => simp at h2
  | cons a t ih =>
    intro p q h i s s' h1 h2 hl v h3
    unfold polygon
    cases i with
    | zero => simp at hl
    | succ i =>
      rw [List.getElem?_cons_succ] at h1 h2
      rw [if_neg (not_lt.2 ((h.tail.le_head (List.mem_of_getElem? h1)).trans h3))]
      exact ih q a h.tail i s s' h1 h2 (by simpa using hl) v h3

theorem polygon_mono (r : List (F × F)) : ∀ p q : F × F, Inc (p :: q :: r) → (p :: q :: r).Pairwise (fun a b => a.2 ≤ b.2) → Monotone (polygon p q r) := by
  induction r with
  | nil => intro p q h hy v w hv; exact line_mono h.head ((List.pairwise_cons.1 hy).1 q (by simp)) hv
  | cons a t ih =>
    intro p q h hy v w hv
    have hpq := (List.pairwise_cons.1 hy).1 q (by simp)
    have hi := ih q a h.tail (List.pairwise_cons.1 hy).2
    show (if _ then _ else _) ≤ (if _ then _ else _)
    split_ifs with h1 h2 h2
    · exact line_mono h.head hpq hv
    · have e1 : line p q v ≤ line p q q.1 := line_mono h.head hpq h1.le
      rw [line_right h.head] at e1
      have e2 := hi (not_lt.1 h2)
      rw [polygon_at t q a h.tail q (by simp)] at e2
      exact e1.trans e2
    · exact absurd (hv.trans_lt h2) h1
    · exact hi hv

theorem polygon_strict (r : List (F × F)) : ∀ p q : F × F, Inc (p :: q :: r) → (p :: q :: r).Pairwise (fun a b => a.2 < b.2) → StrictMono (polygon p q r) := by
  induction r with
  | nil => intro p q h hy v w hv; exact line_strict h.head ((List.pairwise_cons.1 hy).1 q (by simp)) hv
  | cons a t ih =>
    intro p q h hy v w hv
    have hpq := (List.pairwise_cons.1 hy).1 q (by simp)
    have hi := ih q a h.tail (List.pairwise_cons.1 hy).2
    show (if _ then _ else _) < (if _ then _ else _)
    split_ifs with h1 h2 h2
    · exact line_strict h.head hpq hv
    · have e1 : line p q v < line p q q.1 := line_strict h.head hpq h1
      rw [line_right h.head] at e1
      have e2 := hi.monotone (not_lt.1 h2)
      rw [polygon_at t q a h.tail q (by simp)] at e2
      exact e1.trans_le e2
    · exact absurd (hv.trans h2) h1
    · exact hi hv

/-- The table turned upside down. -/
def flip (p : F × F) : F × F := (p.1, -p.2)

omit [IsStrictOrderedRing F] in
theorem polygon_flip (r : List (F × F)) : ∀ (p q : F × F) (v : F), polygon (flip p) (flip q) (r.map flip) v = -polygon p q r v := by
  induction r with
  | nil => intro p q v; simp only [List.map_nil, polygon, line, flip]; ring
  | cons a t ih =>
    intro p q v
    simp only [List.map_cons, polygon]
    rw [ih]
    show (if v < q.1 then _ else _) = _
    split_ifs
    · simp only [flip, line]; ring
    · rfl

omit [IsStrictOrderedRing F] in
theorem Inc.flip {l : List (F × F)} (h : Inc l) : Inc (l.map Laws.flip) := by
  unfold Inc at *
  rw [List.pairwise_map]; exact h

theorem polygon_anti (r : List (F × F)) (p q : F × F) (h : Inc (p :: q :: r)) (hy : (p :: q :: r).Pairwise (fun a b => b.2 ≤ a.2)) : Antitone (polygon p q r) := by
  intro v w hv
  have h1 := polygon_mono (r.map flip) (flip p) (flip q) h.flip (by
    have : (p :: q :: r).map flip = flip p :: flip q :: r.map flip := rfl
    rw [← this, List.pairwise_map]
    exact hy.imp fun h => neg_le_neg h) hv
  rw [polygon_flip, polygon_flip] at h1
  exact neg_le_neg_iff.1 h1

theorem polygon_strict_anti (r : List (F × F)) (p q : F × F) (h : Inc (p :: q :: r)) (hy : (p :: q :: r).Pairwise (fun a b => b.2 < a.2)) :
    StrictAnti (polygon p q r) := by
  intro v w hv
  have h1 := polygon_strict (r.map flip) (flip p) (flip q) h.flip (by
    have : (p :: q :: r).map flip = flip p :: flip q :: r.map flip := rfl
    rw [← this, List.pairwise_map]
    exact hy.imp fun h => neg_lt_neg h) hv
  rw [polygon_flip, polygon_flip] at h1
  exact neg_lt_neg_iff.1 h1

theorem polygon_range (r : List (F × F)) : ∀ p q : F × F, Inc (p :: q :: r) → ∀ lo hi : F, (∀ s ∈ p :: q :: r, lo ≤ s.2 ∧ s.2 ≤ hi) →
    ∀ v, p.1 ≤ v → ∀ s ∈ p :: q :: r, v ≤ s.1 → lo ≤ polygon p q r v ∧ polygon p q r v ≤ hi := by
  induction r with
  | nil =>
    intro p q h lo hi hy v h1 s hs h2
    refine line_range h.head (hy p (by simp)) (hy q (by simp)) h1 ?_
    simp only [List.mem_cons, List.not_mem_nil, or_false] at hs
    rcases hs with rfl | rfl
    · exact h2.trans h.head.le
    · exact h2
  | cons a t ih =>
    intro p q h lo hi hy v h1 s hs h2
    unfold polygon
    split_ifs with h3
    · exact line_range h.head (hy p (by simp)) (hy q (by simp)) h1 h3.le
    · rcases List.mem_cons.1 hs with rfl | hs
      · exact absurd (h2.trans_lt h.head) h3
      · exact ih q a h.tail lo hi (fun s hs => hy s (List.mem_cons_of_mem _ hs)) v (not_lt.1 h3) s hs h2

end Verif.Laws
