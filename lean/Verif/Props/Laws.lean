import Verif.Proofs.Laws
import Mathlib.Topology.Order.Basic
import Mathlib.Topology.Instances.Real.Lemmas
import Mathlib.Topology.Order.OrderClosed
import Mathlib.Topology.Algebra.Field
import Mathlib.LinearAlgebra.Lagrange
import Mathlib.Tactic.LinearCombination

/-! Property C99: the physical laws. -/

namespace Verif.Props
open Verif Laws
variable {F : Type} [Field F] [LinearOrder F] [IsStrictOrderedRing F]

omit [IsStrictOrderedRing F] in
theorem law_points {t : Table F} {f : F → F} (h : linearLaw t = .ok f) : ∃ p q r, t.x.zip t.y = p :: q :: r ∧ f = polygon p q r ∧ Inc (p :: q :: r) ∧
    t.x.length = t.y.length := by
  unfold linearLaw at h
  split_ifs at h with h1 h2
  split at h
  · next p q r e =>
    refine ⟨p, q, r, e, (Except.ok.inj h).symm, ?_, not_not.1 h1⟩
    have hs : t.x.Pairwise (· < ·) := List.isChain_iff_pairwise.1 h2
    have hx : (t.x.zip t.y).map Prod.fst = t.x := List.map_fst_zip (by rw [not_not.1 h1])
    rw [← hx, List.pairwise_map, e] at hs
    exact hs
  · cases h

omit [IsStrictOrderedRing F] in
/-- A law can be made from a table exactly if it has two lists of the same length, at least two, and the first one increases. -/
theorem C99_made (t : Table F) : (∃ f, linearLaw t = .ok f) ↔ t.x.length = t.y.length ∧ t.x.Pairwise (· < ·) ∧ 2 ≤ t.x.length := by
  constructor
  · rintro ⟨f, h⟩
    obtain ⟨p, q, r, e, -, hi, hl⟩ := law_points h
    have hx : (t.x.zip t.y).map Prod.fst = t.x := List.map_fst_zip (by rw [hl])
    refine ⟨hl, ?_, ?_⟩
    · rw [← hx, List.pairwise_map, e]; exact hi
    · rw [← hx, e]; simp
  · rintro ⟨h1, h2, h3⟩
    unfold linearLaw
    rw [if_neg (not_not.2 h1), if_neg (not_not.2 (List.isChain_iff_pairwise.2 h2))]
    have hx : (t.x.zip t.y).length = t.x.length := by simp [h1]
    match e : t.x.zip t.y with
    | [] => rw [e] at hx; simp at hx; omega
    | [a] => rw [e] at hx; simp at hx; omega
    | p :: q :: r => exact ⟨_, rfl⟩

theorem zip_at {x y : List F} {i : Nat} {a b : F} (ha : x[i]? = some a) (hb : y[i]? = some b) : (x.zip y)[i]? = some (a, b) := by
  rw [List.getElem?_zip_eq_some]; exact ⟨ha, hb⟩

/-- The law has the values of the table. -/
theorem C99_table {t : Table F} {f : F → F} (h : linearLaw t = .ok f) {i : Nat} {a b : F} (ha : t.x[i]? = some a) (hb : t.y[i]? = some b) : f a = b := by
  obtain ⟨p, q, r, e, rfl, hi, -⟩ := law_points h
  have := zip_at ha hb
  rw [e] at this
  exact polygon_at r p q hi _ (List.mem_of_getElem? this)

/-- Between two neighbours in the table it is the straight line. -/
theorem C99_between {t : Table F} {f : F → F} (h : linearLaw t = .ok f) {i : Nat} {a a' b b' v : F} (ha : t.x[i]? = some a) (hb : t.y[i]? = some b)
    (ha' : t.x[i + 1]? = some a') (hb' : t.y[i + 1]? = some b') (h1 : a ≤ v) (h2 : v ≤ a') : f v = b + (b' - b) * ((v - a) / (a' - a)) := by
  obtain ⟨p, q, r, e, rfl, hi, -⟩ := law_points h
  have e1 := zip_at ha hb
  have e2 := zip_at ha' hb'
  rw [e] at e1 e2
  rw [polygon_between r p q hi i _ _ e1 e2 v h1 h2]
  have hlt : a < a' := by
    obtain ⟨q1, q2⟩ := List.getElem?_eq_some_iff.1 e1
    obtain ⟨q3, q4⟩ := List.getElem?_eq_some_iff.1 e2
    have := List.pairwise_iff_getElem.1 hi i (i + 1) q1 q3 (by omega)
    rw [q2, q4] at this
    exact this
  exact line_eq (p := (a, b)) (q := (a', b')) hlt v

/-- Outside the table the first and the last line go on. -/
theorem C99_outside {t : Table F} {f : F → F} (h : linearLaw t = .ok f) {i : Nat} {a a' b b' v : F} (ha : t.x[i]? = some a) (hb : t.y[i]? = some b)
    (ha' : t.x[i + 1]? = some a') (hb' : t.y[i + 1]? = some b') (ho : i = 0 ∧ v ≤ a ∨ i + 2 = t.x.length ∧ a' ≤ v) :
    f v = b + (b' - b) * ((v - a) / (a' - a)) := by
  obtain ⟨p, q, r, e, rfl, hi, hl⟩ := law_points h
  have e1 := zip_at ha hb
  have e2 := zip_at ha' hb'
  have hlen : (t.x.zip t.y).length = t.x.length := by simp [hl]
  rw [e] at e1 e2 hlen
  have hlt : a < a' := by
    obtain ⟨q1, q2⟩ := List.getElem?_eq_some_iff.1 e1
    obtain ⟨q3, q4⟩ := List.getElem?_eq_some_iff.1 e2
    have := List.pairwise_iff_getElem.1 hi i (i + 1) q1 q3 (by omega)
    rw [q2, q4] at this
    exact this
  rw [← line_eq (p := (a, b)) (q := (a', b')) hlt v]
  rcases ho with ⟨rfl, hv⟩ | ⟨hi', hv⟩
  · simp only [List.getElem?_cons_zero, Option.some.injEq, Nat.zero_add, List.getElem?_cons_succ] at e1 e2
    rw [polygon_first r p q hi v (by rw [e2]; exact hv.trans hlt.le), e1, e2]
  · exact polygon_last r p q hi i _ _ e1 e2 (by rw [hlen]; exact hi') v (hlt.le.trans hv)

omit [Field F] [IsStrictOrderedRing F] in
theorem snd_pairwise {x y : List F} (hl : x.length = y.length) {P : F → F → Prop} (h : y.Pairwise P) : (x.zip y).Pairwise (fun a b => P a.2 b.2) := by
  have hx : (x.zip y).map Prod.snd = y := List.map_snd_zip (by rw [hl])
  rw [← hx, List.pairwise_map] at h
  exact h

/-- A table with rising values gives a rising law, also outside the table; the same for falling values. -/
theorem C99_monotone {t : Table F} {f : F → F} (h : linearLaw t = .ok f) :
    (t.y.Pairwise (· ≤ ·) → Monotone f) ∧ (t.y.Pairwise (· ≥ ·) → Antitone f) ∧ (t.y.Pairwise (· < ·) → StrictMono f) ∧
      (t.y.Pairwise (· > ·) → StrictAnti f) := by
  obtain ⟨p, q, r, e, rfl, hi, hl⟩ := law_points h
  have key : ∀ {P : F → F → Prop}, t.y.Pairwise P → (p :: q :: r).Pairwise (fun a b => P a.2 b.2) := fun hP => by
    rw [← e]; exact snd_pairwise hl hP
  exact ⟨fun h => polygon_mono r p q hi (key h), fun h => polygon_anti r p q hi (key h), fun h => polygon_strict r p q hi (key h),
    fun h => polygon_strict_anti r p q hi (key h)⟩

/-- Missing for the full property (values of a law stay within the values of the table): arguments outside the table. -/
theorem C99_range_partial {t : Table F} {f : F → F} (h : linearLaw t = .ok f) {lo hi : F} (hy : ∀ y ∈ t.y, lo ≤ y ∧ y ≤ hi) {a a' v : F}
    (ha : a ∈ t.x) (ha' : a' ∈ t.x) (h1 : a ≤ v) (h2 : v ≤ a') : lo ≤ f v ∧ f v ≤ hi := by
  obtain ⟨p, q, r, e, rfl, hinc, hl⟩ := law_points h
  have hx : (t.x.zip t.y).map Prod.fst = t.x := List.map_fst_zip (by rw [hl])
  have hyy : (t.x.zip t.y).map Prod.snd = t.y := List.map_snd_zip (by rw [hl])
  rw [e] at hx hyy
  rw [← hx] at ha ha'
  obtain ⟨s, hs, rfl⟩ := List.mem_map.1 ha
  obtain ⟨s', hs', rfl⟩ := List.mem_map.1 ha'
  refine polygon_range r p q hinc lo hi (fun s hs => hy _ (by rw [← hyy]; exact List.mem_map_of_mem hs)) v ((hinc.le_head hs).trans h1) s' hs' h2

theorem polygon_continuous (r : List (ℝ × ℝ)) : ∀ p q : ℝ × ℝ, Inc (p :: q :: r) → Continuous (polygon p q r) := by
  have hl : ∀ p q : ℝ × ℝ, Continuous (line p q) := by
    intro p q
    unfold line
    fun_prop
  induction r with
  | nil => intro p q _; exact hl p q
  | cons a t ih =>
    intro p q h
    have : polygon p q (a :: t) = fun v => if q.1 ≤ v then polygon q a t v else line p q v := by
      funext v
      show (if _ then _ else _) = _
      by_cases hv : v < q.1
      · rw [if_pos hv, if_neg (not_le.2 hv)]
      · rw [if_neg hv, if_pos (not_lt.1 hv)]
    rw [this]
    refine Continuous.if_le (ih q a h.tail) (hl p q) continuous_const continuous_id ?_
    rintro v rfl
    rw [line_right h.head]
    exact polygon_at t q a h.tail q (by simp)

/-- The law is continuous. -/
theorem C99_continuous {t : Table ℝ} {f : ℝ → ℝ} (h : linearLaw t = .ok f) : Continuous f := by
  obtain ⟨p, q, r, -, rfl, hi, -⟩ := law_points h
  exact polygon_continuous r p q hi

/-- The sum of squares that `curve_fit` makes as small as possible. -/
def squares {P : Type} (t : Table F) (func : F → P → F) (p : P) : F := ((t.x.zip t.y).map (fun a => (func a.1 p - a.2) ^ 2)).sum

theorem squares_zero {P : Type} (t : Table F) (func : F → P → F) (p : P) : 0 ≤ squares t func p ∧
    (squares t func p = 0 ↔ ∀ a ∈ t.x.zip t.y, func a.1 p = a.2) := by
  unfold squares
  induction t.x.zip t.y with
  | nil => simp
  | cons a l ih =>
    simp only [List.map_cons, List.sum_cons, List.mem_cons, forall_eq_or_imp]
    have h0 := sq_nonneg (func a.1 p - a.2)
    refine ⟨add_nonneg h0 ih.1, ?_⟩
    rw [add_eq_zero_iff_of_nonneg h0 ih.1, ih.2, pow_eq_zero_iff two_ne_zero, sub_eq_zero]

/-- A fitted law has the values of the table whenever a function of its kind has, provided that `curve_fit` finds a minimum. -/
theorem C99_fitted {P : Type} (fit : (F → P → F) → Table F → P) (t : Table F) (func : F → P → F)
    (hmin : ∀ p, squares t func (fit func t) ≤ squares t func p) (p : P) (hp : ∀ (i : Nat) a b, t.x[i]? = some a → t.y[i]? = some b → func a p = b)
    {i : Nat} {a b : F} (ha : t.x[i]? = some a) (hb : t.y[i]? = some b) : funcLaw fit t func a = b := by
  have h0 : squares t func p = 0 := by
    rw [(squares_zero t func p).2]
    intro s hs
    obtain ⟨j, hj⟩ := List.getElem?_of_mem hs
    rw [List.getElem?_zip_eq_some] at hj
    exact hp j _ _ hj.1 hj.2
  have h1 : squares t func (fit func t) = 0 := le_antisymm (h0 ▸ hmin p) (squares_zero t func _).1
  exact ((squares_zero t func _).2.1 h1) (a, b) (List.mem_of_getElem? (zip_at ha hb))

/-- The polynomial with the coefficients `a :: l` in descending order. -/
noncomputable def poly (l : List F) : Polynomial F := l.foldl (fun p a => p * Polynomial.X + Polynomial.C a) 0

theorem poly_eval (l : List F) (x : F) : (poly l).eval x = l.foldl (fun y a => y * x + a) 0 := by
  unfold poly
  suffices h : ∀ (q : Polynomial F) (y : F), q.eval x = y →
      (l.foldl (fun p a => p * Polynomial.X + Polynomial.C a) q).eval x = l.foldl (fun y a => y * x + a) y from h 0 0 (by simp)
  induction l with
  | nil => exact fun q y h => h
  | cons a l ih => exact fun q y h => ih _ _ (by simp [h])

theorem poly_degree (l : List F) : (poly l).degree < (l.length : WithBot ℕ) ∨ (l = []) := by
  unfold poly
  suffices h : ∀ (q : Polynomial F) (n : ℕ), q.degree < (n : WithBot ℕ) →
      (l.foldl (fun p a => p * Polynomial.X + Polynomial.C a) q).degree < ((n + l.length : ℕ) : WithBot ℕ) by
    cases l with
    | nil => exact Or.inr rfl
    | cons a l =>
      left
      have := h 0 0 (by simp)
      simpa using this
  induction l with
  | nil => exact fun q n h => by simpa using h
  | cons a l ih =>
    intro q n h
    have h1 : (q * Polynomial.X + Polynomial.C a).degree < ((n + 1 : ℕ) : WithBot ℕ) := by
      rw [Polynomial.degree_lt_iff_coeff_zero]
      intro m hm
      have h2 : ∀ k ≥ n, q.coeff k = 0 := (Polynomial.degree_lt_iff_coeff_zero _ _).1 h
      obtain ⟨k, rfl⟩ : ∃ k, m = k + 1 := ⟨m - 1, by omega⟩
      rw [Polynomial.coeff_add, Polynomial.coeff_mul_X, Polynomial.coeff_C_succ, h2 k (by omega), add_zero]
    have := ih _ _ h1
    rw [List.length_cons, show n + (l.length + 1) = n + 1 + l.length by omega]
    exact this

/-- Two polynomials with as many coefficients as there are places where they agree, or fewer, are the same. -/
theorem horner_unique {l m : List F} {xs : Finset F} (hl : l.length ≤ xs.card) (hm : m.length ≤ xs.card)
    (h : ∀ x ∈ xs, l.foldl (fun y a => y * x + a) 0 = m.foldl (fun y a => y * x + a) 0) (x : F) :
    l.foldl (fun y a => y * x + a) 0 = m.foldl (fun y a => y * x + a) 0 := by
  have hd : ∀ k : List F, k.length ≤ xs.card → (poly k).degree < (xs.card : WithBot ℕ) := by
    intro k hk
    rcases poly_degree k with h | rfl
    · exact lt_of_lt_of_le h (by exact_mod_cast hk)
    · unfold poly
      simp
  rw [← poly_eval, ← poly_eval, Polynomial.eq_of_degrees_lt_of_eval_finset_eq xs (hd l hl) (hd m hm)]
  intro x hx
  rw [poly_eval, poly_eval]
  exact h x hx

/-- The polynomial law fitted to a table of values of a polynomial of its degree, at sufficiently many places, is that polynomial everywhere. -/
theorem C99_polynomial (t : Table F) (hc : t.x.Pairwise (· < ·)) :
    (∀ (fit : (F → (F × F × F × F) → F) → Table F → F × F × F × F) (a b c d : F),
      let func : F → (F × F × F × F) → F := fun x p => cubic x p.1 p.2.1 p.2.2.1 p.2.2.2
      4 ≤ t.x.length → t.y = t.x.map (fun x => a * x ^ 3 + b * x ^ 2 + c * x + d) →
      (∀ p, squares t func (fit func t) ≤ squares t func p) → ∀ x, funcLaw fit t func x = a * x ^ 3 + b * x ^ 2 + c * x + d) ∧
    (∀ (fit : (F → (F × F × F × F × F) → F) → Table F → F × F × F × F × F) (a b c d e : F),
      let func : F → (F × F × F × F × F) → F := fun x p => quadro x p.1 p.2.1 p.2.2.1 p.2.2.2.1 p.2.2.2.2
      5 ≤ t.x.length → t.y = t.x.map (fun x => a * x ^ 4 + b * x ^ 3 + c * x ^ 2 + d * x + e) →
      (∀ p, squares t func (fit func t) ≤ squares t func p) → ∀ x, funcLaw fit t func x = a * x ^ 4 + b * x ^ 3 + c * x ^ 2 + d * x + e) := by
  classical
  have hnd : t.x.Nodup := hc.imp (fun h => h.ne)
  have hcard : t.x.toFinset.card = t.x.length := List.toFinset_card_of_nodup hnd
  constructor
  · intro fit a b c d func h4 hy hmin x
    have h1 := fun (i : Nat) (u v : F) => C99_fitted (i := i) (a := u) (b := v) fit t func hmin (a, b, c, d) (by
      intro i u v hu hv
      rw [hy, List.getElem?_map, hu] at hv
      simpa [func, cubic] using hv)
    rcases hq : fit func t with ⟨a', b', c', d'⟩
    have := horner_unique (l := [a', b', c', d']) (m := [a, b, c, d]) (xs := t.x.toFinset) (by simp [hcard, h4]) (by simp [hcard, h4]) (by
      intro u hu
      obtain ⟨i, hi⟩ := List.getElem?_of_mem (List.mem_toFinset.1 hu)
      have := h1 i u (a * u ^ 3 + b * u ^ 2 + c * u + d) hi (by rw [hy, List.getElem?_map, hi]; rfl)
      rw [funcLaw, hq] at this
      simp only [func, cubic] at this
      simp only [List.foldl_cons, List.foldl_nil]
      linear_combination this) x
    simp only [List.foldl_cons, List.foldl_nil] at this
    rw [funcLaw, hq]
    simp only [func, cubic]
    linear_combination this
  · intro fit a b c d e func h5 hy hmin x
    have h1 := fun (i : Nat) (u v : F) => C99_fitted (i := i) (a := u) (b := v) fit t func hmin (a, b, c, d, e) (by
      intro i u v hu hv
      rw [hy, List.getElem?_map, hu] at hv
      simpa [func, quadro] using hv)
    rcases hq : fit func t with ⟨a', b', c', d', e'⟩
    have := horner_unique (l := [a', b', c', d', e']) (m := [a, b, c, d, e]) (xs := t.x.toFinset) (by simp [hcard, h5]) (by simp [hcard, h5]) (by
      intro u hu
      obtain ⟨i, hi⟩ := List.getElem?_of_mem (List.mem_toFinset.1 hu)
      have := h1 i u (a * u ^ 4 + b * u ^ 3 + c * u ^ 2 + d * u + e) hi (by rw [hy, List.getElem?_map, hi]; rfl)
      rw [funcLaw, hq] at this
      simp only [func, quadro] at this
      simp only [List.foldl_cons, List.foldl_nil]
      linear_combination this) x
    simp only [List.foldl_cons, List.foldl_nil] at this
    rw [funcLaw, hq]
    simp only [func, quadro]
    linear_combination this

/-- A table with one value only gives the constant law. -/
theorem C99_constant {t : Table F} {f : F → F} (h : linearLaw t = .ok f) {y : F} (hy : ∀ b ∈ t.y, b = y) (x : F) : f x = constLaw y x := by
  have key : ∀ (r : List (F × F)) (p q : F × F), ((p :: q :: r).map Prod.fst).IsChain (· < ·) → (∀ s ∈ p :: q :: r, s.2 = y) → polygon p q r x = y := by
    intro r
    induction r with
    | nil =>
      intro p q hc hs
      have h1 : q.1 - p.1 ≠ 0 := by
        simp only [List.map_cons, List.map_nil, List.isChain_cons_cons] at hc
        exact (sub_pos.2 hc.1).ne'
      rw [polygon, line, hs p (by simp), hs q (by simp)]
      field_simp
      ring
    | cons s r ih =>
      intro p q hc hs
      rw [polygon]
      split
      · have h1 : q.1 - p.1 ≠ 0 := by
          simp only [List.map_cons, List.isChain_cons_cons] at hc
          exact (sub_pos.2 hc.1).ne'
        rw [line, hs p (by simp), hs q (by simp)]
        field_simp
        ring
      · refine ih q s ?_ (fun a ha => hs a (List.mem_cons_of_mem _ ha))
        simp only [List.map_cons, List.isChain_cons_cons] at hc ⊢
        exact hc.2
  unfold linearLaw at h
  split at h
  · simp at h
  · split at h
    · simp at h
    · rename_i hl hc
      split at h
      · rename_i p q r e
        injection h with h
        rw [← h]
        refine key r p q ?_ ?_
        · rw [← e, List.map_fst_zip (by omega)]
          exact not_not.1 hc
        · intro s hs
          rw [← e] at hs
          exact hy _ (List.of_mem_zip hs).2
      · simp at h

example : ∃ f, linearLaw (F := ℚ) ⟨[0, 1, 3], [2, 2, 2]⟩ = .ok f := ⟨_, by simp [linearLaw]; rfl⟩

/-- Four values at different places determine a cubic law, and `_cubic` has all of them: a sample of the hypotheses. -/
example : ∃ (fit : (ℚ → (ℚ × ℚ × ℚ × ℚ) → ℚ) → Table ℚ → ℚ × ℚ × ℚ × ℚ),
    let func : ℚ → (ℚ × ℚ × ℚ × ℚ) → ℚ := fun x p => cubic x p.1 p.2.1 p.2.2.1 p.2.2.2
    let t : Table ℚ := ⟨[0, 1, 2, 3], [0, 1, 8, 27]⟩
    (∀ p, squares t func (fit func t) ≤ squares t func p) ∧ funcLaw fit t func 5 = 125 := by
  refine ⟨fun _ _ => (1, 0, 0, 0), fun p => ?_, by decide +kernel⟩
  have : squares (F := ℚ) ⟨[0, 1, 2, 3], [0, 1, 8, 27]⟩ (fun x p : _ => cubic x p.1 p.2.1 p.2.2.1 p.2.2.2) ((1, 0, 0, 0) : ℚ × ℚ × ℚ × ℚ) = 0 := by decide +kernel
  rw [this]
  exact (squares_zero _ _ p).1

/-! ### The tables of the program -/

/-- The bounds of a table. -/
def tableCheck (t : Table ℚ) (lo hi : ℚ) : Bool :=
  decide (t.x.length = t.y.length) && decide (t.x.Pairwise (· < ·)) && decide (2 ≤ t.x.length) && t.y.all (fun y => decide (lo ≤ y) && decide (y ≤ hi))

theorem tableCheck_sound {t : Table ℚ} {lo hi : ℚ} (h : tableCheck t lo hi = true) : ∃ f, linearLaw t = .ok f ∧
    ∀ a ∈ t.x, ∀ a' ∈ t.x, ∀ v, a ≤ v → v ≤ a' → lo ≤ f v ∧ f v ≤ hi := by
  simp only [tableCheck, Bool.and_eq_true, decide_eq_true_eq, List.all_eq_true] at h
  obtain ⟨f, hf⟩ := (C99_made t).2 ⟨h.1.1.1, h.1.1.2, h.1.2⟩
  exact ⟨f, hf, fun a ha a' ha' v h1 h2 => C99_range_partial hf h.2 ha ha' h1 h2⟩

/-- All tables of the program give laws, which are within the bounds of the table for all temperatures of the table. -/
theorem C99_tables :
    (∃ f, linearLaw waterDynamicViscosity = .ok f ∧ StrictAnti f ∧ ∀ v, 0 ≤ v → v ≤ 100 → 0.282e-3 ≤ f v ∧ f v ≤ 1.787e-3) ∧
    (∃ f, linearLaw waterSpecificHeatCapacity = .ok f ∧ Antitone f ∧ ∀ v, -9 ≤ v → v ≤ 29 → 4182 ≤ f v ∧ f v ≤ 4267) ∧
    (∃ f, linearLaw iceSpecificHeatCapacity = .ok f ∧ StrictMono f ∧ ∀ v, -28 ≤ v → v ≤ -10 → 1892 ≤ f v ∧ f v ≤ 2031) ∧
    (∃ f, linearLaw airSpecificHeatCapacity = .ok f ∧ ∀ v, -50 ≤ v → v ≤ 550 → 1005 ≤ f v ∧ f v ≤ 1104) ∧
    (∃ f, linearLaw vaporizationSpecificHeat = .ok f ∧ StrictAnti f ∧ ∀ v, 0 ≤ v → v ≤ 374.15 → 0 ≤ f v ∧ f v ≤ 2500) ∧
    (∃ f, linearLaw sublimationSpecificHeat = .ok f ∧ StrictAnti f ∧ ∀ v, -39 ≤ v → v ≤ 0 → 2834000 ≤ f v ∧ f v ≤ 2924100) := by
  refine ⟨?_, ?_, ?_, ?_, ?_, ?_⟩
  · obtain ⟨f, h1, h2⟩ := tableCheck_sound (t := waterDynamicViscosity) (lo := 0.282e-3) (hi := 1.787e-3) (by decide +kernel)
    exact ⟨f, h1, (C99_monotone h1).2.2.2 (by decide +kernel), h2 0 (by decide +kernel) 100 (by decide +kernel)⟩
  · obtain ⟨f, h1, h2⟩ := tableCheck_sound (t := waterSpecificHeatCapacity) (lo := 4182) (hi := 4267) (by decide +kernel)
    exact ⟨f, h1, (C99_monotone h1).2.1 (by decide +kernel), h2 (-9) (by decide +kernel) 29 (by decide +kernel)⟩
  · obtain ⟨f, h1, h2⟩ := tableCheck_sound (t := iceSpecificHeatCapacity) (lo := 1892) (hi := 2031) (by decide +kernel)
    exact ⟨f, h1, (C99_monotone h1).2.2.1 (by decide +kernel), h2 (-28) (by decide +kernel) (-10) (by decide +kernel)⟩
  · obtain ⟨f, h1, h2⟩ := tableCheck_sound (t := airSpecificHeatCapacity) (lo := 1005) (hi := 1104) (by decide +kernel)
    exact ⟨f, h1, h2 (-50) (by decide +kernel) 550 (by decide +kernel)⟩
  · obtain ⟨f, h1, h2⟩ := tableCheck_sound (t := vaporizationSpecificHeat) (lo := 0) (hi := 2500) (by decide +kernel)
    exact ⟨f, h1, (C99_monotone h1).2.2.2 (by decide +kernel), h2 0 (by decide +kernel) 374.15 (by decide +kernel)⟩
  · obtain ⟨f, h1, h2⟩ := tableCheck_sound (t := sublimationSpecificHeat) (lo := 2834000) (hi := 2924100) (by decide +kernel)
    exact ⟨f, h1, (C99_monotone h1).2.2.2 (by decide +kernel), h2 (-39) (by decide +kernel) 0 (by decide +kernel)⟩

/-- Water of 190 degrees (under pressure) has a negative viscosity. -/
theorem C99_viscosity_violation : ∃ f, linearLaw waterDynamicViscosity = .ok f ∧ f 190 < 0 := by
  obtain ⟨f, hf, -⟩ := C99_tables.1
  refine ⟨f, hf, ?_⟩
  rw [C99_outside hf (i := 10) (a := 90) (a' := 100) (b := 0.315e-3) (b' := 0.282e-3) (by decide +kernel) (by decide +kernel) (by decide +kernel)
    (by decide +kernel) (Or.inr ⟨by decide +kernel, by norm_num⟩)]
  norm_num

/-- The heats of vaporization and sublimation are in different units: at 0 degrees the second one is a thousand times the first one. -/
theorem C99_units_violation : ∃ f g, linearLaw vaporizationSpecificHeat = .ok f ∧ linearLaw sublimationSpecificHeat = .ok g ∧ 1000 * f 0 < g 0 := by
  obtain ⟨f, hf, -⟩ := C99_tables.2.2.2.2.1
  obtain ⟨g, hg, -⟩ := C99_tables.2.2.2.2.2
  refine ⟨f, g, hf, hg, ?_⟩
  rw [C99_table hf (i := 0) (a := 0) (b := 2500) (by decide +kernel) (by decide +kernel),
    C99_table hg (i := 39) (a := 0) (b := 676.9 * kilocalorie) (by decide +kernel) (by decide +kernel)]
  decide +kernel

end Verif.Props
