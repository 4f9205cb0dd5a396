import Verif.Proofs.Predicates
import Verif.Proofs.Geom

/-! # Properties C87–C92: predicates of points and triangles

The theorems are about exact real numbers: `sqrt`, `arccos` and `rad2deg` are the functions of analysis. -/

namespace Verif.Props
open Verif.Spec

/-- `numpy.rad2deg`. -/
noncomputable def deg (x : ℝ) : ℝ := x * 180 / Real.pi

/-! ### C87: angles -/

/-- The angle between two vectors that are not zero is the angle of Euclidean geometry, in degrees. -/
theorem C87_angle {u v : Vec ℝ} (hu : toE u ≠ 0) (hv : toE v ≠ 0) :
    u.angleDeg Real.sqrt Real.arccos deg v = .ok (InnerProductGeometry.angle (toE u) (toE v) * 180 / Real.pi) := angleDeg_ok deg hu hv

/-- With a zero vector the angle raises `ZeroDivisionError`. -/
theorem C87_zero {u v : Vec ℝ} (h : toE u = 0 ∨ toE v = 0) : u.angleDeg Real.sqrt Real.arccos deg v = .error .zeroDiv :=
  angleDeg_zero deg h

/-- For three different corners `all_corners_smaller(x)` answers whether all three angles of the triangle are less than `x` degrees. -/
theorem C87_corners {t : Tri ℝ} (hab : t.a ≠ t.b) (hbc : t.b ≠ t.c) (hca : t.c ≠ t.a) (x : ℝ) :
    ∃ r, t.allCornersSmaller Real.sqrt Real.arccos deg x = .ok r ∧ (r = true ↔
      EuclideanGeometry.angle (toE t.b) (toE t.a) (toE t.c) * 180 / Real.pi < x ∧
      EuclideanGeometry.angle (toE t.a) (toE t.b) (toE t.c) * 180 / Real.pi < x ∧
      EuclideanGeometry.angle (toE t.a) (toE t.c) (toE t.b) * 180 / Real.pi < x) := by
  unfold Tri.allCornersSmaller
  rw [angleDeg_ok deg (sub_ne hab.symm) (sub_ne hca), angleDeg_ok deg (sub_ne hab) (sub_ne hbc.symm), angleDeg_ok deg (sub_ne hca.symm) (sub_ne hbc)]
  refine ⟨_, rfl, ?_⟩
  simp only [Bool.and_eq_true, decide_eq_true_eq, toE_sub, deg, EuclideanGeometry.angle, vsub_eq_sub, and_assoc]

/-- With two equal corners it raises `ZeroDivisionError`. -/
theorem C87_equal_corners {t : Tri ℝ} (h : t.a = t.b ∨ t.b = t.c ∨ t.c = t.a) (x : ℝ) :
    t.allCornersSmaller Real.sqrt Real.arccos deg x = .error .zeroDiv := by
  unfold Tri.allCornersSmaller
  by_cases hab : t.a = t.b
  · rw [angleDeg_zero deg (.inl (by rw [hab]; exact sub_self_eq _))]; rfl
  · by_cases hca : t.c = t.a
    · rw [angleDeg_zero deg (.inr (by rw [hca]; exact sub_self_eq _))]; rfl
    · have hbc : t.b = t.c := by tauto
      rw [angleDeg_ok deg (sub_ne (Ne.symm hab)) (sub_ne hca), angleDeg_zero deg (.inr (by rw [hbc]; exact sub_self_eq _))]; rfl

/-- No triangle has all corners smaller than 60 degrees, and all triangles with different corners have them smaller than any bound above 180. -/
theorem C87_bounds {t : Tri ℝ} (hab : t.a ≠ t.b) (hbc : t.b ≠ t.c) (hca : t.c ≠ t.a) :
    (∀ x ≤ 60, t.allCornersSmaller Real.sqrt Real.arccos deg x = .ok false) ∧
    ∀ x, 180 < x → t.allCornersSmaller Real.sqrt Real.arccos deg x = .ok true := by
  have hpi := Real.pi_pos
  constructor
  · intro x hx
    obtain ⟨r, e, hr⟩ := C87_corners hab hbc hca x
    rw [e]
    cases r with
    | false => rfl
    | true =>
      exfalso
      obtain ⟨h1, h2, h3⟩ := hr.1 rfl
      have hs := EuclideanGeometry.angle_add_angle_add_angle_eq_pi (p₁ := toE t.a) (p₂ := toE t.b) (toE t.c)
        (fun e => hab (toE_inj e).symm)
      rw [EuclideanGeometry.angle_comm (toE t.b) (toE t.c), EuclideanGeometry.angle_comm (toE t.c) (toE t.a)] at hs
      rw [div_lt_iff₀ hpi] at h1 h2 h3
      nlinarith
  · intro x hx
    obtain ⟨r, e, hr⟩ := C87_corners hab hbc hca x
    rw [e, hr.2]
    have k (p q s : EuclideanSpace ℝ (Fin 3)) : EuclideanGeometry.angle p q s * 180 / Real.pi < x := by
      rw [div_lt_iff₀ hpi]
      have := EuclideanGeometry.angle_le_pi p q s
      nlinarith
    exact ⟨k _ _ _, k _ _ _, k _ _ _⟩

/-- A right-angled triangle. -/
noncomputable def unit : Tri ℝ := ⟨0, ⟨0, 0, 0⟩, ⟨1, 0, 0⟩, ⟨0, 1, 0⟩, none⟩

example : unit.a ≠ unit.b ∧ unit.b ≠ unit.c ∧ unit.c ≠ unit.a := by simp [unit]

/-- Its angle at the first corner has 90 degrees. -/
example : (unit.b.sub unit.a).angleDeg Real.sqrt Real.arccos deg (unit.c.sub unit.a) = .ok 90 := by
  rw [C87_angle (sub_ne (by simp [unit])) (sub_ne (by simp [unit])),
    (InnerProductGeometry.inner_eq_zero_iff_angle_eq_pi_div_two _ _).1 (by rw [← dot_eq]; simp [unit, Vec.sub, Vec.dot])]
  congr 1
  field_simp
  norm_num

/-! ### C88: position of a point in a triangle -/

/-- Every point of space has a position relative to a triangle that is not degenerate. -/
theorem C88_place {t : Tri ℝ} (hp : Proper t.a t.b t.c) (p : Vec ℝ) : ∃ k l m h, Place t.a t.b t.c p k l m h := place_exists hp p

/-- Missing for C88: small triangles, see `C88_small_violation`. For a triangle with an area of at least 0.15 and a point of it: the
result is the number of weights that are not zero (3 inside, 2 on a side, 1 in a corner), provided the parts of the triangle opposite
to these weights do not round to zero. `round10` may be any rounding to the nearest multiple of 1e-10. -/
theorem C88_inside_partial {round10 : ℝ → ℝ} (hr : ∀ x, |round10 x - x| ≤ 1 / 2 * (1 / 10 ^ 10)) (h0 : round10 0 = 0) {t : Tri ℝ} {p : Vec ℝ}
    {k l m : ℝ} (hw : Weights k l m t.a t.b t.c p) (hk : 0 ≤ k) (hl : 0 ≤ l) (hm : 0 ≤ m) (hA : 15 / 100 ≤ t.area Real.sqrt)
    (hs : ∀ w ∈ [k, l, m], w ≠ 0 → 1 / 2 * (1 / 10 ^ 10) < w * t.area Real.sqrt) :
    t.pointInTriangle Real.sqrt round10 p = (if k = 0 then 0 else 1) + (if l = 0 then 0 else 1) + (if m = 0 then 0 else 1) := by
  have H : Place t.a t.b t.c p k l m 0 := ⟨hw.1, by rw [hw.2.1]; ring, by rw [hw.2.2.1]; ring, by rw [hw.2.2.2]; ring⟩
  obtain ⟨e1, e2, e3⟩ := areas H
  have sq (w e : ℝ) (hw : 0 ≤ w) : Real.sqrt (w ^ 2 + 0 ^ 2 * e) = w := by
    rw [show w ^ 2 + 0 ^ 2 * e = w ^ 2 by ring, Real.sqrt_sq hw]
  rw [sq _ _ hm] at e1; rw [sq _ _ hl] at e2; rw [sq _ _ hk] at e3
  have fl (w : ℝ) (hw : w ∈ [k, l, m]) (h : 0 ≤ w) : Tri.flag (round10 (w * t.area Real.sqrt)) = if w = 0 then 0 else 1 := by
    unfold Tri.flag
    by_cases hw0 : w = 0
    · rw [hw0, zero_mul, h0]
    · rw [if_neg hw0, if_neg]
      intro e
      have h1 := hr (w * t.area Real.sqrt)
      rw [e, zero_sub, abs_neg, abs_of_nonneg (by positivity)] at h1
      exact absurd (hs w hw hw0) (not_lt.2 h1)
  unfold Tri.pointInTriangle
  simp only [e1, e2, e3]
  rw [fl k (by simp) hk, fl l (by simp) hl, fl m (by simp) hm, if_pos]
  · ring
  · unfold Py.isClose
    rw [decide_eq_true_eq]
    have r1 := abs_le.1 (hr (m * t.area Real.sqrt))
    have r2 := abs_le.1 (hr (l * t.area Real.sqrt))
    have r3 := abs_le.1 (hr (k * t.area Real.sqrt))
    have hsum : k * t.area Real.sqrt + l * t.area Real.sqrt + m * t.area Real.sqrt = t.area Real.sqrt := by
      rw [← add_mul, ← add_mul, hw.1, one_mul]
    have hle : 1 / 10 ^ 9 * (15 / 100) ≤ 1 / 10 ^ 9 * max |t.area Real.sqrt| |round10 (m * t.area Real.sqrt) + round10 (l * t.area Real.sqrt) + round10 (k * t.area Real.sqrt)| :=
      mul_le_mul_of_nonneg_left (hA.trans ((le_abs_self _).trans (le_max_left _ _))) (by norm_num)
    refine le_trans ?_ hle
    rw [abs_le]
    constructor <;> linarith [r1.1, r1.2, r2.1, r2.2, r3.1, r3.2]

/-- Without rounding the result for a point of the triangle is the number of weights that are not zero, for every triangle that is
not degenerate. -/
theorem C88_exact {t : Tri ℝ} (hp : Proper t.a t.b t.c) {p : Vec ℝ} {k l m : ℝ} (hw : Weights k l m t.a t.b t.c p) (hk : 0 ≤ k) (hl : 0 ≤ l)
    (hm : 0 ≤ m) : t.pointInTriangle Real.sqrt id p = (if k = 0 then 0 else 1) + (if l = 0 then 0 else 1) + (if m = 0 then 0 else 1) := by
  have H : Place t.a t.b t.c p k l m 0 := ⟨hw.1, by rw [hw.2.1]; ring, by rw [hw.2.2.1]; ring, by rw [hw.2.2.2]; ring⟩
  rw [pointInTriangle_place hp H rfl rfl rfl, if_pos]
  · simp only [ne_eq, OfNat.ofNat_ne_zero, not_false_eq_true, zero_pow, zero_mul, add_zero, pow_eq_zero_iff]
    ring
  · have sq (w e : ℝ) (hw : 0 ≤ w) : Real.sqrt (w ^ 2 + 0 ^ 2 * e) = w := by
      rw [show w ^ 2 + 0 ^ 2 * e = w ^ 2 by ring, Real.sqrt_sq hw]
    unfold spread
    rw [sq _ _ hm, sq _ _ hl, sq _ _ hk, show m + l + k = 1 by linarith [hw.1]]
    norm_num

/-- Without rounding, a point with a result other than zero is near the triangle: the absolute weights sum up to at most 1 + 2e-9, and
the distance from the plane is at most 1e-4 of the radius of the inscribed circle (`|h| * 2 * area` is the distance, `2 * area / perimeter`
the radius). -/
theorem C88_near {t : Tri ℝ} (hp : Proper t.a t.b t.c) {p : Vec ℝ} {k l m h : ℝ} (H : Place t.a t.b t.c p k l m h)
    (hn : t.pointInTriangle Real.sqrt id p ≠ 0) : |k| + |l| + |m| ≤ 1 + 2 / 10 ^ 9 ∧
      |h| * (dist (toE t.a) (toE t.b) + dist (toE t.a) (toE t.c) + dist (toE t.b) (toE t.c)) ≤ 1 / 10 ^ 4 := by
  rw [pointInTriangle_place hp H rfl rfl rfl] at hn
  have hS : (1 - 1 / 10 ^ 9) * spread t k l m h ≤ 1 := by
    by_contra hc
    rw [if_neg hc] at hn
    exact hn rfl
  have h1 := spread_sq t k l m h
  have hg : spread t k l m h ≤ 1 + 2 / 10 ^ 9 := by nlinarith
  refine ⟨spread_ge.trans hg, ?_⟩
  have hd (u v : Vec ℝ) : (u.sub v).mod Real.sqrt = dist (toE v) (toE u) := by
    rw [dist_comm]; exact distTo_eq u v
  rw [hd, hd, hd] at h1
  have h2 : 1 ≤ |k| + |l| + |m| := one_le_abs H.sum
  have h3 : 0 ≤ spread t k l m h := le_trans (by positivity) spread_ge
  generalize |h| * (dist (toE t.a) (toE t.b) + dist (toE t.a) (toE t.c) + dist (toE t.b) (toE t.c)) = d at *
  have h4 : spread t k l m h ^ 2 ≤ (1 + 2 / 10 ^ 9) ^ 2 := pow_le_pow_left₀ h3 hg 2
  have h5 : (1 : ℝ) ≤ (|k| + |l| + |m|) ^ 2 := by nlinarith
  by_contra hc
  push Not at hc
  have : (1 / 10 ^ 4 : ℝ) ^ 2 < d ^ 2 := pow_lt_pow_left₀ hc (by norm_num) (by norm_num)
  norm_num at this h4
  linarith

/-- Rounding to the nearest multiple of 1e-10. -/
noncomputable def round10 (x : ℝ) : ℝ := (round (x * 10 ^ 10) : ℝ) / 10 ^ 10

theorem round10_near (x : ℝ) : |round10 x - x| ≤ 1 / 2 * (1 / 10 ^ 10) := by
  unfold round10
  have h := abs_sub_round (x * 10 ^ 10)
  rw [abs_sub_comm] at h
  have : (round (x * 10 ^ 10) : ℝ) / 10 ^ 10 - x = ((round (x * 10 ^ 10) : ℝ) - x * 10 ^ 10) / 10 ^ 10 := by
    field_simp
  rw [this, abs_div, abs_of_pos (show (0 : ℝ) < 10 ^ 10 by norm_num), div_le_iff₀ (by norm_num)]
  linarith

theorem round10_zero : round10 0 = 0 := by simp [round10]

/-- A point of a triangle with an area less than 0.5e-10 is never found, not even a corner: all three areas round to zero. -/
theorem C88_small_violation {t : Tri ℝ} (hp : Proper t.a t.b t.c) (hA : t.area Real.sqrt < 1 / 2 * (1 / 10 ^ 10)) {p : Vec ℝ} {k l m : ℝ}
    (hw : Weights k l m t.a t.b t.c p) (hk : 0 ≤ k) (hl : 0 ≤ l) (hm : 0 ≤ m) : t.pointInTriangle Real.sqrt round10 p = 0 := by
  have H : Place t.a t.b t.c p k l m 0 := ⟨hw.1, by rw [hw.2.1]; ring, by rw [hw.2.2.1]; ring, by rw [hw.2.2.2]; ring⟩
  obtain ⟨e1, e2, e3⟩ := areas H
  have sq (w e : ℝ) (hw : 0 ≤ w) : Real.sqrt (w ^ 2 + 0 ^ 2 * e) = w := by
    rw [show w ^ 2 + 0 ^ 2 * e = w ^ 2 by ring, Real.sqrt_sq hw]
  rw [sq _ _ hm] at e1; rw [sq _ _ hl] at e2; rw [sq _ _ hk] at e3
  have hA0 := area_pos hp
  have z (w : ℝ) (h : 0 ≤ w) (h1 : w ≤ 1) : round10 (w * t.area Real.sqrt) = 0 := by
    unfold round10
    have e : round (w * t.area Real.sqrt * 10 ^ 10) = 0 := by
      rw [round_eq_zero_iff]
      constructor
      · have : 0 ≤ w * t.area Real.sqrt * 10 ^ 10 := by positivity
        norm_num at *
        linarith
      · have : w * t.area Real.sqrt ≤ t.area Real.sqrt := by nlinarith
        norm_num at *
        linarith
    rw [e]; simp
  unfold Tri.pointInTriangle
  simp only [e1, e2, e3]
  have hs := hw.1
  rw [z m hm (by linarith), z l hl (by linarith), z k hk (by linarith)]
  simp [Tri.flag]

/-- A point outside the unit triangle, 2e-10 from its side, counts as a point of its interior. -/
theorem C88_outside_violation : ∃ (t : Tri ℝ) (p : Vec ℝ), Proper t.a t.b t.c ∧ ¬ InTriangle t p ∧ t.pointInTriangle Real.sqrt round10 p = 3 := by
  refine ⟨⟨0, ⟨0, 0, 0⟩, ⟨1, 0, 0⟩, ⟨0, 1, 0⟩, none⟩, ⟨-2 / 10 ^ 10, 1 / 2, 0⟩, .inl (by norm_num), ?_, ?_⟩
  · rintro ⟨u, v, w, hu, hv, hw, -, e⟩
    have := congrArg Vec.x e
    simp only at this
    norm_num at this
    linarith
  · have a0 : Tri.area Real.sqrt ⟨0, ⟨0, 0, 0⟩, ⟨1, 0, 0⟩, ⟨0, 1, 0⟩, none⟩ = 1 / 2 := by
      rw [area_eq]; simp [wide, Vec.mod2, Vec.dot, Vec.cross, Vec.sub]
    have sq (w e : ℝ) : Real.sqrt (w ^ 2 + 0 ^ 2 * e) = |w| := by
      rw [show w ^ 2 + 0 ^ 2 * e = w ^ 2 by ring, Real.sqrt_sq_eq_abs]
    have H : Place ⟨0, 0, 0⟩ ⟨1, 0, 0⟩ ⟨0, 1, 0⟩ ⟨-2 / 10 ^ 10, 1 / 2, 0⟩ (1 / 2 + 2 / 10 ^ 10) (-2 / 10 ^ 10) (1 / 2) 0 :=
      ⟨by norm_num, by norm_num, by norm_num, by norm_num⟩
    obtain ⟨e1, e2, e3⟩ := areas (t := ⟨0, ⟨0, 0, 0⟩, ⟨1, 0, 0⟩, ⟨0, 1, 0⟩, none⟩) H
    simp only [sq, a0] at e1 e2 e3
    have r (n : ℤ) (x : ℝ) (h : x = n / 10 ^ 10) : round10 x = x := by
      unfold round10
      rw [h, div_mul_cancel₀ _ (by norm_num), round_intCast]
    unfold Tri.pointInTriangle
    simp only [e1, e2, e3, a0]
    rw [r 2500000000 _ (by norm_num), r 1 _ (by norm_num [abs_of_neg]), r 2500000001 _ (by norm_num), if_pos]
    · unfold Tri.flag; norm_num
    · unfold Py.isClose
      rw [decide_eq_true_eq]
      have n1 : |(1 / 2 : ℝ) - (|1 / 2| * (1 / 2) + |(-2) / 10 ^ 10| * (1 / 2) + |1 / 2 + 2 / 10 ^ 10| * (1 / 2))| = 2 / 10 ^ 10 := by
        norm_num [abs_of_neg]
      rw [n1]
      refine le_trans ?_ (mul_le_mul_of_nonneg_left (le_max_left _ _) (by norm_num))
      norm_num

/-- The area of the triangle `unit`. -/
theorem unit_area : unit.area Real.sqrt = 1 / 2 := by
  show Tri.area Real.sqrt ⟨0, ⟨0, 0, 0⟩, ⟨1, 0, 0⟩, ⟨0, 1, 0⟩, none⟩ = _
  rw [area_eq]; simp [wide, Vec.mod2, Vec.dot, Vec.cross, Vec.sub]

/-- The centre of a triangle is inside, the middle of a side is on it. -/
example : unit.pointInTriangle Real.sqrt round10 ⟨1 / 3, 1 / 3, 0⟩ = 3 ∧ unit.pointInTriangle Real.sqrt round10 ⟨1 / 2, 0, 0⟩ = 2 := by
  constructor
  · rw [C88_inside_partial round10_near round10_zero (t := unit) (k := 1 / 3) (l := 1 / 3) (m := 1 / 3)
      ⟨by norm_num, by norm_num [unit], by norm_num [unit], by norm_num [unit]⟩ (by norm_num) (by norm_num) (by norm_num)
      (by rw [unit_area]; norm_num) (by rw [unit_area]; intro w hw _; simp at hw; rw [hw]; norm_num)]
    norm_num
  · rw [C88_inside_partial round10_near round10_zero (t := unit) (k := 1 / 2) (l := 1 / 2) (m := 0)
      ⟨by norm_num, by norm_num [unit], by norm_num [unit], by norm_num [unit]⟩ (by norm_num) (by norm_num) (by norm_num)
      (by rw [unit_area]; norm_num) (by
        rw [unit_area]; intro w hw h0
        simp only [List.mem_cons, List.not_mem_nil, or_false] at hw
        rcases hw with rfl | rfl | rfl
        · norm_num
        · norm_num
        · exact absurd rfl h0)]
    norm_num

/-- A small triangle as in `C88_small_violation`: legs of 1e-6. -/
example : ∃ t : Tri ℝ, Proper t.a t.b t.c ∧ t.area Real.sqrt < 1 / 2 * (1 / 10 ^ 10) := by
  refine ⟨⟨0, ⟨0, 0, 0⟩, ⟨1 / 10 ^ 6, 0, 0⟩, ⟨0, 1 / 10 ^ 6, 0⟩, none⟩, .inl (by norm_num), ?_⟩
  rw [area_eq]
  have : (wide ⟨0, 0, 0⟩ ⟨1 / 10 ^ 6, 0, 0⟩ ⟨0, 1 / 10 ^ 6, 0⟩).mod2 = (1 / 10 ^ 12) ^ 2 := by
    norm_num [wide, Vec.mod2, Vec.dot, Vec.cross, Vec.sub]
  rw [this, Real.sqrt_sq (by norm_num)]
  norm_num

/-! ### C89: triangles of one plane -/

section
variable {F : Type} [Field F] [LinearOrder F] [IsStrictOrderedRing F]

/-- For a triangle that is not degenerate `in_one_plane` answers whether all corners of the other one are in its plane, i.e. are
combinations of its corners. -/
theorem C89_plane {s : Tri F} (hs : Proper s.a s.b s.c) (t : Tri F) :
    s.inOnePlane t = true ↔ ∀ p ∈ [t.a, t.b, t.c], ∃ k l m, Weights k l m s.a s.b s.c p := by
  unfold Tri.inOnePlane
  simp only [Bool.and_eq_true, List.mem_cons, List.not_mem_nil, or_false, forall_eq_or_imp, forall_eq, and_assoc]
  have e (p : Vec F) : s.pointInOnePlane p = true ↔ ∃ k l m, Weights k l m s.a s.b s.c p :=
    ⟨weights_of_inPlane hs, fun ⟨_, _, _, h⟩ => inPlane_of_weights h⟩
  rw [e, e, e]

/-- Triangles that are not degenerate: being in one plane is symmetric. -/
theorem C89_symm {s t : Tri F} (hs : Proper s.a s.b s.c) (ht : Proper t.a t.b t.c) (h : s.inOnePlane t = true) : t.inOnePlane s = true := by
  have h' := (C89_plane hs t).1 h
  rw [C89_plane ht]
  obtain ⟨k1, l1, m1, s1, x1, y1, z1⟩ := h' t.a (by simp)
  obtain ⟨k2, l2, m2, s2, x2, y2, z2⟩ := h' t.b (by simp)
  obtain ⟨k3, l3, m3, s3, x3, y3, z3⟩ := h' t.c (by simp)
  have ht0 : (l2 - l1) * (m3 - m1) - (m2 - m1) * (l3 - l1) ≠ 0 := by
    intro e
    have ek1 : k1 = 1 - l1 - m1 := by linear_combination s1
    have ek2 : k2 = 1 - l2 - m2 := by linear_combination s2
    have ek3 : k3 = 1 - l3 - m3 := by linear_combination s3
    rcases ht with hc | hc | hc <;> apply hc
    · rw [x1, x2, x3, y1, y2, y3, ek1, ek2, ek3]
      linear_combination ((s.b.x - s.a.x) * (s.c.y - s.a.y) - (s.b.y - s.a.y) * (s.c.x - s.a.x)) * e
    · rw [y1, y2, y3, z1, z2, z3, ek1, ek2, ek3]
      linear_combination ((s.b.y - s.a.y) * (s.c.z - s.a.z) - (s.b.z - s.a.z) * (s.c.y - s.a.y)) * e
    · rw [x1, x2, x3, z1, z2, z3, ek1, ek2, ek3]
      linear_combination ((s.b.z - s.a.z) * (s.c.x - s.a.x) - (s.b.x - s.a.x) * (s.c.z - s.a.z)) * e
  -- the point with weights (1 - l - m, l, m) of `s` is a combination of the corners of `t`
  have key (p : Vec F) (l m : F) (hp : Weights (1 - l - m) l m s.a s.b s.c p) : ∃ k l m, Weights k l m t.a t.b t.c p := by
    obtain ⟨-, px, py, pz⟩ := hp
    obtain ⟨d, hd⟩ : ∃ d, d = (l2 - l1) * (m3 - m1) - (m2 - m1) * (l3 - l1) := ⟨_, rfl⟩
    rw [← hd] at ht0
    have ek1 : k1 = 1 - l1 - m1 := by linear_combination s1
    have ek2 : k2 = 1 - l2 - m2 := by linear_combination s2
    have ek3 : k3 = 1 - l3 - m3 := by linear_combination s3
    refine ⟨1 - ((l - l1) * (m3 - m1) - (m - m1) * (l3 - l1)) / d - ((l2 - l1) * (m - m1) - (m2 - m1) * (l - l1)) / d,
      ((l - l1) * (m3 - m1) - (m - m1) * (l3 - l1)) / d, ((l2 - l1) * (m - m1) - (m2 - m1) * (l - l1)) / d, by ring, ?_, ?_, ?_⟩
    · rw [px, x1, x2, x3, ek1, ek2, ek3]; field_simp; rw [hd]; ring
    · rw [py, y1, y2, y3, ek1, ek2, ek3]; field_simp; rw [hd]; ring
    · rw [pz, z1, z2, z3, ek1, ek2, ek3]; field_simp; rw [hd]; ring
  intro p hp
  simp only [List.mem_cons, List.not_mem_nil, or_false] at hp
  rcases hp with rfl | rfl | rfl
  · exact key _ 0 0 ⟨by ring, by ring, by ring, by ring⟩
  · exact key _ 1 0 ⟨by ring, by ring, by ring, by ring⟩
  · exact key _ 0 1 ⟨by ring, by ring, by ring, by ring⟩

/-- Triangles that are not degenerate: being in one plane is transitive. -/
theorem C89_trans {s t u : Tri F} (hs : Proper s.a s.b s.c) (ht : Proper t.a t.b t.c) (h : s.inOnePlane t = true)
    (h' : t.inOnePlane u = true) : s.inOnePlane u = true := by
  have h1 := (C89_plane hs t).1 h
  have h2 := (C89_plane ht u).1 h'
  rw [C89_plane hs]
  intro p hp
  obtain ⟨k, l, m, hw⟩ := h2 p hp
  exact weights_trans hw (h1 t.a (by simp)) (h1 t.b (by simp)) (h1 t.c (by simp))

/-- A degenerate triangle is "in one plane" with every triangle. -/
theorem C89_degenerate {s : Tri F} (hs : ¬ Proper s.a s.b s.c) (t : Tri F) : s.inOnePlane t = true := by
  unfold Tri.inOnePlane
  rw [inPlane_degenerate hs, inPlane_degenerate hs, inPlane_degenerate hs]; rfl
end

/-- With degenerate triangles `in_one_plane` is not symmetric. -/
theorem C89_symm_violation : ∃ s t : Tri ℚ, s.inOnePlane t = true ∧ t.inOnePlane s = false :=
  ⟨⟨0, ⟨0, 0, 5⟩, ⟨1, 0, 5⟩, ⟨2, 0, 5⟩, none⟩, ⟨1, ⟨0, 0, 0⟩, ⟨1, 0, 0⟩, ⟨0, 1, 0⟩, none⟩, by decide +kernel, by decide +kernel⟩

example : Proper (⟨0, 0, 0⟩ : Vec ℚ) ⟨1, 0, 0⟩ ⟨0, 1, 0⟩ ∧
    (⟨0, ⟨0, 0, 0⟩, ⟨1, 0, 0⟩, ⟨0, 1, 0⟩, none⟩ : Tri ℚ).inOnePlane ⟨1, ⟨5, 5, 0⟩, ⟨6, 5, 0⟩, ⟨5, 7, 0⟩, none⟩ = true ∧
    (⟨0, ⟨0, 0, 0⟩, ⟨1, 0, 0⟩, ⟨0, 1, 0⟩, none⟩ : Tri ℚ).inOnePlane ⟨1, ⟨5, 5, 0⟩, ⟨6, 5, 0⟩, ⟨5, 7, 1⟩, none⟩ = false :=
  ⟨.inl (by norm_num), by decide +kernel, by decide +kernel⟩

/-! ### C90: the order of points -/

section
variable {F : Type} [Field F] [LinearOrder F] [IsStrictOrderedRing F]

/-- Missing for C90: points that differ by less than 1e-10 in a coordinate, see `C90_asymm_violation`. For points whose coordinates are
equal or at least 1e-10 apart `<` is the order by x, then y, then z. -/
theorem C90_order_partial {u v : Vec F} (h : PGap u v) : u.lt v = true ↔ Before u v := lt_iff h

/-- For such points there is only one way to sort a list. -/
theorem C90_sort_unique {l l' : List (Vec F)} (hp : l.Perm l') (hg : ∀ u ∈ l, ∀ v ∈ l, PGap u v) (hs : l.Pairwise (fun u v => v.lt u = false))
    (hs' : l'.Pairwise (fun u v => v.lt u = false)) : l = l' := by
  refine List.Perm.eq_of_pairwise ?_ hs hs' hp
  intro u v hu hv h1 h2
  have g := hg u hu v (hp.symm.subset hv)
  rcases before_total u v with h | h | h
  · rw [(lt_iff g).2 h] at h2; cases h2
  · exact h
  · rw [(lt_iff (pgap_symm g)).2 h] at h1; cases h1
end

/-- Two points that are each less than the other. -/
theorem C90_asymm_violation : ∃ u v : Vec ℚ, u.lt v = true ∧ v.lt u = true :=
  ⟨⟨5 / 10 ^ 11, 0, 0⟩, ⟨0, 1, 0⟩, by decide +kernel, by decide +kernel⟩

/-- A circle: every point is less than the next, and the last one is less than the first. -/
theorem C90_trans_violation : ∃ u v w : Vec ℚ, u.lt v = true ∧ v.lt w = true ∧ u.lt w = false ∧ w.lt u = true :=
  ⟨⟨12 / 10 ^ 11, 0, 0⟩, ⟨6 / 10 ^ 11, 1, 0⟩, ⟨0, 2, 0⟩, by decide +kernel, by decide +kernel, by decide +kernel, by decide +kernel⟩

/-- `==` of points is reflexive and symmetric. -/
theorem C90_eq (u v : Vec ℝ) : u.eq Real.sqrt u = true ∧ u.eq Real.sqrt v = v.eq Real.sqrt u := by
  unfold Vec.eq Vec.isNear
  rw [distTo_eq, distTo_eq, distTo_eq, dist_comm (toE v), dist_self]
  exact ⟨by rw [decide_eq_true_eq]; positivity, rfl⟩

theorem abs_le_dist (u v : Vec ℝ) : |u.x - v.x| ≤ u.distTo Real.sqrt v ∧ |u.y - v.y| ≤ u.distTo Real.sqrt v ∧ |u.z - v.z| ≤ u.distTo Real.sqrt v := by
  unfold Vec.distTo Vec.mod
  refine ⟨Real.abs_le_sqrt ?_, Real.abs_le_sqrt ?_, Real.abs_le_sqrt ?_⟩ <;> unfold Vec.mod2 Vec.dot Vec.sub <;> simp only <;>
    nlinarith [mul_self_nonneg (u.x - v.x), mul_self_nonneg (u.y - v.y), mul_self_nonneg (u.z - v.z)]

/-- For points whose coordinates are equal or at least 1e-10 apart `==` is equality. -/
theorem C90_eq_exact {u v : Vec ℝ} (h : PGap u v) : u.eq Real.sqrt v = true ↔ u = v := by
  constructor
  · intro e
    unfold Vec.eq Vec.isNear at e
    rw [decide_eq_true_eq] at e
    obtain ⟨hx, hy, hz⟩ := abs_le_dist u v
    have ex := (gap_lt h.1).1 (hx.trans_lt e)
    have ey := (gap_lt h.2.1).1 (hy.trans_lt e)
    have ez := (gap_lt h.2.2).1 (hz.trans_lt e)
    cases u; cases v; simp_all
  · rintro rfl; exact (C90_eq u u).1

/-- `==` of points is not transitive. -/
theorem C90_eq_violation : ∃ u v w : Vec ℝ, u.eq Real.sqrt v = true ∧ v.eq Real.sqrt w = true ∧ u.eq Real.sqrt w = false := by
  have e (x y : ℝ) : (⟨x, 0, 0⟩ : Vec ℝ).distTo Real.sqrt ⟨y, 0, 0⟩ = |x - y| := by
    unfold Vec.distTo Vec.mod Vec.mod2 Vec.dot Vec.sub
    simp only [sub_zero, mul_zero, add_zero]
    exact Real.sqrt_mul_self_eq_abs _
  refine ⟨⟨0, 0, 0⟩, ⟨6 / 10 ^ 11, 0, 0⟩, ⟨12 / 10 ^ 11, 0, 0⟩, ?_, ?_, ?_⟩ <;> unfold Vec.eq Vec.isNear <;> rw [e] <;> norm_num [abs_of_neg]

/-- The points where two triangles meet: if the coordinates of the points found are equal or at least 1e-10 apart,
`intersection_with_triangle` returns them in the order by x, then y, then z, each one once. `sort` is any sorting of lists. -/
theorem C90_intersection {round10 : ℝ → ℝ} {sort : List (Vec ℝ) → List (Vec ℝ)} (hperm : ∀ l, (sort l).Perm l)
    (hsort : ∀ l : List (Vec ℝ), (∀ u ∈ l, ∀ v ∈ l, PGap u v) → (sort l).Pairwise (fun u v => v.lt u = false)) {s t : Tri ℝ} (hst : s.id ≠ t.id)
    {res : List (Vec ℝ)} (hres : res = s.intersectSegment round10 t.a t.b ++ s.intersectSegment round10 t.b t.c
      ++ s.intersectSegment round10 t.c t.a ++ t.intersectSegment round10 s.a s.b
      ++ t.intersectSegment round10 s.b s.c ++ t.intersectSegment round10 s.c s.a)
    (hg : ∀ u ∈ res, ∀ v ∈ res, PGap u v) :
    (s.intersectTriangle Real.sqrt round10 sort t).Pairwise Before ∧ ∀ p, p ∈ s.intersectTriangle Real.sqrt round10 sort t ↔ p ∈ res := by
  have hs := hsort res hg
  have hp := hperm res
  unfold Tri.intersectTriangle
  rw [if_neg hst]
  simp only [← hres]
  split_ifs with h0
  · rw [h0]; simp
  have hg' : ∀ u ∈ sort res, ∀ v ∈ sort res, PGap u v := fun u hu v hv => hg u (hp.subset hu) v (hp.subset hv)
  have key : ∀ l : List (Vec ℝ), (∀ u ∈ l, ∀ v ∈ l, PGap u v) → l.Pairwise (fun u v => v.lt u = false) →
      (Tri.dedup Real.sqrt l).Pairwise Before ∧ ∀ p, p ∈ Tri.dedup Real.sqrt l ↔ p ∈ l := by
    intro l
    induction l with
    | nil => intro _ _; simp [Tri.dedup]
    | cons x xs ih =>
      intro hg hs
      have ih' := ih (fun u hu v hv => hg u (by simp [hu]) v (by simp [hv])) (List.pairwise_cons.1 hs).2
      cases xs with
      | nil => simp [Tri.dedup]
      | cons y ys =>
        have hxy : PGap y x := hg y (by simp) x (by simp)
        have hle (z : Vec ℝ) (hz : z ∈ y :: ys) : x = z ∨ Before x z := by
          rcases before_total x z with h | h | h
          · exact .inr h
          · exact .inl h
          · have := (List.pairwise_cons.1 hs).1 z hz
            rw [(lt_iff (hg z (by simp [hz]) x (by simp))).2 h] at this
            cases this
        have hle' (z : Vec ℝ) (hz : z ∈ y :: ys) : y = z ∨ Before y z := by
          rcases before_total y z with h | h | h
          · exact .inr h
          · exact .inl h
          · rcases List.mem_cons.1 hz with rfl | hz
            · exact .inl rfl
            have := (List.pairwise_cons.1 (List.pairwise_cons.1 hs).2).1 z hz
            rw [(lt_iff (hg z (by simp [hz]) y (by simp))).2 h] at this
            cases this
        by_cases e : y.isNear Real.sqrt x (1 / 10 ^ 10) = true
        · have exy : y = x := (C90_eq_exact hxy).1 e
          have : Tri.dedup Real.sqrt (x :: y :: ys) = Tri.dedup Real.sqrt (y :: ys) := by
            subst exy
            simp only [Tri.dedup, List.zip_cons_cons, List.filterMap_cons, e, if_true]
          rw [this]
          refine ⟨ih'.1, fun p => ?_⟩
          rw [ih'.2, List.mem_cons (b := x), ← exy]
          simp
        · have : Tri.dedup Real.sqrt (x :: y :: ys) = x :: Tri.dedup Real.sqrt (y :: ys) := by
            simp only [Tri.dedup, List.zip_cons_cons, List.filterMap_cons, e, if_false, Bool.false_eq_true]
          rw [this]
          have bxy : Before x y := (hle y (by simp)).resolve_left (fun h => e (by
            have := (C90_eq_exact hxy).2 h.symm
            exact this))
          refine ⟨List.pairwise_cons.2 ⟨fun z hz => ?_, ih'.1⟩, fun p => ?_⟩
          · rcases hle' z ((ih'.2 z).1 hz) with h | h
            · exact h ▸ bxy
            · exact before_trans bxy h
          · rw [List.mem_cons, ih'.2, List.mem_cons (b := x)]
  obtain ⟨k1, k2⟩ := key (sort res) hg' hs
  exact ⟨k1, fun p => (k2 p).trans hp.mem_iff⟩

example : PGap (⟨0, 1, 2⟩ : Vec ℚ) ⟨0, 1, 3⟩ ∧ Vec.lt (⟨0, 1, 2⟩ : Vec ℚ) ⟨0, 1, 3⟩ = true :=
  ⟨⟨.inl rfl, .inl rfl, .inr (by norm_num [abs_of_neg])⟩, by decide +kernel⟩

/-- A triangle that crosses `unit`. -/
noncomputable def through : Tri ℝ := ⟨1, ⟨1 / 4, 1 / 4, -1⟩, ⟨1 / 4, 1 / 2, 1⟩, ⟨2, 2, 3⟩, none⟩

example : unit.intersectSegment round10 through.a through.b ++ unit.intersectSegment round10 through.b through.c
      ++ unit.intersectSegment round10 through.c through.a ++ through.intersectSegment round10 unit.a unit.b
      ++ through.intersectSegment round10 unit.b unit.c ++ through.intersectSegment round10 unit.c unit.a = [⟨1 / 4, 3 / 8, 0⟩, ⟨15 / 32, 17 / 32, 0⟩] := by
  have h1 : unit.intersectSegment round10 through.a through.b = [⟨1 / 4, 3 / 8, 0⟩] := by
    norm_num [unit, through, Tri.intersectSegment, Tri.det3, Vec.sub, Vec.smul]
  have h2 : unit.intersectSegment round10 through.b through.c = [] := by
    norm_num [unit, through, Tri.intersectSegment, Tri.det3, Vec.sub, Vec.smul]
  have h3 : unit.intersectSegment round10 through.c through.a = [] := by
    norm_num [unit, through, Tri.intersectSegment, Tri.det3, Vec.sub, Vec.smul]
  have h4 : through.intersectSegment round10 unit.a unit.b = [] := by
    norm_num [unit, through, Tri.intersectSegment, Tri.det3, Vec.sub, Vec.smul]
  have h5 : through.intersectSegment round10 unit.b unit.c = [⟨15 / 32, 17 / 32, 0⟩] := by
    norm_num [unit, through, Tri.intersectSegment, Tri.det3, Vec.sub, Vec.smul]
  have h6 : through.intersectSegment round10 unit.c unit.a = [] := by
    norm_num [unit, through, Tri.intersectSegment, Tri.det3, Vec.sub, Vec.smul]
  rw [h1, h2, h3, h4, h5, h6]; rfl

/-- There is a sorting as `C90_intersection` supposes. -/
example : ∃ sort : List (Vec ℝ) → List (Vec ℝ), (∀ l, (sort l).Perm l) ∧
    ∀ l : List (Vec ℝ), (∀ u ∈ l, ∀ v ∈ l, PGap u v) → (sort l).Pairwise (fun u v => v.lt u = false) := by
  classical
  let r : Vec ℝ → Vec ℝ → Prop := fun u v => ¬ Before v u
  have : IsTrans (Vec ℝ) r := ⟨fun u v w h1 h2 h3 => by
    rcases before_total u v with h | h | h
    · exact h2 (before_trans h3 h)
    · exact h2 (h ▸ h3)
    · exact h1 h⟩
  have : Std.Total r := ⟨fun u v => by
    by_cases h : Before v u
    · exact .inr (before_asymm h)
    · exact .inl h⟩
  refine ⟨List.insertionSort r, fun l => List.perm_insertionSort r l, fun l hg => ?_⟩
  refine (List.pairwise_insertionSort r l).imp_of_mem ?_
  intro u v hu hv h
  have g := hg v ((List.perm_insertionSort r l).subset hv) u ((List.perm_insertionSort r l).subset hu)
  by_contra hc
  exact h ((lt_iff g).1 (by simpa using hc))
/-! ### C91: equality of triangles -/

/-- Triangles with the same corners in any order are equal. -/
theorem C91_same {s t : Tri ℝ} (h : [s.a, s.b, s.c].Perm [t.a, t.b, t.c]) : s.eq Real.sqrt t = true := by
  have hx (f : Vec ℝ → ℝ) : f s.a + f s.b + f s.c = f t.a + f t.b + f t.c := by
    have := (h.map f).sum_eq
    simp only [List.map_cons, List.map_nil, List.sum_cons, List.sum_nil] at this
    linarith
  have hc : s.centroid = t.centroid := by
    unfold Tri.centroid Vec.smul Vec.add
    simp only
    rw [hx (·.x), hx (·.y), hx (·.z)]
  have mem (p : Vec ℝ) (hp : p ∈ [s.a, s.b, s.c]) : (p.eq Real.sqrt t.a || p.eq Real.sqrt t.b || p.eq Real.sqrt t.c) = true := by
    have := h.subset hp
    simp only [List.mem_cons, List.not_mem_nil, or_false] at this
    rcases this with h | h | h <;> rw [h, (C90_eq _ t.a).1] <;> simp
  unfold Tri.eq
  rw [hc, (C90_eq t.centroid t.a).1, mem s.a (by simp), mem s.b (by simp)]
  rfl

/-- Missing for C91: triangles whose first two corners are nearer than 2e-10, see `C91_degenerate_violation`. For all others: equal
triangles have the same corners up to 5e-10, in some order. -/
theorem C91_near_partial {s t : Tri ℝ} (hab : 2 / 10 ^ 10 ≤ dist (toE s.a) (toE s.b)) (h : s.eq Real.sqrt t = true) :
    ∃ p q r, [p, q, r].Perm [t.a, t.b, t.c] ∧ dist (toE s.a) (toE p) < 5 / 10 ^ 10 ∧ dist (toE s.b) (toE q) < 5 / 10 ^ 10 ∧
      dist (toE s.c) (toE r) < 5 / 10 ^ 10 := by
  unfold Tri.eq at h
  split_ifs at h with hc ha hb
  have near (u v : Vec ℝ) : u.eq Real.sqrt v = true ↔ dist (toE u) (toE v) < 1 / 10 ^ 10 := by
    unfold Vec.eq Vec.isNear
    rw [distTo_eq, decide_eq_true_eq]
  rw [near] at hc
  simp only [Bool.or_eq_true, near] at ha hb
  have cent (u : Tri ℝ) : toE u.centroid = (1 / 3 : ℝ) • (toE u.a + toE u.b + toE u.c) := by
    ext i; fin_cases i <;> simp [toE, Tri.centroid, Vec.smul, Vec.add] <;> ring
  have third (p q r : Vec ℝ) (hpm : toE p + toE q + toE r = toE t.a + toE t.b + toE t.c) (hp : dist (toE s.a) (toE p) < 1 / 10 ^ 10)
      (hq : dist (toE s.b) (toE q) < 1 / 10 ^ 10) : dist (toE s.c) (toE r) < 5 / 10 ^ 10 := by
    rw [dist_eq_norm] at *
    rw [cent, cent, ← hpm] at hc
    have e : toE s.c - toE r = (3 : ℝ) • ((1 / 3 : ℝ) • (toE s.a + toE s.b + toE s.c) - (1 / 3 : ℝ) • (toE p + toE q + toE r)) - (toE s.a - toE p)
        - (toE s.b - toE q) := by
      rw [← smul_sub, smul_smul]; norm_num; abel
    rw [e]
    refine lt_of_le_of_lt (norm_sub_le _ _) ?_
    have h1 := norm_sub_le ((3 : ℝ) • ((1 / 3 : ℝ) • (toE s.a + toE s.b + toE s.c) - (1 / 3 : ℝ) • (toE p + toE q + toE r))) (toE s.a - toE p)
    rw [norm_smul, Real.norm_of_nonneg (by norm_num : (0 : ℝ) ≤ 3)] at h1
    linarith
  have same (p : Vec ℝ) (hp : dist (toE s.a) (toE p) < 1 / 10 ^ 10) (hq : dist (toE s.b) (toE p) < 1 / 10 ^ 10) : False := by
    have := dist_triangle_right (toE s.a) (toE s.b) (toE p)
    linarith
  have w {x : ℝ} (hx : x < 1 / 10 ^ 10) : x < 5 / 10 ^ 10 := by linarith
  rcases ha with (ha | ha) | ha <;> rcases hb with (hb | hb) | hb
  · exact (same _ ha hb).elim
  · exact ⟨t.a, t.b, t.c, by rfl, w ha, w hb, third _ _ _ rfl ha hb⟩
  · exact ⟨t.a, t.c, t.b, (List.Perm.swap _ _ _).cons _, w ha, w hb, third _ _ _ (by abel) ha hb⟩
  · exact ⟨t.b, t.a, t.c, List.Perm.swap _ _ _, w ha, w hb, third _ _ _ (by abel) ha hb⟩
  · exact (same _ ha hb).elim
  · exact ⟨t.b, t.c, t.a, by
      rw [List.perm_comm]
      exact (List.Perm.swap _ _ _).trans ((List.Perm.swap _ _ _).cons _), w ha, w hb, third _ _ _ (by abel) ha hb⟩
  · exact ⟨t.c, t.a, t.b, (List.Perm.swap _ _ _).trans ((List.Perm.swap _ _ _).cons _), w ha, w hb, third _ _ _ (by abel) ha hb⟩
  · exact ⟨t.c, t.b, t.a, ((List.Perm.swap _ _ _).trans ((List.Perm.swap _ _ _).cons _)).trans (List.Perm.swap _ _ _), w ha, w hb,
      third _ _ _ (by abel) ha hb⟩
  · exact (same _ ha hb).elim

/-- Two degenerate triangles with different corners: the first is equal to the second, the second not to the first. -/
theorem C91_degenerate_violation : ∃ s t : Tri ℝ, s.eq Real.sqrt t = true ∧ t.eq Real.sqrt s = false ∧
    ∀ p ∈ [t.a, t.b, t.c], 1 ≤ dist (toE s.c) (toE p) := by
  have e (x y : ℝ) : (⟨x, 0, 0⟩ : Vec ℝ).eq Real.sqrt ⟨y, 0, 0⟩ = decide (|x - y| < 1 / 10 ^ 10) := by
    unfold Vec.eq Vec.isNear Vec.distTo Vec.mod Vec.mod2 Vec.dot Vec.sub
    simp only [sub_zero, mul_zero, add_zero, Real.sqrt_mul_self_eq_abs]
  have d (x y : ℝ) : dist (toE ⟨x, 0, 0⟩) (toE ⟨y, 0, 0⟩) = |x - y| := by
    rw [← distTo_eq]
    unfold Vec.distTo Vec.mod Vec.mod2 Vec.dot Vec.sub
    simp only [sub_zero, mul_zero, add_zero, Real.sqrt_mul_self_eq_abs]
  refine ⟨⟨0, ⟨0, 0, 0⟩, ⟨0, 0, 0⟩, ⟨2, 0, 0⟩, none⟩, ⟨1, ⟨0, 0, 0⟩, ⟨1, 0, 0⟩, ⟨1, 0, 0⟩, none⟩, ?_, ?_, ?_⟩
  · simp only [Tri.eq, Tri.centroid, Vec.add, Vec.smul, add_zero, zero_add, zero_mul, e]
    norm_num
  · simp only [Tri.eq, Tri.centroid, Vec.add, Vec.smul, add_zero, zero_add, zero_mul, e]
    norm_num
  · simp only [List.mem_cons, List.not_mem_nil, or_false, forall_eq_or_imp, forall_eq, d]
    norm_num

example : 2 / 10 ^ 10 ≤ dist (toE unit.a) (toE unit.b) ∧ unit.eq Real.sqrt ⟨5, ⟨0, 1, 0⟩, ⟨0, 0, 0⟩, ⟨1, 0, 0⟩, none⟩ = true := by
  refine ⟨?_, C91_same ?_⟩
  · rw [← distTo_eq]
    norm_num [unit, Vec.distTo, Vec.mod, Vec.mod2, Vec.dot, Vec.sub]
  · exact ((List.Perm.swap _ _ _).trans ((List.Perm.swap _ _ _).cons _)).symm

/-! ### C92: point on a segment -/

/-- Every point of the segment is on the vector. -/
theorem C92_on {v w p : Vec ℝ} (h : toE p ∈ segment ℝ (toE v) (toE w)) : v.pointOnVector Real.sqrt w p = true := by
  rw [pointOnVector_eq, decide_eq_true_eq, dist_add_dist_of_mem_segment h]
  have := dist_nonneg (x := toE v) (y := toE w)
  nlinarith

/-- Missing for C92: the test accepts points beside the segment, see `C92_off_violation`. They are nearer to it than 1e-4 of its length. -/
theorem C92_near_partial {v w p : Vec ℝ} (h : v.pointOnVector Real.sqrt w p = true) :
    ∃ q ∈ segment ℝ (toE v) (toE w), dist (toE p) q ≤ 1 / 10 ^ 4 * dist (toE v) (toE w) := by
  rw [pointOnVector_eq, decide_eq_true_eq] at h
  generalize toE v = v at *
  generalize toE w = w at *
  generalize toE p = p at *
  rw [dist_comm v p] at h
  have hL := dist_nonneg (x := v) (y := w)
  have h1 := dist_nonneg (x := p) (y := v)
  have h2 := dist_nonneg (x := p) (y := w)
  have eqn : dist p w ^ 2 = dist p v ^ 2 - 2 * inner ℝ (p - v) (w - v) + dist v w ^ 2 := by
    rw [dist_eq_norm, dist_eq_norm, dist_comm v w, dist_eq_norm, show p - w = (p - v) - (w - v) by abel, norm_sub_sq_real]
  obtain ⟨i, hi⟩ : ∃ i, i = inner ℝ (p - v) (w - v) := ⟨_, rfl⟩
  rw [← hi] at eqn
  obtain ⟨L, hLd⟩ : ∃ L, L = dist v w := ⟨_, rfl⟩
  obtain ⟨d1, hd1⟩ : ∃ d1, d1 = dist p v := ⟨_, rfl⟩
  obtain ⟨d2, hd2⟩ : ∃ d2, d2 = dist p w := ⟨_, rfl⟩
  simp only [← hLd, ← hd1, ← hd2] at h hL h1 h2 eqn ⊢
  by_cases hi0 : i ≤ 0
  · refine ⟨v, left_mem_segment _ _ _, ?_⟩
    have : L ≤ d2 := by
      apply le_of_sq_le_sq _ h2
      nlinarith
    nlinarith
  · by_cases hi1 : L ^ 2 ≤ i
    · refine ⟨w, right_mem_segment _ _ _, ?_⟩
      have : L ≤ d1 := by
        apply le_of_sq_le_sq _ h1
        nlinarith
      nlinarith
    · push Not at hi0 hi1
      have hLp : 0 < L := by
        rcases hL.lt_or_eq with h | h
        · exact h
        · rw [← h] at hi1; norm_num at hi1; linarith
      refine ⟨v + (i / L ^ 2) • (w - v), ?_, ?_⟩
      · rw [segment_eq_image']
        exact ⟨i / L ^ 2, ⟨by positivity, by rw [div_le_one (by positivity)]; exact hi1.le⟩, rfl⟩
      · obtain ⟨x, hx⟩ : ∃ x, x = dist p (v + (i / L ^ 2) • (w - v)) := ⟨_, rfl⟩
        have hx0 : 0 ≤ x := hx ▸ dist_nonneg
        rw [← hx]
        have ex : x ^ 2 = d1 ^ 2 - i ^ 2 / L ^ 2 := by
          rw [hx, hd1, dist_eq_norm, dist_eq_norm, show p - (v + (i / L ^ 2) • (w - v)) = (p - v) - (i / L ^ 2) • (w - v) by abel,
            norm_sub_sq_real, inner_smul_right, ← hi, norm_smul, mul_pow, Real.norm_eq_abs, sq_abs]
          have : ‖w - v‖ = L := by rw [hLd, dist_comm, dist_eq_norm]
          rw [this]
          field_simp
          ring
        -- the two right triangles
        have e1 : d1 ^ 2 = (i / L) ^ 2 + x ^ 2 := by rw [ex]; field_simp; ring
        have e2 : d2 ^ 2 = (L - i / L) ^ 2 + x ^ 2 := by rw [eqn, ex]; field_simp; ring
        have cs : i / L * (L - i / L) + x * x ≤ d1 * d2 := by
          apply le_of_sq_le_sq _ (by positivity)
          rw [mul_pow, e1, e2]
          nlinarith [sq_nonneg (i / L * x - (L - i / L) * x)]
        have hs : L ^ 2 + 4 * x ^ 2 ≤ (d1 + d2) ^ 2 := by nlinarith
        have hb : d1 + d2 ≤ (1 + 2 / 10 ^ 9) * L := by nlinarith
        have hb2 : (d1 + d2) ^ 2 ≤ ((1 + 2 / 10 ^ 9) * L) ^ 2 := pow_le_pow_left₀ (by positivity) hb 2
        apply le_of_sq_le_sq _ (by positivity)
        nlinarith [sq_nonneg L]

/-- A point beside the segment is accepted. -/
theorem C92_off_violation : ∃ v w p : Vec ℝ, v.pointOnVector Real.sqrt w p = true ∧ toE p ∉ segment ℝ (toE v) (toE w) := by
  refine ⟨⟨0, 0, 0⟩, ⟨2, 0, 0⟩, ⟨1, 1 / 10 ^ 5, 0⟩, ?_, ?_⟩
  · unfold Vec.pointOnVector
    have hd : (⟨0, 0, 0⟩ : Vec ℝ).distTo Real.sqrt ⟨2, 0, 0⟩ = 2 := by
      unfold Vec.distTo Vec.mod Vec.mod2 Vec.dot Vec.sub
      simp only
      rw [show ((0 : ℝ) - 2) * (0 - 2) + (0 - 0) * (0 - 0) + (0 - 0) * (0 - 0) = 2 ^ 2 by norm_num]
      exact Real.sqrt_sq (by norm_num)
    have e1 : (⟨0, 0, 0⟩ : Vec ℝ).distTo Real.sqrt ⟨1, 1 / 10 ^ 5, 0⟩ = Real.sqrt (1 + 1 / 10 ^ 10) := by
      unfold Vec.distTo Vec.mod Vec.mod2 Vec.dot Vec.sub
      norm_num
    have e2 : (⟨1, 1 / 10 ^ 5, 0⟩ : Vec ℝ).distTo Real.sqrt ⟨2, 0, 0⟩ = Real.sqrt (1 + 1 / 10 ^ 10) := by
      unfold Vec.distTo Vec.mod Vec.mod2 Vec.dot Vec.sub
      norm_num
    have b1 : 1 ≤ Real.sqrt (1 + 1 / 10 ^ 10) := Real.one_le_sqrt.2 (by norm_num)
    have b2 : Real.sqrt (1 + 1 / 10 ^ 10) ≤ 1 + 1 / 10 ^ 10 := by
      apply Real.sqrt_le_iff.2
      constructor <;> norm_num
    rw [hd, e1, e2, isClose_le (by norm_num) (by linarith), decide_eq_true_eq]
    linarith
  · rintro ⟨a, b, -, -, -, e⟩
    have := congrFun (congrArg (fun w => w.ofLp) e) 1
    norm_num [toE] at this

example : toE ⟨1, 0, 0⟩ ∈ segment ℝ (toE ⟨0, 0, 0⟩) (toE ⟨2, 0, 0⟩) := by
  refine ⟨1 / 2, 1 / 2, by norm_num, by norm_num, by norm_num, ?_⟩
  ext i; fin_cases i <;> simp [toE]

end Verif.Props
