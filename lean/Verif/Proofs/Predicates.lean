import Verif.Model.Predicates
import Verif.Spec.Predicates
import Mathlib.Geometry.Euclidean.Triangle
import Mathlib.Analysis.Normed.Affine.Convex
import Mathlib.Tactic.LinearCombination
import Mathlib.Tactic.FieldSimp

namespace Verif
open Verif.Spec

section euclid

theorem distTo_eq (u v : Vec ℝ) : u.distTo Real.sqrt v = dist (toE u) (toE v) := by
  rw [EuclideanSpace.dist_eq]
  simp [Vec.distTo, Vec.mod, Vec.mod2, Vec.dot, Vec.sub, toE, Fin.sum_univ_three, Real.dist_eq, sq_abs]
  congr 1; ring

theorem mod_eq (u : Vec ℝ) : u.mod Real.sqrt = ‖toE u‖ := by
  rw [EuclideanSpace.norm_eq]
  simp [Vec.mod, Vec.mod2, Vec.dot, toE, Fin.sum_univ_three, sq_abs]
  congr 1; ring

theorem dot_eq (u v : Vec ℝ) : u.dot v = inner ℝ (toE u) (toE v) := by
  simp [Vec.dot, toE, PiLp.inner_apply, Fin.sum_univ_three]; ring

theorem toE_sub (u v : Vec ℝ) : toE (u.sub v) = toE u - toE v := by
  ext i; fin_cases i <;> simp [toE, Vec.sub]

theorem toE_inj {u v : Vec ℝ} (h : toE u = toE v) : u = v := by
  have h0 := congrFun (congrArg (fun w => w.ofLp) h) 0
  have h1 := congrFun (congrArg (fun w => w.ofLp) h) 1
  have h2 := congrFun (congrArg (fun w => w.ofLp) h) 2
  simp [toE] at h0 h1 h2
  cases u; cases v; simp_all

theorem angleCos_ok {u v : Vec ℝ} (hu : toE u ≠ 0) (hv : toE v ≠ 0) :
    u.angleCos Real.sqrt v = .ok (Real.cos (InnerProductGeometry.angle (toE u) (toE v))) := by
  unfold Vec.angleCos
  rw [mod_eq, mod_eq, if_neg (mul_ne_zero (norm_ne_zero_iff.2 hu) (norm_ne_zero_iff.2 hv)), dot_eq,
    InnerProductGeometry.cos_angle]

theorem angleCos_zero {u v : Vec ℝ} (h : toE u = 0 ∨ toE v = 0) : u.angleCos Real.sqrt v = .error .zeroDiv := by
  unfold Vec.angleCos
  rw [mod_eq, mod_eq, if_pos]
  rcases h with h | h <;> simp [h]

theorem angleDeg_ok (deg : ℝ → ℝ) {u v : Vec ℝ} (hu : toE u ≠ 0) (hv : toE v ≠ 0) :
    u.angleDeg Real.sqrt Real.arccos deg v = .ok (deg (InnerProductGeometry.angle (toE u) (toE v))) := by
  unfold Vec.angleDeg Vec.angleRad
  rw [angleCos_ok hu hv]
  show Except.ok (deg (Real.arccos _)) = _
  rw [Real.arccos_cos (InnerProductGeometry.angle_nonneg _ _) (InnerProductGeometry.angle_le_pi _ _)]

theorem angleDeg_zero (deg : ℝ → ℝ) {u v : Vec ℝ} (h : toE u = 0 ∨ toE v = 0) :
    u.angleDeg Real.sqrt Real.arccos deg v = .error .zeroDiv := by
  unfold Vec.angleDeg Vec.angleRad
  rw [angleCos_zero h]
  rfl

theorem sub_ne {u v : Vec ℝ} (h : u ≠ v) : toE (u.sub v) ≠ 0 := by
  rw [toE_sub, sub_ne_zero]
  exact fun h' => h (toE_inj h')

theorem sub_self_eq (u : Vec ℝ) : toE (u.sub u) = 0 := by rw [toE_sub, sub_self]

end euclid

section order
variable {F : Type} [Field F] [LinearOrder F] [IsStrictOrderedRing F]

theorem gap_lt {x y : F} (h : Gap x y) : |x - y| < 1 / 10 ^ 10 ↔ x = y := by
  constructor
  · intro hl
    rcases h with h | h
    · exact h
    · exact absurd hl (not_lt.2 h)
  · rintro rfl
    rw [sub_self, abs_zero]; positivity

theorem lt_iff {u v : Vec F} (h : PGap u v) : u.lt v = true ↔ Before u v := by
  unfold Vec.lt Before
  simp only [gap_lt h.1, gap_lt h.2.1]
  split_ifs with h1 h2 h3
  · simp only [true_iff]; exact .inr ⟨h1.1, .inr h1.2⟩
  · simp only [true_iff]; exact .inr ⟨h2.1, .inl h2.2⟩
  · simp only [true_iff]; exact .inl h3
  · simp only [Bool.false_eq_true, false_iff, not_or, not_and]
    exact ⟨h3, fun e => ⟨fun e' => h2 ⟨e, e'⟩, fun e' e'' => h1 ⟨e, e', e''⟩⟩⟩

theorem before_irrefl (u : Vec F) : ¬ Before u u := by simp [Before]

theorem before_trans {u v w : Vec F} (h : Before u v) (h' : Before v w) : Before u w := by
  unfold Before at *
  rcases h with h | ⟨h, h1⟩ <;> rcases h' with h' | ⟨h', h1'⟩
  · exact .inl (h.trans h')
  · exact .inl (h' ▸ h)
  · exact .inl (h ▸ h')
  · refine .inr ⟨h.trans h', ?_⟩
    rcases h1 with h1 | ⟨h1, h2⟩ <;> rcases h1' with h1' | ⟨h1', h2'⟩
    · exact .inl (h1.trans h1')
    · exact .inl (h1' ▸ h1)
    · exact .inl (h1 ▸ h1')
    · exact .inr ⟨h1.trans h1', h2.trans h2'⟩

theorem before_total (u v : Vec F) : Before u v ∨ u = v ∨ Before v u := by
  unfold Before
  rcases lt_trichotomy u.x v.x with h | h | h
  · exact .inl (.inl h)
  · rcases lt_trichotomy u.y v.y with h1 | h1 | h1
    · exact .inl (.inr ⟨h, .inl h1⟩)
    · rcases lt_trichotomy u.z v.z with h2 | h2 | h2
      · exact .inl (.inr ⟨h, .inr ⟨h1, h2⟩⟩)
      · refine .inr (.inl ?_); cases u; cases v; simp_all
      · exact .inr (.inr (.inr ⟨h.symm, .inr ⟨h1.symm, h2⟩⟩))
    · exact .inr (.inr (.inr ⟨h.symm, .inl h1⟩))
  · exact .inr (.inr (.inl h))

theorem before_asymm {u v : Vec F} (h : Before u v) : ¬ Before v u := fun h' => before_irrefl _ (before_trans h h')

theorem gap_symm {x y : F} (h : Gap x y) : Gap y x := by
  rcases h with h | h
  · exact .inl h.symm
  · exact .inr (by rwa [abs_sub_comm])

theorem pgap_symm {u v : Vec F} (h : PGap u v) : PGap v u := ⟨gap_symm h.1, gap_symm h.2.1, gap_symm h.2.2⟩

end order

section plane
variable {F : Type} [Field F] [LinearOrder F] [IsStrictOrderedRing F]

theorem inPlane_of_weights {t : Tri F} {p : Vec F} {k l m : F} (h : Weights k l m t.a t.b t.c p) : t.pointInOnePlane p = true := by
  obtain ⟨h0, hx, hy, hz⟩ := h
  unfold Tri.pointInOnePlane Tri.det3 Vec.sub
  rw [decide_eq_true_eq]
  have hk : k = 1 - l - m := by linear_combination h0
  simp only [hx, hy, hz, hk]
  ring

theorem weights_of_inPlane {t : Tri F} {p : Vec F} (hp : Proper t.a t.b t.c) (h : t.pointInOnePlane p = true) :
    ∃ k l m, Weights k l m t.a t.b t.c p := by
  unfold Tri.pointInOnePlane Tri.det3 Vec.sub at h
  rw [decide_eq_true_eq] at h
  simp only at h
  rcases hp with hp | hp | hp
  · have hd : (t.b.x - t.a.x) * (t.c.y - t.a.y) - (t.b.y - t.a.y) * (t.c.x - t.a.x) ≠ 0 := sub_ne_zero.2 hp
    obtain ⟨d, hd'⟩ : ∃ d, d = (t.b.x - t.a.x) * (t.c.y - t.a.y) - (t.b.y - t.a.y) * (t.c.x - t.a.x) := ⟨_, rfl⟩
    rw [← hd'] at hd
    refine ⟨1 - ((p.x - t.a.x) * (t.c.y - t.a.y) - (p.y - t.a.y) * (t.c.x - t.a.x)) / d - ((t.b.x - t.a.x) * (p.y - t.a.y) - (t.b.y - t.a.y) * (p.x - t.a.x)) / d,
      ((p.x - t.a.x) * (t.c.y - t.a.y) - (p.y - t.a.y) * (t.c.x - t.a.x)) / d,
      ((t.b.x - t.a.x) * (p.y - t.a.y) - (t.b.y - t.a.y) * (p.x - t.a.x)) / d, by ring, ?_, ?_, ?_⟩
    · field_simp; rw [hd']; ring
    · field_simp; rw [hd']; ring
    · field_simp; rw [hd']; linear_combination h
  · have hd : (t.b.y - t.a.y) * (t.c.z - t.a.z) - (t.b.z - t.a.z) * (t.c.y - t.a.y) ≠ 0 := sub_ne_zero.2 hp
    obtain ⟨d, hd'⟩ : ∃ d, d = (t.b.y - t.a.y) * (t.c.z - t.a.z) - (t.b.z - t.a.z) * (t.c.y - t.a.y) := ⟨_, rfl⟩
    rw [← hd'] at hd
    refine ⟨1 - ((p.y - t.a.y) * (t.c.z - t.a.z) - (p.z - t.a.z) * (t.c.y - t.a.y)) / d - ((t.b.y - t.a.y) * (p.z - t.a.z) - (t.b.z - t.a.z) * (p.y - t.a.y)) / d,
      ((p.y - t.a.y) * (t.c.z - t.a.z) - (p.z - t.a.z) * (t.c.y - t.a.y)) / d,
      ((t.b.y - t.a.y) * (p.z - t.a.z) - (t.b.z - t.a.z) * (p.y - t.a.y)) / d, by ring, ?_, ?_, ?_⟩
    · field_simp; rw [hd']; linear_combination h
    · field_simp; rw [hd']; ring
    · field_simp; rw [hd']; ring
  · have hd : (t.b.z - t.a.z) * (t.c.x - t.a.x) - (t.b.x - t.a.x) * (t.c.z - t.a.z) ≠ 0 := sub_ne_zero.2 hp
    obtain ⟨d, hd'⟩ : ∃ d, d = (t.b.z - t.a.z) * (t.c.x - t.a.x) - (t.b.x - t.a.x) * (t.c.z - t.a.z) := ⟨_, rfl⟩
    rw [← hd'] at hd
    refine ⟨1 - ((p.z - t.a.z) * (t.c.x - t.a.x) - (p.x - t.a.x) * (t.c.z - t.a.z)) / d - ((t.b.z - t.a.z) * (p.x - t.a.x) - (t.b.x - t.a.x) * (p.z - t.a.z)) / d,
      ((p.z - t.a.z) * (t.c.x - t.a.x) - (p.x - t.a.x) * (t.c.z - t.a.z)) / d,
      ((t.b.z - t.a.z) * (p.x - t.a.x) - (t.b.x - t.a.x) * (p.z - t.a.z)) / d, by ring, ?_, ?_, ?_⟩
    · field_simp; rw [hd']; ring
    · field_simp; rw [hd']; linear_combination h
    · field_simp; rw [hd']; ring

theorem inPlane_degenerate {t : Tri F} (hp : ¬ Proper t.a t.b t.c) (p : Vec F) : t.pointInOnePlane p = true := by
  unfold Proper at hp
  push Not at hp
  obtain ⟨h1, h2, h3⟩ := hp
  unfold Tri.pointInOnePlane Tri.det3 Vec.sub
  rw [decide_eq_true_eq]
  simp only
  linear_combination (p.x - t.a.x) * h2 + (p.y - t.a.y) * h3 + (p.z - t.a.z) * h1

theorem weights_trans {a b c a' b' c' p : Vec F} {k l m : F} (h : Weights k l m a' b' c' p) (ha : ∃ k l m, Weights k l m a b c a')
    (hb : ∃ k l m, Weights k l m a b c b') (hc : ∃ k l m, Weights k l m a b c c') : ∃ k l m, Weights k l m a b c p := by
  obtain ⟨k1, l1, m1, h1, hx1, hy1, hz1⟩ := ha
  obtain ⟨k2, l2, m2, h2, hx2, hy2, hz2⟩ := hb
  obtain ⟨k3, l3, m3, h3, hx3, hy3, hz3⟩ := hc
  obtain ⟨h0, hx, hy, hz⟩ := h
  refine ⟨k * k1 + l * k2 + m * k3, k * l1 + l * l2 + m * l3, k * m1 + l * m2 + m * m3, ?_, ?_, ?_, ?_⟩
  · linear_combination h0 + k * h1 + l * h2 + m * h3
  · rw [hx, hx1, hx2, hx3]; ring
  · rw [hy, hy1, hy2, hy3]; ring
  · rw [hz, hz1, hz2, hz3]; ring

end plane

section areas

/-- The cross product of two sides of a triangle: twice its area times the normal. -/
noncomputable def wide (a b c : Vec ℝ) : Vec ℝ := (b.sub a).cross (c.sub b)

theorem area_eq (i : Nat) (o : Option Nat) (a b c : Vec ℝ) : Tri.area Real.sqrt ⟨i, a, b, c, o⟩ = 1 / 2 * Real.sqrt (wide a b c).mod2 := rfl

theorem mod2_nonneg (u : Vec ℝ) : 0 ≤ u.mod2 := by
  unfold Vec.mod2 Vec.dot
  nlinarith [mul_self_nonneg u.x, mul_self_nonneg u.y, mul_self_nonneg u.z]

theorem wide_ab {a b c p : Vec ℝ} {k l m h : ℝ} (H : Place a b c p k l m h) :
    (wide a b p).mod2 = (m ^ 2 + h ^ 2 * (b.sub a).mod2) * (wide a b c).mod2 := by
  obtain ⟨h0, hx, hy, hz⟩ := H
  have hk : k = 1 - l - m := by linear_combination h0
  unfold wide Vec.mod2 Vec.dot Vec.cross Vec.sub at *
  simp only at *
  rw [hx, hy, hz, hk]
  ring

theorem wide_ca {a b c p : Vec ℝ} {k l m h : ℝ} (H : Place a b c p k l m h) :
    (wide a p c).mod2 = (l ^ 2 + h ^ 2 * (c.sub a).mod2) * (wide a b c).mod2 := by
  obtain ⟨h0, hx, hy, hz⟩ := H
  have hk : k = 1 - l - m := by linear_combination h0
  unfold wide Vec.mod2 Vec.dot Vec.cross Vec.sub at *
  simp only at *
  rw [hx, hy, hz, hk]
  ring

theorem wide_bc {a b c p : Vec ℝ} {k l m h : ℝ} (H : Place a b c p k l m h) :
    (wide p b c).mod2 = (k ^ 2 + h ^ 2 * (c.sub b).mod2) * (wide a b c).mod2 := by
  obtain ⟨h0, hx, hy, hz⟩ := H
  have hk : l = 1 - k - m := by linear_combination h0
  unfold wide Vec.mod2 Vec.dot Vec.cross Vec.sub at *
  simp only at *
  rw [hx, hy, hz, hk]
  ring

theorem wide_pos {a b c : Vec ℝ} (h : Proper a b c) : 0 < (wide a b c).mod2 := by
  unfold wide Vec.mod2 Vec.dot Vec.cross Vec.sub
  simp only
  have e1 : (b.x - a.x) * (c.y - b.y) - (b.y - a.y) * (c.x - b.x) = (b.x - a.x) * (c.y - a.y) - (b.y - a.y) * (c.x - a.x) := by ring
  have e2 : (b.y - a.y) * (c.z - b.z) - (b.z - a.z) * (c.y - b.y) = (b.y - a.y) * (c.z - a.z) - (b.z - a.z) * (c.y - a.y) := by ring
  have e3 : (b.z - a.z) * (c.x - b.x) - (b.x - a.x) * (c.z - b.z) = (b.z - a.z) * (c.x - a.x) - (b.x - a.x) * (c.z - a.z) := by ring
  rw [e1, e2, e3]
  rcases h with h | h | h
  · have := mul_self_pos.2 (sub_ne_zero.2 h)
    nlinarith [mul_self_nonneg ((b.y - a.y) * (c.z - a.z) - (b.z - a.z) * (c.y - a.y)), mul_self_nonneg ((b.z - a.z) * (c.x - a.x) - (b.x - a.x) * (c.z - a.z))]
  · have := mul_self_pos.2 (sub_ne_zero.2 h)
    nlinarith [mul_self_nonneg ((b.x - a.x) * (c.y - a.y) - (b.y - a.y) * (c.x - a.x)), mul_self_nonneg ((b.z - a.z) * (c.x - a.x) - (b.x - a.x) * (c.z - a.z))]
  · have := mul_self_pos.2 (sub_ne_zero.2 h)
    nlinarith [mul_self_nonneg ((b.y - a.y) * (c.z - a.z) - (b.z - a.z) * (c.y - a.y)), mul_self_nonneg ((b.x - a.x) * (c.y - a.y) - (b.y - a.y) * (c.x - a.x))]

theorem place_exists {a b c : Vec ℝ} (h : Proper a b c) (p : Vec ℝ) : ∃ k l m q, Place a b c p k l m q := by
  have hd := (wide_pos h).ne'
  obtain ⟨ux, hux⟩ : ∃ ux, ux = b.x - a.x := ⟨_, rfl⟩
  obtain ⟨uy, huy⟩ : ∃ uy, uy = b.y - a.y := ⟨_, rfl⟩
  obtain ⟨uz, huz⟩ : ∃ uz, uz = b.z - a.z := ⟨_, rfl⟩
  obtain ⟨vx, hvx⟩ : ∃ vx, vx = c.x - a.x := ⟨_, rfl⟩
  obtain ⟨vy, hvy⟩ : ∃ vy, vy = c.y - a.y := ⟨_, rfl⟩
  obtain ⟨vz, hvz⟩ : ∃ vz, vz = c.z - a.z := ⟨_, rfl⟩
  obtain ⟨d, hd'⟩ : ∃ d, d = (uy * vz - uz * vy) ^ 2 + (uz * vx - ux * vz) ^ 2 + (ux * vy - uy * vx) ^ 2 := ⟨_, rfl⟩
  have e : (wide a b c).mod2 = d := by
    unfold wide Vec.mod2 Vec.dot Vec.cross Vec.sub
    simp only
    rw [hd', hux, huy, huz, hvx, hvy, hvz]; ring
  rw [e] at hd
  have bx : b.x = a.x + ux := by rw [hux]; ring
  have bY : b.y = a.y + uy := by rw [huy]; ring
  have bz : b.z = a.z + uz := by rw [huz]; ring
  have cx : c.x = a.x + vx := by rw [hvx]; ring
  have cy : c.y = a.y + vy := by rw [hvy]; ring
  have cz : c.z = a.z + vz := by rw [hvz]; ring
  obtain ⟨wx, hwx⟩ : ∃ wx, wx = p.x - a.x := ⟨_, rfl⟩
  obtain ⟨wy, hwy⟩ : ∃ wy, wy = p.y - a.y := ⟨_, rfl⟩
  obtain ⟨wz, hwz⟩ : ∃ wz, wz = p.z - a.z := ⟨_, rfl⟩
  have px : p.x = a.x + wx := by rw [hwx]; ring
  have py : p.y = a.y + wy := by rw [hwy]; ring
  have pz : p.z = a.z + wz := by rw [hwz]; ring
  let l := (wx * (vy * (ux * vy - uy * vx) - vz * (uz * vx - ux * vz)) + wy * (vz * (uy * vz - uz * vy) - vx * (ux * vy - uy * vx))
    + wz * (vx * (uz * vx - ux * vz) - vy * (uy * vz - uz * vy))) / d
  let m := -(wx * (uy * (ux * vy - uy * vx) - uz * (uz * vx - ux * vz)) + wy * (uz * (uy * vz - uz * vy) - ux * (ux * vy - uy * vx))
    + wz * (ux * (uz * vx - ux * vz) - uy * (uy * vz - uz * vy))) / d
  let q := (wx * (uy * vz - uz * vy) + wy * (uz * vx - ux * vz) + wz * (ux * vy - uy * vx)) / d
  refine ⟨1 - l - m, l, m, q, by ring, ?_, ?_, ?_⟩
  · simp only [← hux, ← huy, ← huz, ← hvx, ← hvy, ← hvz]
    rw [px, bx, cx]
    simp only [l, m, q]
    field_simp
    rw [hd']
    ring
  · simp only [← hux, ← huy, ← huz, ← hvx, ← hvy, ← hvz]
    rw [py, bY, cy]
    simp only [l, m, q]
    field_simp
    rw [hd']
    ring
  · simp only [← hux, ← huy, ← huz, ← hvx, ← hvy, ← hvz]
    rw [pz, bz, cz]
    simp only [l, m, q]
    field_simp
    rw [hd']
    ring

theorem area_scaled {a b c a' b' c' : Vec ℝ} {q : ℝ} (hq : 0 ≤ q) (h : (wide a' b' c').mod2 = q * (wide a b c).mod2) (i j : Nat)
    (o o' : Option Nat) : Tri.area Real.sqrt ⟨i, a', b', c', o⟩ = Real.sqrt q * Tri.area Real.sqrt ⟨j, a, b, c, o'⟩ := by
  rw [area_eq, area_eq, h, Real.sqrt_mul hq]; ring

theorem sq_bound {w e h : ℝ} (he : 0 ≤ e) : |w| ≤ Real.sqrt (w ^ 2 + h ^ 2 * e) := by
  apply Real.abs_le_sqrt
  nlinarith [mul_nonneg (sq_nonneg h) he]

end areas

end Verif

namespace Verif
open Verif.Spec

section inTriangle

theorem isClose_scaled {A S : ℝ} (hA : 0 < A) (hS : 1 ≤ S) : Py.isClose A (S * A) = decide ((1 - 1 / 10 ^ 9) * S ≤ 1) := by
  unfold Py.isClose
  rw [decide_eq_decide]
  have h0 : 0 ≤ S * A := by positivity
  rw [abs_of_pos hA, abs_of_nonneg h0, max_eq_right (by nlinarith), abs_sub_comm, abs_of_nonneg (by nlinarith)]
  constructor
  · intro h
    have : A * ((1 - 1 / 10 ^ 9) * S) ≤ A * 1 := by nlinarith
    exact le_of_mul_le_mul_left this hA
  · intro h
    nlinarith [mul_le_mul_of_nonneg_left h hA.le]

theorem flag_mul {q A : ℝ} (hq : 0 ≤ q) (hA : 0 < A) : Tri.flag (Real.sqrt q * A) = if q = 0 then 0 else 1 := by
  unfold Tri.flag
  congr 1
  rw [eq_iff_iff]
  constructor
  · intro h
    rcases mul_eq_zero.1 h with h | h
    · exact (Real.sqrt_eq_zero hq).1 h
    · exact absurd h hA.ne'
  · rintro rfl; simp

/-- The sum of the three areas, as a multiple of the area of the triangle. -/
noncomputable def spread (t : Tri ℝ) (k l m h : ℝ) : ℝ :=
  Real.sqrt (m ^ 2 + h ^ 2 * (t.b.sub t.a).mod2) + Real.sqrt (l ^ 2 + h ^ 2 * (t.c.sub t.a).mod2)
    + Real.sqrt (k ^ 2 + h ^ 2 * (t.c.sub t.b).mod2)

theorem area_pos {t : Tri ℝ} (hp : Proper t.a t.b t.c) : 0 < t.area Real.sqrt := by
  show 0 < 1 / 2 * Real.sqrt (wide t.a t.b t.c).mod2
  have := Real.sqrt_pos.2 (wide_pos hp)
  positivity

theorem areas {t : Tri ℝ} {p : Vec ℝ} {k l m h : ℝ} (H : Place t.a t.b t.c p k l m h) :
    Tri.area Real.sqrt ⟨0, t.a, t.b, p, none⟩ = Real.sqrt (m ^ 2 + h ^ 2 * (t.b.sub t.a).mod2) * t.area Real.sqrt ∧
    Tri.area Real.sqrt ⟨0, t.a, p, t.c, none⟩ = Real.sqrt (l ^ 2 + h ^ 2 * (t.c.sub t.a).mod2) * t.area Real.sqrt ∧
    Tri.area Real.sqrt ⟨0, p, t.b, t.c, none⟩ = Real.sqrt (k ^ 2 + h ^ 2 * (t.c.sub t.b).mod2) * t.area Real.sqrt := by
  have n (w e : ℝ) (he : 0 ≤ e) : 0 ≤ w ^ 2 + h ^ 2 * e := by positivity
  exact ⟨area_scaled (n _ _ (mod2_nonneg _)) (wide_ab H) 0 t.id none t.back, area_scaled (n _ _ (mod2_nonneg _)) (wide_ca H) 0 t.id none t.back,
    area_scaled (n _ _ (mod2_nonneg _)) (wide_bc H) 0 t.id none t.back⟩

theorem spread_ge {t : Tri ℝ} {k l m h : ℝ} : |k| + |l| + |m| ≤ spread t k l m h := by
  unfold spread
  have h1 := sq_bound (w := m) (h := h) (mod2_nonneg (t.b.sub t.a))
  have h2 := sq_bound (w := l) (h := h) (mod2_nonneg (t.c.sub t.a))
  have h3 := sq_bound (w := k) (h := h) (mod2_nonneg (t.c.sub t.b))
  linarith

theorem one_le_abs {k l m : ℝ} (h : k + l + m = 1) : 1 ≤ |k| + |l| + |m| := by
  have := le_abs_self k; have := le_abs_self l; have := le_abs_self m
  linarith

theorem pointInTriangle_place {r : ℝ → ℝ} {t : Tri ℝ} {p : Vec ℝ} {k l m h : ℝ} (hp : Proper t.a t.b t.c) (H : Place t.a t.b t.c p k l m h)
    (h1 : r (Tri.area Real.sqrt ⟨0, t.a, t.b, p, none⟩) = Tri.area Real.sqrt ⟨0, t.a, t.b, p, none⟩)
    (h2 : r (Tri.area Real.sqrt ⟨0, t.a, p, t.c, none⟩) = Tri.area Real.sqrt ⟨0, t.a, p, t.c, none⟩)
    (h3 : r (Tri.area Real.sqrt ⟨0, p, t.b, t.c, none⟩) = Tri.area Real.sqrt ⟨0, p, t.b, t.c, none⟩) :
    t.pointInTriangle Real.sqrt r p = if (1 - 1 / 10 ^ 9) * spread t k l m h ≤ 1 then
      (if m ^ 2 + h ^ 2 * (t.b.sub t.a).mod2 = 0 then 0 else 1) + (if l ^ 2 + h ^ 2 * (t.c.sub t.a).mod2 = 0 then 0 else 1)
        + (if k ^ 2 + h ^ 2 * (t.c.sub t.b).mod2 = 0 then 0 else 1) else 0 := by
  have n (w e : ℝ) (he : 0 ≤ e) : 0 ≤ w ^ 2 + h ^ 2 * e := by positivity
  have hA := area_pos hp
  obtain ⟨e1, e2, e3⟩ := areas H
  unfold Tri.pointInTriangle
  simp only [h1, h2, h3]
  rw [e1, e2, e3, flag_mul (n _ _ (mod2_nonneg _)) hA, flag_mul (n _ _ (mod2_nonneg _)) hA, flag_mul (n _ _ (mod2_nonneg _)) hA]
  have : Real.sqrt (m ^ 2 + h ^ 2 * (t.b.sub t.a).mod2) * t.area Real.sqrt + Real.sqrt (l ^ 2 + h ^ 2 * (t.c.sub t.a).mod2) * t.area Real.sqrt
      + Real.sqrt (k ^ 2 + h ^ 2 * (t.c.sub t.b).mod2) * t.area Real.sqrt = spread t k l m h * t.area Real.sqrt := by
    unfold spread; ring
  rw [this, isClose_scaled hA ((one_le_abs H.sum).trans spread_ge)]
  simp only [decide_eq_true_eq]

/-- The triangle inequality for three vectors `(w, e)`. -/
theorem minkowski3 (w1 w2 w3 e1 e2 e3 : ℝ) (h1 : 0 ≤ w1) (h2 : 0 ≤ w2) (h3 : 0 ≤ w3) (g1 : 0 ≤ e1) (g2 : 0 ≤ e2) (g3 : 0 ≤ e3) :
    (w1 + w2 + w3) ^ 2 + (e1 + e2 + e3) ^ 2 ≤
      (Real.sqrt (w1 ^ 2 + e1 ^ 2) + Real.sqrt (w2 ^ 2 + e2 ^ 2) + Real.sqrt (w3 ^ 2 + e3 ^ 2)) ^ 2 := by
  have key (a b c d : ℝ) : a * b + c * d ≤ Real.sqrt (a ^ 2 + c ^ 2) * Real.sqrt (b ^ 2 + d ^ 2) := by
    rw [← Real.sqrt_mul (by positivity)]
    apply Real.le_sqrt_of_sq_le
    nlinarith [sq_nonneg (a * d - b * c)]
  have s1 := Real.sq_sqrt (show 0 ≤ w1 ^ 2 + e1 ^ 2 by positivity)
  have s2 := Real.sq_sqrt (show 0 ≤ w2 ^ 2 + e2 ^ 2 by positivity)
  have s3 := Real.sq_sqrt (show 0 ≤ w3 ^ 2 + e3 ^ 2 by positivity)
  nlinarith [key w1 w2 e1 e2, key w1 w3 e1 e3, key w2 w3 e2 e3]

theorem spread_sq (t : Tri ℝ) (k l m h : ℝ) :
    (|k| + |l| + |m|) ^ 2 + (|h| * ((t.b.sub t.a).mod Real.sqrt + (t.c.sub t.a).mod Real.sqrt + (t.c.sub t.b).mod Real.sqrt)) ^ 2
      ≤ spread t k l m h ^ 2 := by
  have e (u : Vec ℝ) (w : ℝ) : w ^ 2 + h ^ 2 * u.mod2 = |w| ^ 2 + (|h| * u.mod Real.sqrt) ^ 2 := by
    rw [mul_pow, sq_abs, sq_abs]
    show _ = _ + h ^ 2 * Real.sqrt u.mod2 ^ 2
    rw [Real.sq_sqrt (mod2_nonneg u)]
  unfold spread
  rw [e, e, e]
  have n (u : Vec ℝ) : 0 ≤ |h| * u.mod Real.sqrt := mul_nonneg (abs_nonneg _) (Real.sqrt_nonneg _)
  have := minkowski3 |m| |l| |k| _ _ _ (abs_nonneg _) (abs_nonneg _) (abs_nonneg _) (n (t.b.sub t.a)) (n (t.c.sub t.a)) (n (t.c.sub t.b))
  calc _ = (|m| + |l| + |k|) ^ 2 + (|h| * (t.b.sub t.a).mod Real.sqrt + |h| * (t.c.sub t.a).mod Real.sqrt + |h| * (t.c.sub t.b).mod Real.sqrt) ^ 2 := by ring
    _ ≤ _ := this

end inTriangle

section segment

theorem isClose_le {x y : ℝ} (hx : 0 ≤ x) (hxy : x ≤ y) : Py.isClose x y = decide ((1 - 1 / 10 ^ 9) * y ≤ x) := by
  unfold Py.isClose
  rw [decide_eq_decide, abs_of_nonneg hx, abs_of_nonneg (hx.trans hxy), max_eq_right hxy, abs_sub_comm, abs_of_nonneg (by linarith)]
  constructor <;> intro h <;> linarith

theorem pointOnVector_eq (v w p : Vec ℝ) : v.pointOnVector Real.sqrt w p =
    decide ((1 - 1 / 10 ^ 9) * (dist (toE v) (toE p) + dist (toE p) (toE w)) ≤ dist (toE v) (toE w)) := by
  unfold Vec.pointOnVector
  rw [distTo_eq, distTo_eq, distTo_eq, isClose_le dist_nonneg (dist_triangle _ _ _)]

end segment

end Verif
