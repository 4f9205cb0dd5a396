import Verif.Proofs.Layer
import Verif.Proofs.LoadGood
import Mathlib.Data.Rat.Sqrt
import Mathlib.Analysis.SpecialFunctions.Sqrt

/-! Properties of remeshing. -/

namespace Verif.Props
open Verif
variable {F R : Type} [Field F] [LinearOrder F]

/-! ### Samples -/

/-- A square of two triangles with ice of the given heights. -/
def iced (h0 h1 : ℚ) : Grid ℚ (ℚ × ℚ × ℚ) := (Sample.flatGrid.setData 0 "Hi".toList h0).setData 1 "Hi".toList h1

theorem iced_mesh (h0 h1 : ℚ) : Mesh (iced h0 h1) := by
  have hm := Sample.flat_wf.mesh
  exact ⟨hm.1, hm.2, hm.3, hm.4, hm.5, hm.6, hm.7, hm.8, hm.9, hm.10, hm.11, hm.12, hm.13, hm.14, hm.15⟩

/-- Options close to the default ones. -/
def icePar (nmin nmax nsm hsm : Int) (redistr : Bool) : RemeshPar ℚ :=
  ⟨Rat.sqrt, fun q => q.num.tdiv q.den, nmin, nmax, 1 / 10, 1 / 2, nsm, 10, 3 / 20, hsm, 1 / 5, 1 / 10, redistr, 0, true, false⟩

/-- One triangle. -/
noncomputable def leaf : Grid ℝ Unit :=
  { (Grid.empty : Grid ℝ Unit) with
    nodes := [0, 1, 2]
    edges := [0, 1, 2]
    faces := [0]
    nP := fun n => match n with | 0 => ⟨0, 0, 0⟩ | 1 => ⟨1, 0, 0⟩ | _ => ⟨0, 1, 0⟩
    nFaces := fun _ => [0]
    nEdges := fun n => match n with | 0 => [0, 2] | 1 => [0, 1] | _ => [1, 2]
    eNodes := fun e => match e with | 0 => [0, 1] | 1 => [1, 2] | _ => [2, 0]
    eFaces := fun _ => [0]
    fNodes := fun _ => [0, 1, 2]
    fEdges := fun _ => [0, 1, 2] }

theorem leaf_mesh : Mesh leaf := by
  constructor
  case node_edge => simp [leaf]; refine ⟨?_, ?_, ?_⟩ <;> rintro (_ | _ | _ | e) <;> simp
  case edge_unique =>
    simp [leaf]
    exact ⟨⟨⟨0, by simp⟩, ⟨1, by simp⟩⟩, ⟨⟨0, by simp⟩, ⟨1, by simp⟩⟩, ⟨1, by simp⟩, ⟨0, by simp⟩⟩
  all_goals simp [leaf]

/-- The triangle with the ice `v`; its nodes grow in the given directions. -/
noncomputable def leafIce (v : ℝ) (d : Nat → Vec ℝ) : Ice ℝ Unit :=
  ⟨leaf, fun _ => v, fun _ => v, fun _ => 0, fun _ => v, fun _ => 0, fun _ => 0, fun _ => ⟨0, 0, 0⟩, fun _ => 0, d, fun _ => 0, fun _ => ⟨0, 0, 0⟩⟩

/-- Directions that spread. -/
noncomputable def spread : Nat → Vec ℝ := fun n => match n with | 0 => ⟨0, 0, 1⟩ | 1 => ⟨1, 0, 1⟩ | _ => ⟨0, 1, 1⟩

noncomputable def leafPar : RemeshPar ℝ :=
  ⟨Real.sqrt, fun q => ⌊q⌋, 0, 1, 1 / 10, 1 / 20, 0, 10, 3 / 20, 0, 1 / 5, 1 / 10, true, 0, true, false⟩

theorem real_sqrt (x : ℝ) (h : 0 ≤ x) : 0 ≤ Real.sqrt x ∧ Real.sqrt x * Real.sqrt x = x := ⟨Real.sqrt_nonneg x, Real.mul_self_sqrt h⟩

theorem of_isOk {α : Type} {x : Res α} (h : x.isOk = true) : ∃ a, x = .ok a := by
  cases x with
  | error e => cases h
  | ok a => exact ⟨a, rfl⟩

/-! ### C49: smoothing of heights -/

/-- Smoothing of heights changes only the distribution of the ice over the faces and the heights, the total of the ice stays. -/
theorem C49_conserved {P : RemeshPar F} {s s' : Ice F R} (hm : Mesh s.g) (h : Ice.heightsSmoothing P s = .ok s') :
    (s.g.faces.map s'.chunk).sum = (s.g.faces.map s.chunk).sum ∧ s'.g = s.g ∧ s'.target = s.target ∧ s'.rest = s.rest ∧
      s'.actual = s.actual := by
  obtain ⟨a, b, c, d, rfl, hs⟩ := Ice.heightsSmoothing_ok hm.faces_nodup (fun e he f hf => ((hm.edge_face e he f).1 hf).1) h
  exact ⟨hs, rfl, rfl, rfl, rfl⟩

/-- The square with different ice on its halves; smoothing moves ice. -/
def halves : Ice ℚ (ℚ × ℚ × ℚ) :=
  match Ice.defineShifts Rat.sqrt ⟨iced 0 0, fun _ => 0, fun _ => 0, fun _ => 0, fun f => if f = 0 then 1 / 4 else 1 / 8, fun _ => 0, fun _ => 0,
    fun _ => ⟨0, 0, 1⟩, fun _ => 0, fun _ => ⟨0, 0, 1⟩, fun _ => 0, fun _ => ⟨0, 0, 0⟩⟩ with
  | .ok s => s
  | .error _ => ⟨Grid.empty, fun _ => 0, fun _ => 0, fun _ => 0, fun _ => 0, fun _ => 0, fun _ => 0, fun _ => ⟨0, 0, 0⟩, fun _ => 0,
      fun _ => ⟨0, 0, 0⟩, fun _ => 0, fun _ => ⟨0, 0, 0⟩⟩

example : ∃ s', Ice.heightsSmoothing (icePar 0 1 0 3 true) halves = .ok s' := of_isOk (by decide +kernel)
example : ((Ice.heightsSmoothing (icePar 0 1 0 1 true) halves).map fun s => (s.chunk 0, s.chunk 1)) = .ok (49 / 200, 13 / 100) := by
  decide +kernel

/-! ### C50: the ice of a face during a run -/

/-- A run consists of the calculated number of steps; the grid has the same faces with the same nodes all the time. -/
theorem C50_steps {P : RemeshPar F} {g : Grid F R} {r : Ice F R} (hm : Mesh g) (h : Ice.run P g = .ok r) :
    ∃ (k : Int) (ss : Nat → Ice F R), g.calculateNsteps P = .ok k ∧ IceSteps P g k.toNat ss r ∧
      ∀ i ≤ k.toNat, Mesh (ss i).g ∧ (ss i).g.faces = g.faces ∧ (ss i).g.fNodes = g.fNodes := by
  obtain ⟨k, ss, hk, -, hs, ht, -⟩ := run_ok hm h
  refine ⟨k, ss, hk, hs, fun i hi => ⟨(ht i hi).mesh hm, ?_⟩⟩
  obtain ⟨p, b, c, e, -⟩ := ht i hi
  rw [e]
  exact ⟨rfl, rfl⟩

/-- In a step every face gets the volume between its old and new position. The whole ice assigned to the faces is the rest divided by
the number of steps to go; without smoothing of heights this is so for each face. -/
theorem C50_step {P : RemeshPar F} {k : Int} {s s' : Ice F R} (hm : Mesh s.g) (h : Ice.turn P k s = .ok s') :
    (s.g.faces.map s'.chunk).sum = (s.g.faces.map fun f => s.rest f / k).sum ∧
      ∀ f ∈ s.g.faces, (P.hsmoothSteps ≤ 0 → s'.chunk f = s.rest f / k) ∧ s'.actual f = s.actual f + grown s.g s'.g f ∧
        (P.redistr = true → s'.rest f = max 0 (s.rest f - grown s.g s'.g f)) ∧ (P.redistr = false → s'.rest f = s.rest f) := by
  obtain ⟨-, -, -, h1, h2⟩ := Ice.turn_ok hm h
  refine ⟨h1, fun f hf => ?_⟩
  obtain ⟨-, h3, h4, h5⟩ := h2 f hf
  refine ⟨h3, h4, fun hr => ?_, fun hr => ?_⟩
  · rw [h5, if_pos hr]
    split_ifs with h0
    · exact (max_eq_left h0.le).symm
    · exact (max_eq_right (not_lt.1 h0)).symm
  · rw [h5, hr]
    simp

section
variable [IsStrictOrderedRing F]

/-- With redistribution, the ice on a face and the ice still to grow are together at least the target after every step, and they are
equal to it as long as no step puts more ice on the face than is left for it. -/
theorem C50_budget {P : RemeshPar F} {g : Grid F R} {n : Nat} {ss : Nat → Ice F R} {r : Ice F R} (hs : IceSteps P g n ss r)
    (hm : ∀ i ≤ n, Mesh (ss i).g ∧ (ss i).g.faces = g.faces) (hr : P.redistr = true) {f : Nat} (hf : f ∈ g.faces) {i : Nat} (hi : i ≤ n) :
    (ss i).target f ≤ (ss i).actual f + (ss i).rest f ∧
      ((∀ j < i, grown (ss j).g (ss (j + 1)).g f ≤ (ss j).rest f) → (ss i).actual f + (ss i).rest f = (ss i).target f) := by
  induction i with
  | zero => rw [hs.actual f hf, hs.rest f hf, zero_add]; exact ⟨le_rfl, fun _ => rfl⟩
  | succ i ih =>
    obtain ⟨ih1, ih2⟩ := ih (by omega)
    obtain ⟨-, h2⟩ := C50_step (hm i (by omega)).1 (hs.next i (by omega))
    obtain ⟨-, ha, hrest, -⟩ := h2 f (by rw [(hm i (by omega)).2]; exact hf)
    have ht : (ss (i + 1)).target f = (ss i).target f := by rw [hs.target _ hi f hf, hs.target i (by omega) f hf]
    rw [ht, ha, hrest hr]
    refine ⟨?_, fun hj => ?_⟩
    · have := le_max_right 0 ((ss i).rest f - grown (ss i).g (ss (i + 1)).g f)
      linarith
    · rw [max_eq_right (sub_nonneg.2 (hj i (by omega))), ← ih2 fun j hj' => hj j (by omega)]
      ring

/-- If every step puts exactly the assigned ice on the face, the face has its target at the end and nothing is left; the ice assigned
in the steps sums up to the target. -/
theorem C50_exact {P : RemeshPar F} {g : Grid F R} {n : Nat} {ss : Nat → Ice F R} {r : Ice F R} (hs : IceSteps P g n ss r)
    (hm : ∀ i ≤ n, Mesh (ss i).g ∧ (ss i).g.faces = g.faces) (hr : P.redistr = true) {f : Nat} (hf : f ∈ g.faces) (hn : 0 < n)
    (h0 : 0 ≤ (ss 0).target f) (he : ∀ i < n, grown (ss i).g (ss (i + 1)).g f = (ss i).rest f / ((n : F) - i)) :
    r.actual f = r.target f ∧ r.rest f = 0 ∧ ((List.range n).map fun i => (ss i).rest f / ((n : F) - i)).sum = r.target f := by
  have hn0 : (n : F) ≠ 0 := by exact_mod_cast hn.ne'
  have key : ∀ i ≤ n, (ss i).rest f = (ss 0).target f * ((n : F) - i) / n ∧ (ss i).actual f = (ss 0).target f * i / n ∧
      ((List.range i).map fun i => (ss i).rest f / ((n : F) - i)).sum = (ss i).actual f := by
    intro i
    induction i with
    | zero =>
      intro _
      rw [hs.actual f hf, hs.rest f hf]
      simp [hn0]
    | succ i ih =>
      intro hi
      obtain ⟨h1, h2, h3⟩ := ih (by omega)
      obtain ⟨-, hst⟩ := C50_step (hm i (by omega)).1 (hs.next i (by omega))
      obtain ⟨-, ha, hrest, -⟩ := hst f (by rw [(hm i (by omega)).2]; exact hf)
      have hlt : (i : F) + 1 ≤ n := by exact_mod_cast hi
      have hd : (n : F) - i ≠ 0 := by intro h; linarith
      have hpos : (0 : F) < n := by exact_mod_cast hn
      have hg := he i (by omega)
      rw [h1] at hg
      have hg' : grown (ss i).g (ss (i + 1)).g f = (ss 0).target f / n := by rw [hg]; field_simp
      have e1 : (ss i).rest f - grown (ss i).g (ss (i + 1)).g f = (ss 0).target f * ((n : F) - (i + 1)) / n := by
        rw [hg', h1]; ring
      refine ⟨?_, ?_, ?_⟩
      · rw [hrest hr, e1, max_eq_right]
        · push_cast; rfl
        · exact div_nonneg (mul_nonneg h0 (by linarith)) hpos.le
      · rw [ha, hg', h2]; push_cast; ring
      · rw [List.range_succ, List.map_append, List.sum_append, h3, ha, he i (by omega)]
        simp
  obtain ⟨h1, h2, h3⟩ := key n le_rfl
  obtain ⟨-, l2, l3, l4⟩ := hs.last
  have ht : r.target f = (ss 0).target f := by rw [l4, hs.target n le_rfl f hf, hs.target 0 (by omega) f hf]
  rw [ht, l2, l3]
  have e : (ss n).actual f = (ss 0).target f := by rw [h2]; field_simp
  refine ⟨e, by rw [h1]; simp, by rw [h3, e]⟩

/-- Without redistribution nothing is subtracted from the ice to grow: step `i` (counted from 0) assigns `target / (n - i)`, the last one
the whole target. -/
theorem C50_without_redistribution {P : RemeshPar F} {g : Grid F R} {n : Nat} {ss : Nat → Ice F R} {r : Ice F R} (hs : IceSteps P g n ss r)
    (hm : ∀ i ≤ n, Mesh (ss i).g ∧ (ss i).g.faces = g.faces) (hr : P.redistr = false) (h0 : P.hsmoothSteps ≤ 0) {f : Nat} (hf : f ∈ g.faces)
    {i : Nat} (hi : i < n) : (ss (i + 1)).chunk f = (ss 0).target f / ((n : F) - i) := by
  have key : ∀ j ≤ n, (ss j).rest f = (ss 0).target f := by
    intro j
    induction j with
    | zero => exact fun _ => hs.rest f hf
    | succ j ih =>
      intro hj
      obtain ⟨-, hst⟩ := C50_step (hm j (by omega)).1 (hs.next j (by omega))
      rw [(hst f (by rw [(hm j (by omega)).2]; exact hf)).2.2.2 hr, ih (by omega)]
  obtain ⟨-, hst⟩ := C50_step (hm i (by omega)).1 (hs.next i (by omega))
  rw [(hst f (by rw [(hm i (by omega)).2]; exact hf)).1 h0, key i (by omega)]
  push_cast
  rfl

/-- Runs with one and with two steps; equal ice on the flat square is deposited exactly. -/
example : Mesh (iced (1 / 2) (1 / 4)) ∧ ∃ r, Ice.run (icePar 0 2 0 0 true) (iced (1 / 2) (1 / 4)) = .ok r :=
  ⟨iced_mesh _ _, of_isOk (by decide +kernel)⟩
example : (Ice.run (icePar 0 2 0 0 true) (iced (1 / 2) (1 / 2))).map (fun r => r.g.faces.map fun f => (r.target f, r.actual f, r.rest f)) =
    .ok [(1 / 4, 1 / 4, 0), (1 / 4, 1 / 4, 0)] := by decide +kernel
/-- With different heights the first face gets less and the second one more than planned. -/
example : (Ice.run (icePar 0 1 0 0 true) (iced (1 / 2) (1 / 4))).map (fun r => r.g.faces.map fun f => (r.target f, r.actual f, r.rest f)) =
    .ok [(1 / 4, 5 / 24, 1 / 24), (1 / 8, 1 / 6, 0)] := by decide +kernel
/-- Without redistribution, two steps put one and a half of the planned ice on the faces. -/
example : (Ice.run (icePar 0 2 0 0 false) (iced (1 / 2) (1 / 2))).map (fun r => r.g.faces.map fun f => (r.target f, r.actual f, r.rest f)) =
    .ok [(1 / 4, 3 / 8, 1 / 4), (1 / 4, 3 / 8, 1 / 4)] := by decide +kernel

/-- The states of the run with equal ice. -/
def iceStates : Nat → Ice ℚ (ℚ × ℚ × ℚ)
  | 0 => match Ice.start (icePar 0 2 0 0 true) (iced (1 / 2) (1 / 2)) with | .ok s => s | .error _ => halves
  | i + 1 => match Ice.turn (icePar 0 2 0 0 true) (2 - i) (iceStates i) with | .ok s => s | .error _ => halves

example : (∀ i < 2, Ice.turn (icePar 0 2 0 0 true) (2 - (i : Nat)) (iceStates i) = .ok (iceStates (i + 1))) ∧
    (∀ i < 2, ∀ f ∈ [0, 1], grown (iceStates i).g (iceStates (i + 1)).g f = (iceStates i).rest f / (2 - (i : ℚ))) ∧
    0 ≤ (iceStates 0).target 0 := by
  refine ⟨fun i hi => ?_, by decide +kernel, by decide +kernel⟩
  have h : ∀ i < 2, (Ice.turn (icePar 0 2 0 0 true) (2 - (i : Nat)) (iceStates i)).isOk = true := by decide +kernel
  obtain ⟨s, hs⟩ := of_isOk (h i hi)
  rw [hs]
  show _ = Except.ok (match Ice.turn (icePar 0 2 0 0 true) (2 - (i : Nat)) (iceStates i) with | .ok s => s | .error _ => halves)
  rw [hs]

/-! ### C51: the height of the ice on a face -/

/-- The height of a face with non-negative ice is not negative. -/
theorem C51_nonneg {sqrt : F → F} (hs : ∀ x, 0 ≤ x → 0 ≤ sqrt x ∧ sqrt x * sqrt x = x) {s s' : Ice F R}
    (h : Ice.defineShifts sqrt s = .ok s') {f : Nat} (hf : f ∈ s.g.faces) (h3 : (s.g.fNodes f).length = 3) (hc : 0 ≤ s.chunk f) :
    0 ≤ s'.fShift f := by
  obtain ⟨a, b, rfl, ha, -⟩ := Ice.defineShifts_ok h
  obtain ⟨n1, n2, n3, h3⟩ := List.length_eq_three.1 h3
  obtain ⟨h1, h2, h4⟩ := Ice.faceShift_ok hs (ha f hf) h3
  have hq : 0 ≤ s.chunk f / faceArea sqrt s.g f := div_nonneg hc h1.le
  show 0 ≤ a f
  rcases le_or_gt (s.chunk f) (1 / 10 ^ 10) with h5 | h5
  · rw [h2 h5]; exact hq
  · obtain ⟨n, b, c, -, -, e⟩ := h4 h5
    rw [e]
    exact Ice.solveShift_nonneg hq

/-- Missing for C51: ice of 1e-10 or less and quadratic coefficients of 1e-10 or less, see `C51_small_violation`. Otherwise, if the
discriminant is not negative, the height is the smallest non-negative solution of `a h + b h² = V`. Here `a` and `b` come from the area of
the layer of ice in dependence on its height, `V` is the ice of the face. -/
theorem C51_root_partial {sqrt : F → F} (hs : ∀ x, 0 ≤ x → 0 ≤ sqrt x ∧ sqrt x * sqrt x = x) {s s' : Ice F R}
    (h : Ice.defineShifts sqrt s = .ok s') {f n1 n2 n3 : Nat} (hf : f ∈ s.g.faces) (h3 : s.g.fNodes f = [n1, n2, n3])
    (hV : 1 / 10 ^ 10 < s.chunk f) : ∃ n a b c, (⟨0, s.g.nP n1, s.g.nP n2, s.g.nP n3, none⟩ : Tri F).normalOrth sqrt = .ok n ∧
      LayerCoefs n (s.g.nP n1) (s.g.nP n2) (s.g.nP n3) (s.nDir n1) (s.nDir n2) (s.nDir n3) a b c ∧ a = faceArea sqrt s.g f ∧ 0 < a ∧
      (1 / 10 ^ 10 < |b| → 0 ≤ a * a + 4 * b * s.chunk f →
        0 ≤ s'.fShift f ∧ a * s'.fShift f + b * s'.fShift f ^ 2 = s.chunk f ∧
          ∀ k, 0 ≤ k → a * k + b * k ^ 2 = s.chunk f → s'.fShift f ≤ k) ∧
      (|b| ≤ 1 / 10 ^ 10 ∨ a * a + 4 * b * s.chunk f < 0 → a * s'.fShift f = s.chunk f) := by
  obtain ⟨a, b, rfl, ha, -⟩ := Ice.defineShifts_ok h
  obtain ⟨h1, -, h4⟩ := Ice.faceShift_ok hs (ha f hf) h3
  obtain ⟨n, b, c, hn, hl, e⟩ := h4 hV
  refine ⟨n, _, b, c, hn, hl, rfl, h1, fun hb hd => ?_, fun hb => ?_⟩
  · dsimp only
    rw [e]
    exact Ice.solveShift_root hs h1 (lt_trans (by positivity) hV) hb hd
  · show _ * a f = _
    rw [e, Ice.solveShift_linear hb, mul_div_cancel₀ _ h1.ne']

/-- Ice of 1e-10 or less is spread with the linear formula, which does not solve the equation unless the quadratic coefficient is 0. -/
theorem C51_small_violation {sqrt : F → F} (hs : ∀ x, 0 ≤ x → 0 ≤ sqrt x ∧ sqrt x * sqrt x = x) {s s' : Ice F R}
    (h : Ice.defineShifts sqrt s = .ok s') {f n1 n2 n3 : Nat} (hf : f ∈ s.g.faces) (h3 : s.g.fNodes f = [n1, n2, n3])
    (h0 : 0 < s.chunk f) (hV : s.chunk f ≤ 1 / 10 ^ 10) {b : F} (hb : b ≠ 0) :
    faceArea sqrt s.g f * s'.fShift f + b * s'.fShift f ^ 2 ≠ s.chunk f := by
  obtain ⟨a, b', rfl, ha, -⟩ := Ice.defineShifts_ok h
  obtain ⟨h1, h2, -⟩ := Ice.faceShift_ok hs (ha f hf) h3
  show _ * a f + b * a f ^ 2 ≠ _
  rw [h2 hV, mul_div_cancel₀ _ h1.ne']
  have : 0 < s.chunk f / faceArea sqrt s.g f := div_pos h0 h1
  intro h
  rw [add_eq_left] at h
  rcases mul_eq_zero.1 h with h | h
  · exact hb h
  · exact this.ne' (by simpa using h)

/-- Spreading directions over a triangle of area 1/2: the ice 1 gives the height 1. -/
example : ((Ice.defineShifts Real.sqrt (leafIce 1 spread)).map fun s => s.fShift 0) = .ok 1 ∧ (1 : ℝ) / 10 ^ 10 < (leafIce 1 spread).chunk 0 ∧
    (leafIce 1 spread).g.fNodes 0 = [0, 1, 2] ∧ 0 ∈ (leafIce 1 spread).g.faces := by
  have h : Real.sqrt (9 / 4) = 3 / 2 := by rw [show (9 : ℝ) / 4 = (3 / 2) ^ 2 by norm_num]; exact Real.sqrt_sq (by norm_num)
  refine ⟨?_, by norm_num [leafIce], rfl, by simp [leafIce, leaf]⟩
  simp [Ice.defineShifts, leafIce, leaf, spread, Grid.triangle, Py.get, Tri.normalOrth, Vec.orth, Vec.div, Vec.sub, Vec.cross, Vec.mod,
      Vec.mod2, Vec.dot, Vec.smul, upd, Vec.add, Ice.faceShift, Tri.area, prizmatoidCoefs, Ice.solveShift, Ice.nodeShift]
  norm_num [h, Except.map]

end

/-! ### C52: the number of steps -/

/-- The number of steps is within its bounds. If no more faces than may be ignored need more steps than the maximum, no more faces than
may be ignored need more steps than chosen; otherwise the maximum is chosen. -/
theorem C52_bounds {P : RemeshPar F} {g : Grid F R} (h3 : ∀ f ∈ g.faces, (g.fNodes f).length = 3) {m : Nat}
    (hi : P.trunc (g.faces.length * P.ignorePart) = m) {r : Int} (h : g.calculateNsteps P = .ok r) :
    P.nstepsMin ≤ r ∧ r ≤ P.nstepsMax ∧
      ((g.faces.filter fun f => decide (P.nstepsMax < stepsNeeded P g f)).length ≤ m →
        (g.faces.filter fun f => decide (r < stepsNeeded P g f)).length ≤ m) ∧
      (m < (g.faces.filter fun f => decide (P.nstepsMax < stepsNeeded P g f)).length → r = P.nstepsMax) := by
  unfold Grid.calculateNsteps at h
  split_ifs at h with hmm
  have hmm := not_lt.1 hmm
  obtain ⟨l, hl, h⟩ := res_bind_eq_ok.1 h
  obtain rfl := Grid.mapM_steps h3 hl
  dsimp only at h
  obtain ⟨L, hL⟩ : ∃ L, L = ((g.faces.map (stepsNeeded P g)).insertionSort (· ≤ ·)).reverse := ⟨_, rfl⟩
  rw [← hL] at h
  have hp : L.Perm (g.faces.map (stepsNeeded P g)) := by
    rw [hL]; exact (List.reverse_perm _).trans (List.perm_insertionSort _ _)
  have hsort : L.Pairwise (· ≥ ·) := by
    rw [hL, List.pairwise_reverse]
    exact List.pairwise_insertionSort (r := (· ≤ · : Int → Int → Prop)) _
  have hlen : L.length = g.faces.length := by rw [hp.length_eq, List.length_map]
  have hcount : ∀ x : Int, (g.faces.filter fun f => decide (x < stepsNeeded P g f)).length = L.countP (fun y => decide (x < y)) := by
    intro x
    rw [hp.countP_eq, List.countP_map, List.countP_eq_length_filter]
    rfl
  rw [hcount, hcount]
  rw [hlen, hi, get_ofNat] at h
  obtain ⟨x, hx, h⟩ := res_bind_eq_ok.1 h
  have hx' : L[m]? = some x := by
    cases hq : L[m]? with
    | none => rw [hq] at hx; cases hx
    | some y => rw [hq] at hx; rw [Except.ok.inj hx]
  rw [Int.toNat_natCast] at h
  obtain ⟨y, hy⟩ : ∃ y, y = (if x > P.nstepsMax then P.nstepsMax else Grid.firstAtMost P.nstepsMax (L.take m)) := ⟨_, rfl⟩
  rw [← hy] at h
  have hr := (Except.ok.inj h).symm
  have hyr : y ≤ r := by rw [hr]; split_ifs <;> omega
  by_cases hxm : x > P.nstepsMax
  · rw [if_pos hxm] at hy
    have : r = P.nstepsMax := by rw [hr, hy]; split_ifs <;> omega
    refine ⟨by omega, by omega, fun h => ?_, fun _ => this⟩
    exact absurd (Grid.count_more hsort hx' hxm) (by omega)
  · rw [if_neg hxm] at hy
    have hdrop := Grid.drop_le hsort hx'
    have hyle : y ≤ P.nstepsMax ∧ ∀ z ∈ L.drop m, z ≤ y := by
      rw [hy]
      unfold Grid.firstAtMost
      cases hq : (L.take m).find? (fun x => decide (x ≤ P.nstepsMax)) with
      | none => exact ⟨le_rfl, fun z hz => (hdrop z hz).trans (not_lt.1 hxm)⟩
      | some w =>
        refine ⟨by simpa using List.find?_some hq, fun z hz => ?_⟩
        exact Grid.take_drop_ge hsort (List.mem_of_find?_eq_some hq) hz
    refine ⟨by rw [hr]; split_ifs <;> omega, by rw [hr]; split_ifs <;> omega, fun _ => ?_, fun h => ?_⟩
    · exact Grid.count_above fun z hz => (hyle.2 z hz).trans hyr
    · exact absurd (Grid.count_above fun z hz => (hdrop z hz).trans (not_lt.1 hxm)) (by omega)

/-- If no face may be ignored, the maximum is chosen, whatever the faces need. -/
theorem C52_nothing_ignored {P : RemeshPar F} {g : Grid F R} (hi : P.trunc (g.faces.length * P.ignorePart) = 0) {r : Int}
    (h : g.calculateNsteps P = .ok r) : r = P.nstepsMax := by
  unfold Grid.calculateNsteps at h
  split_ifs at h with hmm
  obtain ⟨l, hl, h⟩ := res_bind_eq_ok.1 h
  dsimp only at h
  have hlen : l.length = g.faces.length := mapM_length hl
  rw [List.length_reverse, List.length_insertionSort, hlen, hi] at h
  obtain ⟨x, hx, h⟩ := res_bind_eq_ok.1 h
  rw [← Except.ok.inj h]
  simp only [Int.toNat_zero, List.take_zero, Grid.firstAtMost, List.find?_nil, Option.getD_none, ite_self]
  rw [if_neg (by omega)]

/-- A minimum over the maximum is rejected. -/
theorem C52_rejected {P : RemeshPar F} {g : Grid F R} (h : P.nstepsMax < P.nstepsMin) :
    g.calculateNsteps P = .error (.exc "nsteps_max can not be less than nsteps_min") := by
  unfold Grid.calculateNsteps
  rw [if_pos h]

/-- If all faces may be ignored, the number is not found. -/
theorem C52_all_ignored {P : RemeshPar F} {g : Grid F R} {m : Nat} (hi : P.trunc (g.faces.length * P.ignorePart) = m)
    (hm : g.faces.length ≤ m) {r : Int} : g.calculateNsteps P ≠ .ok r := by
  intro h
  unfold Grid.calculateNsteps at h
  split_ifs at h with hmm
  obtain ⟨l, hl, h⟩ := res_bind_eq_ok.1 h
  dsimp only at h
  have hlen : l.length = g.faces.length := mapM_length hl
  rw [List.length_reverse, List.length_insertionSort, hlen, hi, get_ofNat] at h
  rw [List.getElem?_eq_none (by rw [List.length_reverse, List.length_insertionSort]; omega)] at h
  cases h

/-- One of the two faces may be ignored; the chosen number is enough for both. -/
example : (∀ f ∈ (iced (1 / 2) (1 / 4)).faces, ((iced (1 / 2) (1 / 4)).fNodes f).length = 3) ∧
    (icePar 0 9 0 0 true).trunc ((iced (1 / 2) (1 / 4)).faces.length * (icePar 0 9 0 0 true).ignorePart) = (1 : Nat) ∧
    (iced (1 / 2) (1 / 4)).calculateNsteps (icePar 0 9 0 0 true) = .ok 6 ∧
    (iced (1 / 2) (1 / 4)).faces.map (stepsNeeded (icePar 0 9 0 0 true) (iced (1 / 2) (1 / 4))) = [6, 3] := by decide +kernel
/-- None may be ignored: 9 steps though 6 are enough. -/
example : (iced (1 / 2) (1 / 4)).calculateNsteps { icePar 0 9 0 0 true with ignorePart := 1 / 3 } = .ok 9 := by decide +kernel
/-- All may be ignored. -/
example : (iced (1 / 2) (1 / 4)).calculateNsteps { icePar 0 9 0 0 true with ignorePart := 1 } = .error .index := by decide +kernel
example : (icePar 3 2 0 0 true).nstepsMax < (icePar 3 2 0 0 true).nstepsMin := by decide

/-! ### C53: border nodes -/

/-- After marking, the border nodes are the ends of the edges with one face, their number is right, nothing else has changed and marking
again changes nothing. -/
theorem C53_marked {g : Grid F R} (hm : Mesh g) (h0 : ∀ n ∈ g.nodes, g.nBorder n = false) (hc : g.borderCnt = 0) :
    (∀ n ∈ g.nodes, g.markFixedNodes.nBorder n = true ↔ ∃ e ∈ g.edges, (g.eFaces e).length = 1 ∧ n ∈ g.eNodes e) ∧
      g.markFixedNodes.borderCnt = (g.nodes.filter g.markFixedNodes.nBorder).length ∧
      g.markFixedNodes.markFixedNodes = g.markFixedNodes ∧
      g.markFixedNodes = { g with nBorder := g.markFixedNodes.nBorder, borderCnt := g.markFixedNodes.borderCnt } := by
  obtain ⟨b, c, e⟩ := Grid.marks_frame (g.borderEnds g.edges) g
  have hb : ∀ n ∈ g.nodes, (g.markFixedNodes.nBorder n = true ↔ n ∈ g.borderEnds g.edges) := by
    intro n hn
    rw [Grid.markFixed_eq, Grid.marks_border, h0 n hn]
    simp
  refine ⟨fun n hn => (hb n hn).trans Grid.mem_borderEnds, ?_, ?_, ?_⟩
  · have h1 := Grid.marks_count hm.nodes_nodup (g.borderEnds g.edges) (fun n hn => by
      obtain ⟨e, he, -, hne⟩ := Grid.mem_borderEnds.1 hn
      exact (hm.edge_nodes e he).2.2 n hne) g
    rw [← Grid.markFixed_eq, hc] at h1
    have h2 : g.nodes.countP g.nBorder = 0 := by
      rw [List.countP_eq_zero]
      intro n hn
      rw [h0 n hn]
      simp
    rw [h2, List.countP_eq_length_filter] at h1
    push_cast at h1
    omega
  · rw [Grid.markFixed_eq g.markFixedNodes]
    refine Grid.marks_again _ _ fun n hn => ?_
    rw [Grid.mem_borderEnds] at hn
    rw [Grid.markFixed_eq, e] at hn
    obtain ⟨d, hd, h1, h2⟩ := hn
    rw [hb n ((hm.edge_nodes d hd).2.2 n h2), Grid.mem_borderEnds]
    exact ⟨d, hd, h1, h2⟩
  · rw [Grid.markFixed_eq, e]

/-- All four corners of the square are border nodes, and no node of a tetrahedron is. -/
example : (∀ n ∈ (iced 0 0).nodes, (iced 0 0).nBorder n = false) ∧ (iced 0 0).borderCnt = 0 ∧ (iced 0 0).nodes.map (iced 0 0).markFixedNodes.nBorder = [true, true, true, true] ∧
    (iced 0 0).markFixedNodes.borderCnt = 4 := by decide +kernel
example : Sample.tetraGrid.nodes.map Sample.tetraGrid.markFixedNodes.nBorder = [false, false, false, false] := by decide +kernel

/-! ### C63: the volume between two positions of a triangle -/

section
variable [IsStrictOrderedRing F]

/-- The volume is not negative. -/
theorem C63_nonneg (a b c a' b' c' : Vec F) : 0 ≤ displacedVolume a b c a' b' c' := by
  unfold displacedVolume tetraVolume; positivity

/-- The volume of a triangle that is moved by `t` as a whole is its area times the length of `t` along the normal. -/
theorem C63_translation (a b c t : Vec F) : displacedVolume a b c (a.add t) (b.add t) (c.add t) =
    1 / 2 * |t.x * ((b.y - a.y) * (c.z - a.z) - (b.z - a.z) * (c.y - a.y)) + t.y * ((b.z - a.z) * (c.x - a.x) - (b.x - a.x) * (c.z - a.z))
      + t.z * ((b.x - a.x) * (c.y - a.y) - (b.y - a.y) * (c.x - a.x))| := by
  have := Ice.volume4_translate a b c t
  rw [one_div_mul_eq_div, ← this]
  rfl

/-- The volume of a triangle that does not move is 0. -/
theorem C63_still (a b c : Vec F) : displacedVolume a b c a b c = 0 := by
  have := C63_translation a b c ⟨0, 0, 0⟩
  simpa [Vec.add] using this

/-- Corners that move along parallel lines: the volume is the area of the cross section times the mean of the lengths. -/
theorem C63_prism (a b c d : Vec F) {x y z : F} (hx : 0 ≤ x) (hy : 0 ≤ y) (hz : 0 ≤ z) :
    displacedVolume a b c (a.add (d.smul x)) (b.add (d.smul y)) (c.add (d.smul z)) =
      1 / 2 * |d.x * ((b.y - a.y) * (c.z - a.z) - (b.z - a.z) * (c.y - a.y)) + d.y * ((b.z - a.z) * (c.x - a.x) - (b.x - a.x) * (c.z - a.z))
        + d.z * ((b.x - a.x) * (c.y - a.y) - (b.y - a.y) * (c.x - a.x))| * ((x + y + z) / 3) := by
  obtain ⟨D, hD⟩ : ∃ D, D = d.x * ((b.y - a.y) * (c.z - a.z) - (b.z - a.z) * (c.y - a.y)) +
    d.y * ((b.z - a.z) * (c.x - a.x) - (b.x - a.x) * (c.z - a.z)) + d.z * ((b.x - a.x) * (c.y - a.y) - (b.y - a.y) * (c.x - a.x)) := ⟨_, rfl⟩
  rw [← hD]
  have h1 : tetraVolume a b c (c.add (d.smul z)) = |D| * z / 6 := by
    unfold tetraVolume
    rw [← abs_of_nonneg hz, ← abs_mul, ← abs_neg, abs_of_nonneg hz, hD]
    congr 2
    simp only [Vec.dot, Vec.cross, Vec.sub, Vec.add, Vec.smul]
    ring
  have h2 : tetraVolume a b (b.add (d.smul y)) (c.add (d.smul z)) = |D| * y / 6 := by
    unfold tetraVolume
    rw [← abs_of_nonneg hy, ← abs_mul, abs_of_nonneg hy, hD]
    congr 2
    simp only [Vec.dot, Vec.cross, Vec.sub, Vec.add, Vec.smul]
    ring
  have h3 : tetraVolume a (a.add (d.smul x)) (b.add (d.smul y)) (c.add (d.smul z)) = |D| * x / 6 := by
    unfold tetraVolume
    rw [← abs_of_nonneg hx, ← abs_mul, ← abs_neg, abs_of_nonneg hx, hD]
    congr 2
    simp only [Vec.dot, Vec.cross, Vec.sub, Vec.add, Vec.smul]
    ring
  unfold displacedVolume
  rw [h1, h2, h3]
  ring

end

/-- The volume of a triangle that is turned while it moves depends on which corner is named first. -/
theorem C63_order_violation : ∃ a b c a' b' c' : Vec ℚ, displacedVolume a b c a' b' c' ≠ displacedVolume b c a b' c' a' :=
  ⟨⟨0, 0, 0⟩, ⟨1, 0, 0⟩, ⟨0, 1, 0⟩, ⟨0, 0, 1⟩, ⟨1, 1, 1⟩, ⟨0, 1, 1⟩, by decide +kernel⟩

/-- The unit right triangle lifted by 1, 2 and 3. -/
example : displacedVolume (⟨0, 0, 0⟩ : Vec ℚ) ⟨1, 0, 0⟩ ⟨0, 1, 0⟩ ⟨0, 0, 1⟩ ⟨1, 0, 2⟩ ⟨0, 1, 3⟩ = 1 := by decide +kernel

/-! ### C64: what remeshing changes -/

/-- Remeshing changes the positions of the nodes of the grid, border marks and ice heights, which become zero, and nothing else. -/
theorem C64_changes {P : RemeshPar F} {g : Grid F R} {r : Ice F R} (hm : Mesh g) (h : Ice.run P g = .ok r) : Remeshed g r.g :=
  run_remeshed hm h

/-- A run that moves the corners of the square; the ice is removed. -/
example : Mesh (iced (1 / 2) (1 / 2)) ∧ (Ice.run (icePar 0 2 0 0 true) (iced (1 / 2) (1 / 2))).map (fun r => (r.g.nodes.map fun n => (r.g.nP n).z,
    r.g.faces.map fun f => r.g.getData 7 f "Hi".toList)) = .ok ([1 / 2, 1 / 2, 1 / 2, 1 / 2], [0, 0]) := ⟨iced_mesh _ _, by decide +kernel⟩

/-! ### C65: no ice, no change -/

section
variable [IsStrictOrderedRing F]

/-- If no face has ice, remeshing moves nothing. -/
theorem C65_no_ice {P : RemeshPar F} {g : Grid F R} {r : Ice F R} (hm : Mesh g) (h : Ice.run P g = .ok r)
    (h0 : ∀ f ∈ g.faces, g.getData 0 f "Hi".toList = 0) : r.g.nP = g.nP := by
  obtain ⟨k, ss, -, -, hs, ht, -⟩ := run_ok hm h
  have key : ∀ i ≤ k.toNat, (ss i).g.nP = g.nP ∧ ∀ f ∈ g.faces, (ss i).rest f = 0 := by
    intro i
    induction i with
    | zero =>
      intro _
      refine ⟨hs.first, fun f hf => ?_⟩
      rw [hs.rest f hf, hs.target 0 (by omega) f hf, h0 f hf, mul_zero]
    | succ i ih =>
      intro hi
      obtain ⟨h1, h2⟩ := ih (by omega)
      have hmi := (ht i (by omega)).mesh hm
      have hfs : (ss i).g.faces = g.faces := by obtain ⟨p, b, c, e, -⟩ := ht i (by omega); rw [e]
      refine ⟨(Ice.turn_still_all hmi (hs.next i (by omega)) (by rw [hfs]; exact h2)).trans h1, fun f hf => ?_⟩
      exact Ice.turn_rest_zero hmi (hs.next i (by omega)) (by rw [hfs]; exact hf) (h2 f hf)
  rw [hs.last.1]
  exact (key _ le_rfl).1

/-- Without smoothing of heights, a node none of whose faces has ice is not moved. -/
theorem C65_no_ice_around {P : RemeshPar F} {g : Grid F R} {r : Ice F R} (hm : Mesh g) (h : Ice.run P g = .ok r) (hh : P.hsmoothSteps ≤ 0)
    {n : Nat} (hn : n ∈ g.nodes) (h0 : ∀ f ∈ g.faces, n ∈ g.fNodes f → g.getData 0 f "Hi".toList = 0) : r.g.nP n = g.nP n := by
  obtain ⟨k, ss, -, -, hs, ht, -⟩ := run_ok hm h
  have key : ∀ i ≤ k.toNat, (ss i).g.nP n = g.nP n ∧ ∀ f ∈ g.nFaces n, (ss i).rest f = 0 := by
    intro i
    induction i with
    | zero =>
      intro _
      refine ⟨by rw [hs.first], fun f hf => ?_⟩
      obtain ⟨hf1, hf2⟩ := (hm.node_face n hn f).1 hf
      rw [hs.rest f hf1, hs.target 0 (by omega) f hf1, h0 f hf1 hf2, mul_zero]
    | succ i ih =>
      intro hi
      obtain ⟨h1, h2⟩ := ih (by omega)
      have hmi := (ht i (by omega)).mesh hm
      obtain ⟨e1, e2, e3⟩ : (ss i).g.faces = g.faces ∧ (ss i).g.nodes = g.nodes ∧ (ss i).g.nFaces = g.nFaces := by
        obtain ⟨p, b, c, e, -⟩ := ht i (by omega); rw [e]; exact ⟨rfl, rfl, rfl⟩
      refine ⟨(Ice.turn_still hmi (hs.next i (by omega)) hh (by rw [e2]; exact hn) (by rw [e3]; exact h2)).trans h1, fun f hf => ?_⟩
      exact Ice.turn_rest_zero hmi (hs.next i (by omega)) (by rw [e1]; exact ((hm.node_face n hn f).1 hf).1) (h2 f hf)
  rw [hs.last.1]
  exact (key _ le_rfl).1

/-- Runs without ice, and with ice on the face away from node 0 or 3. -/
example : ∃ r, Ice.run (icePar 0 2 1 1 true) (iced 0 0) = .ok r := of_isOk (by decide +kernel)
example : (∃ r, Ice.run (icePar 0 2 0 0 true) (iced 0 (1 / 2)) = .ok r) ∧
    (∃ n ∈ (iced 0 (1 / 2)).nodes, ∀ f ∈ (iced 0 (1 / 2)).faces, n ∈ (iced 0 (1 / 2)).fNodes f → (iced 0 (1 / 2)).getData 0 f "Hi".toList = 0) :=
  ⟨of_isOk (by decide +kernel), by decide +kernel⟩

/-! ### C66: the movement of a node -/

/-- Without smoothing, a step moves each node along the unit vector of the sum of the unit normals of its faces, by the mean of the heights
of its faces, which is not negative. -/
theorem C66_movement {P : RemeshPar F} {k : Int} {s s' : Ice F R} (hs : ∀ x, 0 ≤ x → 0 ≤ P.sqrt x ∧ P.sqrt x * P.sqrt x = x) (hm : Mesh s.g)
    (h : Ice.turn P k s = .ok s') (h1 : P.nsmoothSteps ≤ 0) (h2 : P.hsmoothSteps ≤ 0) {n : Nat} (hn : n ∈ s.g.nodes) :
    ∃ (u : Nat → Vec F) (w d : Vec F) (hh : F) (l : F), (∀ f ∈ s.g.nFaces n, ∃ t, s.g.triangle f = .ok t ∧ t.normalOrth P.sqrt = .ok (u f)) ∧
      w = vecSum ((s.g.nFaces n).map u) ∧ 0 < l ∧ w = d.smul l ∧ d.x ^ 2 + d.y ^ 2 + d.z ^ 2 = 1 ∧
      hh = ((s.g.nFaces n).map s'.fShift).sum / (s.g.nFaces n).length ∧ 0 ≤ hh ∧
      s'.g.nP n = (s.g.nP n).add (d.smul hh) := by
  obtain ⟨c, s1, s2, s3, s4, hc, i1, i2, i3, i4, g1, g2, g3, g4, c1, c2, c3, d3, d4, f4, m⟩ := Ice.turn_moves hm h
  have e4 : s4 = s3 := Ice.smoothing_zero h2 i4
  have e2 : s2 = s1 := by
    unfold Ice.normalsSmoothing at i2
    rw [Int.toNat_of_nonpos h1] at i2
    exact (Except.ok.inj i2).symm
  obtain ⟨u, b, e1, hu, hb⟩ := Ice.initDirs_ok i1
  have d1 : s1.nDir = b := by rw [e1]
  obtain ⟨a, bn, e3, ha, hbn⟩ := Ice.defineShifts_ok i3
  have f3 : s3.fShift = a ∧ s3.nShift = bn := by rw [e3]; exact ⟨rfl, rfl⟩
  rw [g2] at hbn
  obtain ⟨-, hmean, hpos⟩ := hbn n hn
  have ho := hb n hn
  unfold Vec.orth at ho
  obtain ⟨hl, ho⟩ := Ice.div_ok ho
  dsimp only at hl ho
  obtain ⟨w, hw⟩ : ∃ w, w = vecSum ((s.g.nFaces n).map u) := ⟨_, rfl⟩
  rw [← hw] at hl ho
  obtain ⟨hq1, hq2⟩ := hs w.mod2 (add_nonneg (add_nonneg (mul_self_nonneg _) (mul_self_nonneg _)) (mul_self_nonneg _))
  change 0 ≤ w.mod P.sqrt at hq1
  change w.mod P.sqrt * w.mod P.sqrt = w.mod2 at hq2
  refine ⟨u, w, b n, bn n, w.mod P.sqrt, fun f hf => hu f ((hm.node_face n hn f).1 hf).1, hw, lt_of_le_of_ne hq1 (Ne.symm hl), ?_, ?_, ?_, hpos, ?_⟩
  · rw [ho]
    simp only [Vec.smul]
    cases w
    simp only [Vec.mk.injEq]
    refine ⟨?_, ?_, ?_⟩ <;> field_simp
  · rw [ho]
    simp only [Vec.smul]
    unfold Vec.mod2 Vec.dot at hq2
    generalize w.mod P.sqrt = l at hl hq2
    have : (w.x * (1 / l)) ^ 2 + (w.y * (1 / l)) ^ 2 + (w.z * (1 / l)) ^ 2 = (w.x * w.x + w.y * w.y + w.z * w.z) / (l * l) := by
      field_simp
    rw [this, ← hq2]
    exact div_self (mul_ne_zero hl hl)
  · rw [f4, e4, f3.1]
    exact hmean
  · rw [m n hn, d4, e2, d1, e4, f3.2]

/-- A step on one triangle. -/
example : Mesh (leafIce 1 spread).g ∧ leafPar.nsmoothSteps ≤ 0 ∧ leafPar.hsmoothSteps ≤ 0 ∧ (∃ s', Ice.turn leafPar 1 (leafIce 1 spread) = .ok s') ∧
    ∀ x, 0 ≤ x → 0 ≤ leafPar.sqrt x ∧ leafPar.sqrt x * leafPar.sqrt x = x := by
  refine ⟨leaf_mesh, le_rfl, le_rfl, ?_, real_sqrt⟩
  simp [Ice.turn, Ice.calcChunks, leafIce, leaf, Ice.step, Ice.initDirs, Grid.triangle, Py.get, Tri.normalOrth, Vec.orth, Vec.div, Vec.sub,
    Vec.cross, Vec.mod, Vec.mod2, Vec.dot, leafPar, Vec.smul, upd, vecSum, Vec.add, Ice.normalsSmoothing, Ice.defineShifts, Ice.faceShift,
    Tri.area, prizmatoidCoefs, Ice.solveShift, Ice.nodeShift, Ice.heightsSmoothing, Ice.moveNodes, Ice.accrete, Ice.deposit,
    displacedVolume, tetraVolume, Ice.rememberAreas, Ice.nullSpace, Ice.correctByArea, Ice.area]
  norm_num

end

/-! ### C67: options -/

/-- With the option `pseudo_2d_oz` remeshing always fails. -/
theorem C67_pseudo_2d_violation {P : RemeshPar F} (hp : P.pseudo2d = true) (g : Grid F R) (r : Ice F R) : Ice.run P g ≠ .ok r := by
  intro h
  unfold Ice.run at h
  obtain ⟨s0, h0, h⟩ := res_bind_eq_ok.1 h
  dsimp only at h
  obtain ⟨k, hk, h⟩ := res_bind_eq_ok.1 h
  rw [hp] at h
  simp only [if_true] at h
  split_ifs at h

/-- A step with null-space smoothing always fails. -/
theorem C67_null_space_violation {P : RemeshPar F} (hp : 0 < P.nssSteps) (k : Int) (s s' : Ice F R) : Ice.turn P k s ≠ .ok s' := by
  intro h
  unfold Ice.turn at h
  obtain ⟨s0, h0, h⟩ := res_bind_eq_ok.1 h
  unfold Ice.step at h
  obtain ⟨s1, h1, h⟩ := res_bind_eq_ok.1 h
  obtain ⟨s2, h2, h⟩ := res_bind_eq_ok.1 h
  obtain ⟨s3, h3, h⟩ := res_bind_eq_ok.1 h
  obtain ⟨s4, h4, h⟩ := res_bind_eq_ok.1 h
  obtain ⟨s5, h5, h⟩ := res_bind_eq_ok.1 h
  obtain ⟨s6, h6, h⟩ := res_bind_eq_ok.1 h
  obtain ⟨s7, h7, h⟩ := res_bind_eq_ok.1 h
  unfold Ice.nullSpace at h7
  split_ifs at h7

end Verif.Props
