import Verif.Proofs.Heights
import Verif.Props.Remesh

/-! Properties of the smoothing of heights. -/

namespace Verif.Props
open Verif
variable {F R : Type} [Field F] [LinearOrder F]

/-! ### C130: the ice that the smoothing of heights moves -/

/-- In a turn each face gets what goes over its edges: over an edge with two faces the higher face gives to the lower one the part `beta` of
the difference of the heights, at most the part `alfa` of the greatest height, times the area in the middle of its ice. All amounts are
those of the beginning of the turn. Over edges with one face nothing goes. Apart from that only the heights change. -/
theorem C130_turn {P : RemeshPar F} {s s' : Ice F R} (hm : Mesh s.g) (h : Ice.heightsTurn P s = .ok s') :
    ∃ maxH, Greatest s maxH ∧ (∀ f ∈ s.g.faces, s'.chunk f = s.chunk f + ((s.g.fEdges f).map (getsOver P maxH s f)).sum) ∧
      s' = { s with chunk := s'.chunk, loc := s'.loc, fShift := s'.fShift, nShift := s'.nShift } := by
  obtain ⟨maxH, t, h1, h2, ⟨a, b, rfl⟩, h4⟩ := Ice.heightsTurn_gets hm h
  obtain ⟨c, d, rfl, -⟩ := Ice.defineShifts_ok h4
  refine ⟨maxH, h1, fun f hf => ?_, rfl⟩
  rw [← Ice.gets_edges hm hf]
  exact h2 f hf

/-- What an edge brings, with ice and heights that are not negative: a face gets something only from a face that is not lower, and gives at
most the part `beta` of its ice. -/
theorem gets_bounds [IsStrictOrderedRing F] {P : RemeshPar F} {s : Ice F R} {maxH : F} (hm : Mesh s.g) (hb : 0 ≤ P.hsmoothBeta)
    (ha : 0 ≤ P.hsmoothAlfa * maxH) (hc : ∀ f ∈ s.g.faces, 0 ≤ s.chunk f) (hh : ∀ f ∈ s.g.faces, 0 ≤ s.fShift f) {f e : Nat}
    (hf : f ∈ s.g.faces) (he : e ∈ s.g.fEdges f) :
    -(P.hsmoothBeta * s.chunk f) ≤ getsOver P maxH s f e ∧
      ((∀ k ∈ s.g.eFaces e, s.fShift k ≤ s.fShift f) → getsOver P maxH s f e ≤ 0) ∧
      ((∀ k ∈ s.g.eFaces e, s.fShift f ≤ s.fShift k) → 0 ≤ getsOver P maxH s f e) := by
  have hE := (hm.face_edges f hf).2.2 e he
  have h0 : -(P.hsmoothBeta * s.chunk f) ≤ 0 := neg_nonpos.2 (mul_nonneg hb (hc f hf))
  unfold getsOver
  split
  · rename_i x y hxy
    have hx : x ∈ s.g.faces := ((hm.edge_face e hE x).1 (by rw [hxy]; simp)).1
    have hy : y ∈ s.g.faces := ((hm.edge_face e hE y).1 (by rw [hxy]; simp)).1
    rw [hxy]
    have hne : x ≠ y := by
      have := (hm.edge_faces e hE).2
      rw [hxy] at this
      simpa using this
    split_ifs with h1 h2 h3 h4
    · exact ⟨h0, fun _ => le_refl _, fun _ => le_refl _⟩
    · subst h3
      obtain ⟨q1, q2⟩ := Ice.passes_bounds (P := P) hb ha h2.le (hh x hx) (hc _ hy)
      exact ⟨neg_le_neg q2, fun _ => neg_nonpos.2 q1, fun h => absurd (h x (by simp)) (not_le.2 h2)⟩
    · obtain ⟨q1, q2⟩ := Ice.passes_bounds (P := P) hb ha h2.le (hh x hx) (hc _ hy)
      have hfx : f = x := by
        by_contra hcon
        exact h1 ⟨hcon, h3⟩
      subst hfx
      exact ⟨h0.trans q1, fun h => absurd (h y (by simp)) (not_le.2 h2), fun _ => q1⟩
    · subst h4
      obtain ⟨q1, q2⟩ := Ice.passes_bounds (P := P) hb ha (not_lt.1 h2) (hh y hy) (hc _ hx)
      refine ⟨neg_le_neg q2, fun _ => neg_nonpos.2 q1, fun h => ?_⟩
      have e := le_antisymm (h y (by simp)) (not_lt.1 h2)
      unfold passes
      rw [e, sub_self, min_eq_left ha]
      simp
    · obtain ⟨q1, q2⟩ := Ice.passes_bounds (P := P) hb ha (not_lt.1 h2) (hh y hy) (hc _ hx)
      have hfy : f = y := by
        by_contra hcon
        exact h1 ⟨h4, hcon⟩
      subst hfy
      refine ⟨h0.trans q1, fun h => ?_, fun _ => q1⟩
      have e := le_antisymm (h x (by simp)) (not_lt.1 h2)
      unfold passes
      rw [e, sub_self, min_eq_left ha]
      simp
  · exact ⟨h0, fun _ => le_refl _, fun _ => le_refl _⟩

/-- The greatest height is not negative. -/
theorem greatest_nonneg {s : Ice F R} {m : F} (h : Greatest s m) (hh : ∀ f ∈ s.g.faces, 0 ≤ s.fShift f) : 0 ≤ m := by
  obtain ⟨⟨f, hf, e⟩, -⟩ := h
  rw [← e]
  exact hh f hf

/-- Ice goes downwards: with ice, heights and options that are not negative, a face that is not lower than its neighbours gets nothing in a turn
and a face that is not higher than its neighbours loses nothing. -/
theorem C130_down [IsStrictOrderedRing F] {P : RemeshPar F} {s s' : Ice F R} (hm : Mesh s.g) (h : Ice.heightsTurn P s = .ok s')
    (hb : 0 ≤ P.hsmoothBeta) (ha : 0 ≤ P.hsmoothAlfa) (hc : ∀ f ∈ s.g.faces, 0 ≤ s.chunk f) (hh : ∀ f ∈ s.g.faces, 0 ≤ s.fShift f)
    {f : Nat} (hf : f ∈ s.g.faces) :
    ((∀ e ∈ s.g.fEdges f, ∀ k ∈ s.g.eFaces e, s.fShift k ≤ s.fShift f) → s'.chunk f ≤ s.chunk f) ∧
    ((∀ e ∈ s.g.fEdges f, ∀ k ∈ s.g.eFaces e, s.fShift f ≤ s.fShift k) → s.chunk f ≤ s'.chunk f) := by
  obtain ⟨m, h1, h2, -⟩ := C130_turn hm h
  have ha' := mul_nonneg ha (greatest_nonneg h1 hh)
  rw [h2 f hf]
  refine ⟨fun hk => ?_, fun hk => ?_⟩
  · have : ((s.g.fEdges f).map (getsOver P m s f)).sum ≤ 0 := by
      have : ∀ l : List Nat, (∀ e ∈ l, getsOver P m s f e ≤ 0) → (l.map (getsOver P m s f)).sum ≤ 0 := by
        intro l
        induction l with
        | nil => simp
        | cons e l ih =>
          intro hl
          rw [List.map_cons, List.sum_cons]
          exact add_nonpos (hl e (by simp)) (ih fun e he => hl e (List.mem_cons_of_mem _ he))
      exact this _ fun e he => (gets_bounds hm hb ha' hc hh hf he).2.1 (hk e he)
    linarith
  · have : 0 ≤ ((s.g.fEdges f).map (getsOver P m s f)).sum := by
      refine List.sum_nonneg ?_
      simp only [List.mem_map, forall_exists_index, and_imp, forall_apply_eq_imp_iff₂]
      exact fun e he => (gets_bounds hm hb ha' hc hh hf he).2.2 (hk e he)
    linarith

/-- A face as high as its neighbours keeps its ice. -/
theorem C130_level [IsStrictOrderedRing F] {P : RemeshPar F} {s s' : Ice F R} (hm : Mesh s.g) (h : Ice.heightsTurn P s = .ok s')
    (hb : 0 ≤ P.hsmoothBeta) (ha : 0 ≤ P.hsmoothAlfa) (hc : ∀ f ∈ s.g.faces, 0 ≤ s.chunk f) (hh : ∀ f ∈ s.g.faces, 0 ≤ s.fShift f)
    {f : Nat} (hf : f ∈ s.g.faces) (hk : ∀ e ∈ s.g.fEdges f, ∀ k ∈ s.g.eFaces e, s.fShift k = s.fShift f) : s'.chunk f = s.chunk f :=
  le_antisymm ((C130_down hm h hb ha hc hh hf).1 fun e he k hk' => (hk e he k hk').le)
    ((C130_down hm h hb ha hc hh hf).2 fun e he k hk' => (hk e he k hk').ge)

/-- With `beta` of at most 1/3 the smoothing leaves no face with negative ice and none with a negative height, for any number of turns. -/
theorem C130_nonneg [IsStrictOrderedRing F] {P : RemeshPar F} {s s' : Ice F R} (hs : ∀ x, 0 ≤ x → 0 ≤ P.sqrt x ∧ P.sqrt x * P.sqrt x = x)
    (hm : Mesh s.g) (h : Ice.heightsSmoothing P s = .ok s') (hb : 0 ≤ P.hsmoothBeta) (hb3 : P.hsmoothBeta ≤ 1 / 3) (ha : 0 ≤ P.hsmoothAlfa)
    (hc : ∀ f ∈ s.g.faces, 0 ≤ s.chunk f) (hh : ∀ f ∈ s.g.faces, 0 ≤ s.fShift f) :
    ∀ f ∈ s.g.faces, 0 ≤ s'.chunk f ∧ 0 ≤ s'.fShift f := by
  unfold Ice.heightsSmoothing at h
  refine (foldlM_partial _ _ (fun _ t => t.g = s.g ∧ ∀ f ∈ s.g.faces, 0 ≤ t.chunk f ∧ 0 ≤ t.fShift f) _ _ h
    ⟨rfl, fun f hf => ⟨hc f hf, hh f hf⟩⟩ ?_).2
  rintro - - - t t' - ⟨hg, hi⟩ ht
  have hmt : Mesh t.g := hg ▸ hm
  rw [← hg] at hi ⊢
  obtain ⟨m, u, h1, h2, ⟨a, b, rfl⟩, h4⟩ := Ice.heightsTurn_gets hmt ht
  have ha' := mul_nonneg ha (greatest_nonneg h1 fun f hf => (hi f hf).2)
  have hnn : ∀ f ∈ t.g.faces, 0 ≤ a f := by
    intro f hf
    have e : a f = _ := h2 f hf
    rw [e, Ice.gets_edges hmt hf]
    obtain ⟨e1, e2, e3, he⟩ := List.length_eq_three.1 (hmt.face_edges f hf).1
    have q := fun e (h : e ∈ t.g.fEdges f) => (gets_bounds hmt hb ha' (fun f hf => (hi f hf).1) (fun f hf => (hi f hf).2) hf h).1
    rw [he] at q ⊢
    have q1 := q e1 (by simp)
    have q2 := q e2 (by simp)
    have q3 := q e3 (by simp)
    simp only [List.map_cons, List.map_nil, List.sum_cons, List.sum_nil, add_zero]
    have := mul_le_mul_of_nonneg_right hb3 (hi f hf).1
    linarith
  obtain ⟨c, d, rfl, hcs, -⟩ := Ice.defineShifts_ok h4
  exact ⟨rfl, fun f hf => ⟨hnn f hf, Ice.faceShift_nonneg hs (hcs f hf) (hmt.face_nodes f hf).1 (hnn f hf)⟩⟩

theorem halves_mesh : Mesh halves.g := by
  have h : halves.g = iced 0 0 := by
    obtain ⟨s, hs⟩ := of_isOk (x := Ice.defineShifts Rat.sqrt ⟨iced 0 0, fun _ => 0, fun _ => 0, fun _ => 0, fun f => if f = 0 then 1 / 4 else 1 / 8,
      fun _ => 0, fun _ => 0, fun _ => ⟨0, 0, 1⟩, fun _ => 0, fun _ => ⟨0, 0, 1⟩, fun _ => 0, fun _ => ⟨0, 0, 0⟩⟩) (by decide +kernel)
    unfold halves
    rw [hs]
    obtain ⟨a, b, rfl, -⟩ := Ice.defineShifts_ok hs
    rfl
  rw [h]
  exact iced_mesh 0 0

/-- With a greater `beta` a face can give away more ice than it has; then the smoothing raises `Exception`. -/
theorem C130_beta_violation : ∃ (P : RemeshPar ℚ) (s : Ice ℚ (ℚ × ℚ × ℚ)), Mesh s.g ∧ (∀ f ∈ s.g.faces, 0 < s.chunk f ∧ 0 < s.fShift f) ∧
    0 < P.hsmoothAlfa ∧ P.hsmoothSteps = 1 ∧ Ice.heightsSmoothing P s = .error (.exc "Negative node ice shift.") := by
  refine ⟨{ icePar 0 1 0 1 true with hsmoothBeta := 6 }, halves, ?_, ?_, by decide +kernel, rfl, ?_⟩
  · exact halves_mesh
  · decide +kernel
  · have : (match Ice.heightsSmoothing { icePar 0 1 0 1 true with hsmoothBeta := 6 } halves with
      | .error e => decide (e = .exc "Negative node ice shift.")
      | .ok _ => false) = true := by decide +kernel
    revert this
    cases Ice.heightsSmoothing { icePar 0 1 0 1 true with hsmoothBeta := 6 } halves with
    | error e => intro h; rw [of_decide_eq_true h]
    | ok s => intro h; cases h

/-! #### Cases -/

/-- The higher half gives ice to the lower one. -/
example : ∃ s', Ice.heightsTurn (icePar 0 1 0 1 true) halves = .ok s' ∧ s'.chunk 0 < halves.chunk 0 ∧ halves.chunk 1 < s'.chunk 1 := by
  have h : (match Ice.heightsTurn (icePar 0 1 0 1 true) halves with
    | .ok s' => decide (s'.chunk 0 < halves.chunk 0 ∧ halves.chunk 1 < s'.chunk 1)
    | .error _ => false) = true := by decide +kernel
  revert h
  cases Ice.heightsTurn (icePar 0 1 0 1 true) halves with
  | error e => intro h; cases h
  | ok s => intro h; exact ⟨s, rfl, of_decide_eq_true h⟩

/-- The hypotheses of `C130_down` and `C130_nonneg` but for the square root. -/
example : Mesh halves.g ∧ 0 ≤ (icePar 0 1 0 1 true).hsmoothBeta ∧ (icePar 0 1 0 1 true).hsmoothBeta ≤ 1 / 3 ∧ 0 ≤ (icePar 0 1 0 1 true).hsmoothAlfa ∧
    (∀ f ∈ halves.g.faces, 0 ≤ halves.chunk f) ∧ ∀ f ∈ halves.g.faces, 0 ≤ halves.fShift f := by
  refine ⟨?_, by decide +kernel, by decide +kernel, by decide +kernel, by decide +kernel, by decide +kernel⟩
  exact halves_mesh

/-- All hypotheses of `C130_nonneg` over the reals. -/
example : (∃ s', Ice.heightsSmoothing { leafPar with hsmoothSteps := 1 } (leafIce 1 spread) = .ok s') ∧ Mesh (leafIce 1 spread).g ∧
    (∀ x, 0 ≤ x → 0 ≤ leafPar.sqrt x ∧ leafPar.sqrt x * leafPar.sqrt x = x) ∧ 0 ≤ leafPar.hsmoothBeta ∧ leafPar.hsmoothBeta ≤ 1 / 3 ∧
    0 ≤ leafPar.hsmoothAlfa ∧ (∀ f ∈ (leafIce 1 spread).g.faces, 0 ≤ (leafIce 1 spread).chunk f) ∧
    ∀ f ∈ (leafIce 1 spread).g.faces, 0 ≤ (leafIce 1 spread).fShift f := by
  refine ⟨?_, leaf_mesh, real_sqrt, by norm_num [leafPar], by norm_num [leafPar], by norm_num [leafPar], by simp [leafIce], by simp [leafIce]⟩
  have h : Real.sqrt (9 / 4) = 3 / 2 := by rw [show (9 : ℝ) / 4 = (3 / 2) ^ 2 by norm_num]; exact Real.sqrt_sq (by norm_num)
  simp [Ice.heightsSmoothing, Ice.heightsTurn, Ice.smoothEdge, Py.maximum, leafIce, leaf, spread, Grid.triangle, Py.get, Tri.normalOrth, Vec.orth, Vec.div,
    Vec.sub, Vec.cross, Vec.mod, Vec.mod2, Vec.dot, leafPar, Vec.smul, upd, Vec.add, Ice.defineShifts, Ice.faceShift, Tri.area, prizmatoidCoefs,
    Ice.solveShift, Ice.nodeShift, List.range_succ]
  norm_num [h]

end Verif.Props
