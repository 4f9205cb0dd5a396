import Verif.Proofs.Normals
import Verif.Props.Remesh

/-! Properties of the smoothing of normals. -/

namespace Verif.Props
open Verif
variable {F R : Type} [Field F] [LinearOrder F]

/-! ### C129: smoothing of normals -/

/-- A turn of the smoothing replaces the direction of each face by the mean of the directions of its corners, each with the weight
`max (s * (1 - cos)) k`, and then the direction of each node by the mean of the new directions of its faces, each with one over its area
as the weight. It changes nothing else. -/
theorem C129_turn {P : RemeshPar F} {s s' : Ice F R} (hm : Mesh s.g) (h : Ice.normalsTurn P s = .ok s') :
    ∃ ar : Nat → F, s' = { s with fDir := s'.fDir, nDir := s'.nDir } ∧
      (∀ f ∈ s.g.faces, WeightedMean (s.g.fNodes f) (fun n => max (P.nsmoothS * (1 - component (s.fDir f) (s.nDir n))) P.nsmoothK) s.nDir (s'.fDir f)) ∧
      ∀ n ∈ s.g.nodes, (∀ f ∈ s.g.nFaces n, ∃ t, s.g.triangle f = .ok t ∧ t.area P.sqrt = ar f ∧ ar f ≠ 0) ∧
        WeightedMean (s.g.nFaces n) (fun f => 1 / ar f) s'.fDir (s'.nDir n) := by
  obtain ⟨h1, h2, h3⟩ := Ice.normalsTurn_spec hm.faces_nodup h
  refine ⟨Ice.areaOf P.sqrt s.g, h1, h2, fun n hn => ⟨fun f hf => ?_, (h3 n hn).2⟩⟩
  obtain ⟨ha, h0⟩ := (h3 n hn).1 f hf
  obtain ⟨t, ht, ha⟩ := res_bind_eq_ok.1 ha
  exact ⟨t, ht, Except.ok.inj ha, h0⟩

/-- The smoothing is the given number of turns. -/
theorem C129_turns {P : RemeshPar F} {s s' : Ice F R} :
    (P.nsmoothSteps ≤ 0 → Ice.normalsSmoothing P s = .ok s) ∧
    (0 < P.nsmoothSteps → (Ice.normalsSmoothing P s = .ok s' ↔
      ∃ m, Ice.normalsSmoothing { P with nsmoothSteps := P.nsmoothSteps - 1 } s = .ok m ∧ Ice.normalsTurn P m = .ok s')) := by
  refine ⟨fun h => ?_, fun h => ⟨fun h' => Ice.normalsSmoothing_last h h', ?_⟩⟩
  · unfold Ice.normalsSmoothing
    rw [Int.toNat_of_nonpos h]
    rfl
  · rintro ⟨m, hm, ht⟩
    unfold Ice.normalsSmoothing at hm ⊢
    have e : P.nsmoothSteps.toNat = (P.nsmoothSteps - 1).toNat + 1 := by omega
    rw [e, List.range_succ, List.foldlM_append]
    have hm' : List.foldlM (fun s _ => Ice.normalsTurn P s) s (List.range (P.nsmoothSteps - 1).toNat) = .ok m := hm
    rw [hm']
    show (Ice.normalsTurn P m >>= fun s => .ok s) = _
    rw [ht]
    rfl

/-- On a consistent grid, all of whose nodes have a face and all of whose faces have an area, the smoothing does not raise, if `k` is positive. -/
theorem C129_returns [IsStrictOrderedRing F] {P : RemeshPar F} {s : Ice F R} (hs : ∀ x, 0 ≤ x → 0 ≤ P.sqrt x ∧ P.sqrt x * P.sqrt x = x)
    (hk : 0 < P.nsmoothK) (hm : Mesh s.g) (hn : ∀ n ∈ s.g.nodes, s.g.nFaces n ≠ [])
    (hf : ∀ f ∈ s.g.faces, ∃ t, s.g.triangle f = .ok t ∧ t.area P.sqrt ≠ 0) : ∃ s', Ice.normalsSmoothing P s = .ok s' := by
  unfold Ice.normalsSmoothing
  obtain ⟨m, h⟩ := Ice.foldlM_returns (f := fun (s : Ice F R) _ => Ice.normalsTurn P s)
    (fun m : (Nat → Vec F) × (Nat → Vec F) => { s with fDir := m.1, nDir := m.2 }) (l := List.range P.nsmoothSteps.toNat) (by
      intro m _ _
      obtain ⟨s', h⟩ := Ice.normalsTurn_returns (s := { s with fDir := m.1, nDir := m.2 }) hs hk
        (fun f hf' e => by
          have := (hm.face_nodes f hf').1
          change s.g.fNodes f = [] at e
          rw [e] at this
          exact absurd this (by decide))
        (fun n hn' => ⟨hn n hn', fun f hf' => by
          obtain ⟨t, ht, h0⟩ := hf f ((hm.node_face n hn' f).1 hf').1
          refine ⟨_, ?_, h0⟩
          show (s.g.triangle f >>= fun t => .ok (t.area P.sqrt)) = _
          rw [ht]
          rfl⟩)
      obtain ⟨a, b, rfl⟩ := Ice.normalsTurn_ok h
      exact ⟨(a, b), h⟩) (s.fDir, s.nDir)
  exact ⟨_, h⟩

/-- What is kept: any bound on the directions of the nodes from one side, and the bound 1 on their length. -/
theorem turn_keeps [IsStrictOrderedRing F] {P : RemeshPar F} {s s' : Ice F R} (hs : ∀ x, 0 ≤ x → 0 ≤ P.sqrt x ∧ P.sqrt x * P.sqrt x = x)
    (hk : 0 < P.nsmoothK) (hm : Mesh s.g) (h : Ice.normalsTurn P s = .ok s') :
    s'.g = s.g ∧
    (∀ f ∈ s.g.faces, ∃ w : Nat → F, (∀ n ∈ s.g.fNodes f, 0 < w n) ∧ WeightedMean (s.g.fNodes f) w s.nDir (s'.fDir f)) ∧
    ∀ n ∈ s.g.nodes, ∃ w : Nat → F, (∀ f ∈ s.g.nFaces n, 0 < w f) ∧ WeightedMean (s.g.nFaces n) w s'.fDir (s'.nDir n) := by
  obtain ⟨ar, h1, h2, h3⟩ := C129_turn hm h
  refine ⟨by rw [h1], fun f hf => ⟨_, fun n _ => lt_max_of_lt_right hk, h2 f hf⟩, fun n hn => ⟨_, fun f hf => ?_, (h3 n hn).2⟩⟩
  obtain ⟨t, -, e, h0⟩ := (h3 n hn).1 f hf
  rw [← e] at h0 ⊢
  exact one_div_pos.2 (Ice.area_pos hs h0)

/-- If all nodes grow to one side of a plane (at least by `c` along `u`), they still do after any number of turns, and so do the faces:
the smoothing never turns a direction out of the cone of the directions it starts with. -/
theorem C129_cone [IsStrictOrderedRing F] {P : RemeshPar F} {s s' : Ice F R} (hs : ∀ x, 0 ≤ x → 0 ≤ P.sqrt x ∧ P.sqrt x * P.sqrt x = x)
    (hk : 0 < P.nsmoothK) (hm : Mesh s.g) (h : Ice.normalsSmoothing P s = .ok s') {u : Vec F} {c : F}
    (hc : ∀ n ∈ s.g.nodes, c ≤ component u (s.nDir n)) :
    (∀ n ∈ s.g.nodes, c ≤ component u (s'.nDir n)) ∧ (0 < P.nsmoothSteps → ∀ f ∈ s.g.faces, c ≤ component u (s'.fDir f)) := by
  have step : ∀ t t' : Ice F R, (t.g = s.g ∧ ∀ n ∈ s.g.nodes, c ≤ component u (t.nDir n)) → Ice.normalsTurn P t = .ok t' →
      (t'.g = s.g ∧ ∀ n ∈ s.g.nodes, c ≤ component u (t'.nDir n)) ∧ ∀ f ∈ s.g.faces, c ≤ component u (t'.fDir f) := by
    rintro t t' ⟨hg, hn⟩ ht
    obtain ⟨k1, k2, k3⟩ := turn_keeps hs hk (hg ▸ hm) ht
    rw [hg] at k1 k2 k3
    have hf : ∀ f ∈ s.g.faces, c ≤ component u (t'.fDir f) := by
      intro f hf
      obtain ⟨w, hw, hv⟩ := k2 f hf
      exact hv.le hw fun n hn' => hn n ((hm.face_nodes f hf).2.2 n hn')
    refine ⟨⟨k1, fun n hn' => ?_⟩, hf⟩
    obtain ⟨w, hw, hv⟩ := k3 n hn'
    exact hv.le hw fun f hf' => hf f ((hm.node_face n hn' f).1 hf').1
  refine ⟨(Ice.normalsSmoothing_ind (fun t => t.g = s.g ∧ ∀ n ∈ s.g.nodes, c ≤ component u (t.nDir n)) (fun t t' i h => (step t t' i h).1)
    ⟨rfl, hc⟩ h).2, fun hp => ?_⟩
  obtain ⟨m, h1, h2⟩ := Ice.normalsSmoothing_last hp h
  exact (step m s' (Ice.normalsSmoothing_ind (P := { P with nsmoothSteps := P.nsmoothSteps - 1 })
    (fun t => t.g = s.g ∧ ∀ n ∈ s.g.nodes, c ≤ component u (t.nDir n)) (fun t t' i h => (step t t' i h).1) ⟨rfl, hc⟩ h1) h2).2

/-- Directions not longer than 1 stay so. -/
theorem C129_length [IsStrictOrderedRing F] {P : RemeshPar F} {s s' : Ice F R} (hs : ∀ x, 0 ≤ x → 0 ≤ P.sqrt x ∧ P.sqrt x * P.sqrt x = x)
    (hk : 0 < P.nsmoothK) (hm : Mesh s.g) (h : Ice.normalsSmoothing P s = .ok s') (hc : ∀ n ∈ s.g.nodes, len2 (s.nDir n) ≤ 1) :
    ∀ n ∈ s.g.nodes, len2 (s'.nDir n) ≤ 1 := by
  refine (Ice.normalsSmoothing_ind (fun t => t.g = s.g ∧ ∀ n ∈ s.g.nodes, len2 (t.nDir n) ≤ 1) ?_ ⟨rfl, hc⟩ h).2
  rintro t t' ⟨hg, hn⟩ ht
  obtain ⟨k1, k2, k3⟩ := turn_keeps hs hk (hg ▸ hm) ht
  rw [hg] at k1 k2 k3
  refine ⟨k1, fun n hn' => ?_⟩
  obtain ⟨w, hw, hv⟩ := k3 n hn'
  refine hv.len hw fun f hf' => ?_
  have hf := ((hm.node_face n hn' f).1 hf').1
  obtain ⟨w, hw, hv⟩ := k2 f hf
  exact hv.len hw fun n hn' => hn n ((hm.face_nodes f hf).2.2 n hn')

/-- If all nodes grow in the same direction, the smoothing changes nothing. -/
theorem C129_flat [IsStrictOrderedRing F] {P : RemeshPar F} {s s' : Ice F R} (hs : ∀ x, 0 ≤ x → 0 ≤ P.sqrt x ∧ P.sqrt x * P.sqrt x = x)
    (hk : 0 < P.nsmoothK) (hm : Mesh s.g) (h : Ice.normalsSmoothing P s = .ok s') {e : Vec F} (hc : ∀ n ∈ s.g.nodes, s.nDir n = e) :
    ∀ n ∈ s.g.nodes, s'.nDir n = e := by
  refine (Ice.normalsSmoothing_ind (fun t => t.g = s.g ∧ ∀ n ∈ s.g.nodes, t.nDir n = e) ?_ ⟨rfl, hc⟩ h).2
  rintro t t' ⟨hg, hn⟩ ht
  obtain ⟨k1, k2, k3⟩ := turn_keeps hs hk (hg ▸ hm) ht
  rw [hg] at k1 k2 k3
  refine ⟨k1, fun n hn' => ?_⟩
  obtain ⟨w, hw, hv⟩ := k3 n hn'
  refine hv.const fun f hf' => ?_
  have hf := ((hm.node_face n hn' f).1 hf').1
  obtain ⟨w, hw, hv⟩ := k2 f hf
  exact hv.const fun n hn' => hn n ((hm.face_nodes f hf).2.2 n hn')

/-- The directions are not made unit vectors again: a node one of whose faces has corners with different directions gets a direction shorter
than 1 in the first turn, and it stays shorter than 1. -/
theorem C129_shorter [IsStrictOrderedRing F] {P : RemeshPar F} {s s' : Ice F R} (hs : ∀ x, 0 ≤ x → 0 ≤ P.sqrt x ∧ P.sqrt x * P.sqrt x = x)
    (hk : 0 < P.nsmoothK) (hp : 0 < P.nsmoothSteps) (hm : Mesh s.g) (h : Ice.normalsSmoothing P s = .ok s')
    (hc : ∀ n ∈ s.g.nodes, len2 (s.nDir n) ≤ 1) {f a b : Nat} (hf : f ∈ s.g.faces) (ha : a ∈ s.g.fNodes f) (hb : b ∈ s.g.fNodes f)
    (hab : s.nDir a ≠ s.nDir b) : ∀ n ∈ s.g.fNodes f, len2 (s'.nDir n) < 1 := by
  have step : ∀ t t' : Ice F R, (t.g = s.g ∧ (∀ n ∈ s.g.nodes, len2 (t.nDir n) ≤ 1) ∧ ((∃ n ∈ s.g.fNodes f, len2 (t.nDir n) < 1) ∨ t.nDir a ≠ t.nDir b)) →
      Ice.normalsTurn P t = .ok t' → t'.g = s.g ∧ (∀ n ∈ s.g.nodes, len2 (t'.nDir n) ≤ 1) ∧ ∀ n ∈ s.g.fNodes f, len2 (t'.nDir n) < 1 := by
    rintro t t' ⟨hg, hn, hd⟩ ht
    obtain ⟨k1, k2, k3⟩ := turn_keeps hs hk (hg ▸ hm) ht
    rw [hg] at k1 k2 k3
    have hl : ∀ f ∈ s.g.faces, len2 (t'.fDir f) ≤ 1 := by
      intro f hf
      obtain ⟨w, hw, hv⟩ := k2 f hf
      exact hv.len hw fun n hn' => hn n ((hm.face_nodes f hf).2.2 n hn')
    have hlt : len2 (t'.fDir f) < 1 := by
      obtain ⟨w, hw, hv⟩ := k2 f hf
      refine hv.shorter hw (fun n hn' => hn n ((hm.face_nodes f hf).2.2 n hn')) ?_
      rcases hd with hd | hd
      · exact .inl hd
      · exact .inr ⟨a, ha, b, hb, hd⟩
    refine ⟨k1, fun n hn' => ?_, fun n hn' => ?_⟩
    · obtain ⟨w, hw, hv⟩ := k3 n hn'
      exact hv.len hw fun f hf' => hl f ((hm.node_face n hn' f).1 hf').1
    · have hnn := (hm.face_nodes f hf).2.2 n hn'
      obtain ⟨w, hw, hv⟩ := k3 n hnn
      exact hv.shorter hw (fun f hf' => hl f ((hm.node_face n hnn f).1 hf').1) (.inl ⟨f, (hm.node_face n hnn f).2 ⟨hf, hn'⟩, hlt⟩)
  obtain ⟨m, h1, h2⟩ := Ice.normalsSmoothing_last hp h
  have := Ice.normalsSmoothing_ind (P := { P with nsmoothSteps := P.nsmoothSteps - 1 })
    (fun t => t.g = s.g ∧ (∀ n ∈ s.g.nodes, len2 (t.nDir n) ≤ 1) ∧ ((∃ n ∈ s.g.fNodes f, len2 (t.nDir n) < 1) ∨ t.nDir a ≠ t.nDir b))
    (fun t t' i h => by
      obtain ⟨q1, q2, q3⟩ := step t t' i h
      exact ⟨q1, q2, .inl ⟨a, ha, q3 a ha⟩⟩) ⟨rfl, hc, .inr hab⟩ h1
  exact (step m s' this h2).2.2

/-- With `k = 0` the smoothing raises `ZeroDivisionError` on every flat surface: all weights of its faces are 0. -/
theorem C129_zero_k [IsStrictOrderedRing F] {P : RemeshPar F} {s : Ice F R} (hp : 0 < P.nsmoothSteps) (hk : P.nsmoothK = 0) (hm : Mesh s.g)
    (hf : s.g.faces ≠ []) {e : Vec F} (he : len2 e = 1) (h1 : ∀ n ∈ s.g.nodes, s.nDir n = e) (h2 : ∀ f ∈ s.g.faces, s.fDir f = e) :
    Ice.normalsSmoothing P s = .error .zeroDiv := by
  have ht : Ice.normalsTurn P s = .error .zeroDiv := by
    unfold Ice.normalsTurn
    obtain ⟨f, l, hl⟩ := List.exists_cons_of_ne_nil hf
    have hff : f ∈ s.g.faces := by rw [hl]; simp
    rw [hl, List.foldlM_cons]
    have hw : wsum ((s.g.fNodes f).map s.nDir) ((s.g.fNodes f).map fun n => max (P.nsmoothS * (1 - (s.fDir f).dot (s.nDir n))) P.nsmoothK)
        = .error .zeroDiv := by
      refine Ice.wsum_raises (List.sum_eq_zero ?_)
      simp only [List.mem_map, forall_exists_index, and_imp, forall_apply_eq_imp_iff₂]
      intro n hn
      rw [h2 f hff, h1 n ((hm.face_nodes f hff).2.2 n hn), hk]
      have q : e.dot e = 1 := by
        rw [← he]
        simp only [Vec.dot, len2]
        ring
      rw [q, sub_self, mul_zero, max_self]
    show ((wsum _ _ >>= _) >>= _) >>= _ = _
    rw [hw]
    rfl
  unfold Ice.normalsSmoothing
  obtain ⟨k, hk'⟩ : ∃ k, P.nsmoothSteps.toNat = k + 1 := ⟨P.nsmoothSteps.toNat - 1, by omega⟩
  rw [hk', List.range_succ_eq_map, List.foldlM_cons, ht]
  rfl

/-- With smoothing of normals, a step moves each node by no more than the mean of the heights of its faces. -/
theorem C129_movement [IsStrictOrderedRing F] {P : RemeshPar F} {k : Int} {s s' : Ice F R} (hs : ∀ x, 0 ≤ x → 0 ≤ P.sqrt x ∧ P.sqrt x * P.sqrt x = x)
    (hk : 0 < P.nsmoothK) (hm : Mesh s.g) (h : Ice.turn P k s = .ok s') (h2 : P.hsmoothSteps ≤ 0) {n : Nat} (hn : n ∈ s.g.nodes) :
    ∃ (d : Vec F) (hh : F), len2 d ≤ 1 ∧ hh = ((s.g.nFaces n).map s'.fShift).sum / (s.g.nFaces n).length ∧ 0 ≤ hh ∧
      s'.g.nP n = (s.g.nP n).add (d.smul hh) := by
  obtain ⟨c, s1, s2, s3, s4, hc, i1, i2, i3, i4, g1, g2, g3, g4, c1, c2, c3, d3, d4, f4, m⟩ := Ice.turn_moves hm h
  have e4 : s4 = s3 := Ice.smoothing_zero h2 i4
  obtain ⟨u, b, e1, hu, hb⟩ := Ice.initDirs_ok i1
  obtain ⟨a, bn, e3, ha, hbn⟩ := Ice.defineShifts_ok i3
  have f3 : s3.fShift = a ∧ s3.nShift = bn := by rw [e3]; exact ⟨rfl, rfl⟩
  rw [g2] at hbn
  obtain ⟨-, hmean, hpos⟩ := hbn n hn
  have d1 : ∀ n ∈ s1.g.nodes, len2 (s1.nDir n) ≤ 1 := by
    intro n hn
    rw [g1] at hn
    have ho := hb n hn
    unfold Vec.orth at ho
    obtain ⟨hl, ho⟩ := Ice.div_ok ho
    have d1 : s1.nDir = b := by rw [e1]
    rw [d1, ho]
    generalize vecSum (List.map u (Grid.nFaces _ n)) = w at hl ⊢
    have q := (hs w.mod2 (add_nonneg (add_nonneg (mul_self_nonneg _) (mul_self_nonneg _)) (mul_self_nonneg _))).2
    unfold Vec.mod at hl ⊢
    refine le_of_eq ?_
    simp only [len2, Vec.smul]
    have q2 : w.x ^ 2 + w.y ^ 2 + w.z ^ 2 = P.sqrt w.mod2 * P.sqrt w.mod2 := by
      rw [q]; simp only [Vec.mod2, Vec.dot]; ring
    generalize P.sqrt w.mod2 = r at hl q2
    rw [show (w.x * (1 / r)) ^ 2 + (w.y * (1 / r)) ^ 2 + (w.z * (1 / r)) ^ 2 = (w.x ^ 2 + w.y ^ 2 + w.z ^ 2) * (1 / r) ^ 2 by ring, q2]
    field_simp
  refine ⟨s4.nDir n, s4.nShift n, ?_, ?_, ?_, m n hn⟩
  · rw [d4]
    exact C129_length hs hk (g1 ▸ hm) i2 d1 n (g1 ▸ hn)
  · rw [f4, e4, f3.1, f3.2]
    exact hmean
  · rw [e4, f3.2]
    exact hpos

/-! #### Cases -/

/-- Options with two turns of smoothing. -/
noncomputable def smoothPar : RemeshPar ℝ := { leafPar with nsmoothSteps := 2 }

/-- Unit directions that differ. -/
noncomputable def fan : Nat → Vec ℝ := fun n => match n with | 0 => ⟨0, 0, 1⟩ | 1 => ⟨3 / 5, 0, 4 / 5⟩ | _ => ⟨0, 3 / 5, 4 / 5⟩

theorem leaf_triangle (v : ℝ) (d : Nat → Vec ℝ) (f : Nat) (hf : f ∈ (leafIce v d).g.faces) :
    ∃ t, (leafIce v d).g.triangle f = .ok t ∧ t.area smoothPar.sqrt ≠ 0 := by
  refine ⟨_, rfl, ?_⟩
  show 1 / 2 * Real.sqrt _ ≠ 0
  norm_num [Vec.mod2, Vec.dot, Vec.cross, Vec.sub, leafIce, leaf]

/-- The hypotheses hold for a triangle whose corners grow in three directions; so the smoothing returns, the directions get shorter and
still point up at least by 4/5. -/
example : ∃ s', Ice.normalsSmoothing smoothPar (leafIce 1 fan) = .ok s' ∧ (∀ n ∈ leaf.nodes, len2 (s'.nDir n) < 1) ∧
    ∀ n ∈ leaf.nodes, 4 / 5 ≤ (s'.nDir n).z := by
  have hm : Mesh (leafIce 1 fan).g := leaf_mesh
  have hk : 0 < smoothPar.nsmoothK := by show (0 : ℝ) < 3 / 20; norm_num
  obtain ⟨s', h⟩ := C129_returns (P := smoothPar) (s := leafIce 1 fan) real_sqrt hk hm (fun n _ => by simp [leafIce, leaf]) (leaf_triangle 1 fan)
  have h1 : ∀ n ∈ (leafIce 1 fan).g.nodes, len2 ((leafIce 1 fan).nDir n) ≤ 1 := by
    intro n hn
    have : n = 0 ∨ n = 1 ∨ n = 2 := by simpa [leafIce, leaf] using hn
    rcases this with rfl | rfl | rfl <;> norm_num [leafIce, fan, len2]
  have h2 : ∀ n ∈ (leafIce 1 fan).g.nodes, 4 / 5 ≤ component ⟨0, 0, 1⟩ ((leafIce 1 fan).nDir n) := by
    intro n hn
    have : n = 0 ∨ n = 1 ∨ n = 2 := by simpa [leafIce, leaf] using hn
    rcases this with rfl | rfl | rfl <;> norm_num [leafIce, fan, component]
  refine ⟨s', h, fun n hn => ?_, fun n hn => ?_⟩
  · refine C129_shorter (P := smoothPar) real_sqrt hk (by decide) hm h h1 (f := 0) (a := 0) (b := 1) (by simp [leafIce, leaf]) (by simp [leafIce, leaf])
      (by simp [leafIce, leaf]) ?_ n (by simpa [leafIce, leaf] using hn)
    intro e
    have := congrArg Vec.x e
    norm_num [leafIce, fan] at this
  · have := (C129_cone (P := smoothPar) real_sqrt hk hm h h2).1 n hn
    simpa [component] using this

/-- A flat surface: the same direction at all nodes and faces; with `k = 0` the smoothing raises. -/
example : Ice.normalsSmoothing { smoothPar with nsmoothK := 0 } { leafIce 1 (fun _ => ⟨0, 0, 1⟩) with fDir := fun _ => ⟨0, 0, 1⟩ } = .error .zeroDiv :=
  C129_zero_k (by decide) rfl leaf_mesh (by simp [leafIce, leaf]) (e := ⟨0, 0, 1⟩) (by norm_num [len2]) (fun _ _ => rfl) fun _ _ => rfl

end Verif.Props
