import Verif.Spec.Heights
import Verif.Proofs.Layer

/-! Lemmas about the smoothing of heights. -/

namespace Verif
namespace Ice
variable {F R : Type} [Field F] [LinearOrder F]

theorem area_eq {sqrt : F → F} {g : Grid F R} {f : Nat} {a : F} (h3 : (g.fNodes f).length = 3) (h : area sqrt g f = .ok a) : a = faceArea sqrt g f := by
  obtain ⟨t, ht, h⟩ := res_bind_eq_ok.1 h
  rw [← triangle_area ht h3 sqrt]
  exact (Except.ok.inj h).symm

/-- The ice that goes over one edge. -/
theorem smoothEdge_gets {P : RemeshPar F} {maxH : F} {s s' : Ice F R} {e : Nat} (hn : (s.g.eFaces e).Nodup)
    (h3 : ∀ f ∈ s.g.eFaces e, (s.g.fNodes f).length = 3) (h : smoothEdge P maxH s e = .ok s') :
    ∃ c, s' = { s with loc := c } ∧ ∀ f, c f = s.loc f + getsOver P maxH s f e := by
  unfold smoothEdge at h
  unfold getsOver
  split at h
  · rename_i x y hxy
    rw [hxy] at hn h3
    have hne : x ≠ y := by simpa using hn
    have key : ∀ f1 f2 : Nat, f1 ∈ [x, y] → ∀ a, (if s.fShift f1 = 0 then area P.sqrt s.g f1 else .ok (s.chunk f1 / s.fShift f1)) = .ok a →
        P.hsmoothBeta * (min (s.fShift f1 - s.fShift f2) (P.hsmoothAlfa * maxH) * a) = passes P maxH s f1 f2 := by
      intro f1 f2 hm a ha
      unfold passes
      split_ifs at ha ⊢ with h0
      · rw [area_eq (h3 f1 hm) ha]
      · rw [← Except.ok.inj ha]
    by_cases hlt : s.fShift x < s.fShift y
    · simp only [if_pos hlt] at h
      obtain ⟨a, ha, rfl⟩ : ∃ a, (if s.fShift y = 0 then area P.sqrt s.g y else .ok (s.chunk y / s.fShift y)) = .ok a ∧ s' = { s with
          loc := upd (upd s.loc y (s.loc y - P.hsmoothBeta * (min (s.fShift y - s.fShift x) (P.hsmoothAlfa * maxH) * a))) x
            (upd s.loc y (s.loc y - P.hsmoothBeta * (min (s.fShift y - s.fShift x) (P.hsmoothAlfa * maxH) * a)) x
              + P.hsmoothBeta * (min (s.fShift y - s.fShift x) (P.hsmoothAlfa * maxH) * a)) } := by
        split_ifs at h ⊢ <;>
        · obtain ⟨a, ha, h⟩ := res_bind_eq_ok.1 h
          exact ⟨a, ha, (Except.ok.inj h).symm⟩
      refine ⟨_, rfl, fun f => ?_⟩
      simp only [key y x (by simp) a ha, hxy, upd_apply, if_pos hlt]
      by_cases hx : f = x
      · subst hx
        simp [hne]
      · by_cases hy : f = y
        · subst hy
          simp [Ne.symm hne, sub_eq_add_neg]
        · simp [hx, hy]
    · simp only [if_neg hlt] at h
      obtain ⟨a, ha, rfl⟩ : ∃ a, (if s.fShift x = 0 then area P.sqrt s.g x else .ok (s.chunk x / s.fShift x)) = .ok a ∧ s' = { s with
          loc := upd (upd s.loc x (s.loc x - P.hsmoothBeta * (min (s.fShift x - s.fShift y) (P.hsmoothAlfa * maxH) * a))) y
            (upd s.loc x (s.loc x - P.hsmoothBeta * (min (s.fShift x - s.fShift y) (P.hsmoothAlfa * maxH) * a)) y
              + P.hsmoothBeta * (min (s.fShift x - s.fShift y) (P.hsmoothAlfa * maxH) * a)) } := by
        split_ifs at h ⊢ <;>
        · obtain ⟨a, ha, h⟩ := res_bind_eq_ok.1 h
          exact ⟨a, ha, (Except.ok.inj h).symm⟩
      refine ⟨_, rfl, fun f => ?_⟩
      simp only [key x y (by simp) a ha, hxy, upd_apply, if_neg hlt]
      by_cases hx : f = x
      · subst hx
        simp [hne, sub_eq_add_neg]
      · by_cases hy : f = y
        · subst hy
          simp [Ne.symm hne]
        · simp [hx, hy]
  · rename_i h1
    obtain rfl := Except.ok.inj h
    refine ⟨s.loc, rfl, fun f => ?_⟩
    split
    · rename_i x y h2
      exact absurd h2 (h1 x y)
    · rw [add_zero]

omit [Field F] in
theorem maximum_greatest {l : List F} {m : F} (h : Py.maximum l = .ok m) : m ∈ l ∧ ∀ y ∈ l, y ≤ m := by
  cases l with
  | nil => cases h
  | cons x xs =>
    obtain ⟨m', h', h1⟩ := maximum_ok (l := x :: xs) (by simp)
    rw [h] at h'
    rw [Except.ok.inj h']
    exact h1

/-- A turn: what goes over the edges. -/
theorem heightsTurn_gets {P : RemeshPar F} {s s' : Ice F R} (hm : Mesh s.g) (h : heightsTurn P s = .ok s') :
    ∃ maxH t, Greatest s maxH ∧ (∀ f ∈ s.g.faces, t.chunk f = s.chunk f + (s.g.edges.map (getsOver P maxH s f)).sum) ∧
      (∃ a b, t = { s with chunk := a, loc := b }) ∧ defineShifts P.sqrt t = .ok s' := by
  unfold heightsTurn at h
  obtain ⟨l0, e0, h0, -⟩ := foldUpdP (f := fun s f => { s with loc := upd s.loc f (s.chunk f) }) (fun m => { s with loc := m })
    (fun _ f => s.chunk f) (by intro m a; rfl) hm.faces_nodup (m := s.loc)
  rw [show s = { s with loc := s.loc } from rfl, e0] at h
  dsimp only at h
  obtain ⟨maxH, hM, h⟩ := res_bind_eq_ok.1 h
  obtain ⟨s1, h1, h⟩ := res_bind_eq_ok.1 h
  obtain ⟨l1, rfl, hl1⟩ := foldlM_partial _ _ (fun pre t => ∃ c, t = { s with loc := c } ∧ ∀ f, c f = l0 f + (pre.map (getsOver P maxH s f)).sum) _ _ h1
    ⟨l0, rfl, by simp⟩ (by
      rintro pre e post t t' hl ⟨c, rfl, hc⟩ ht
      have he : e ∈ s.g.edges := by rw [hl]; simp
      obtain ⟨c', rfl, hc'⟩ := smoothEdge_gets (s := { s with loc := c }) (hm.edge_faces e he).2
        (fun f hf => (hm.face_nodes f ((hm.edge_face e he f).1 hf).1).1) ht
      refine ⟨c', rfl, fun f => ?_⟩
      rw [hc', List.map_append, List.sum_append]
      show c f + getsOver P maxH s f e = _
      rw [hc]
      simp [add_assoc])
  obtain ⟨c2, e2, h2, -⟩ := foldUpdP (f := fun s f => { s with chunk := upd s.chunk f (s.loc f) }) (fun m => { s with loc := l1, chunk := m })
    (fun _ f => l1 f) (by intro m a; rfl) hm.faces_nodup (m := s.chunk)
  dsimp only at h
  rw [e2] at h
  obtain ⟨q1, q2⟩ := maximum_greatest hM
  refine ⟨maxH, _, ⟨List.mem_map.1 q1, fun f hf => q2 _ (List.mem_map.2 ⟨f, hf, rfl⟩)⟩, fun f hf => ?_, ⟨_, _, rfl⟩, h⟩
  show c2 f = _
  rw [h2 f hf, hl1, h0 f hf]

/-- Only the edges of a face count. -/
theorem gets_edges {P : RemeshPar F} {s : Ice F R} (hm : Mesh s.g) {maxH : F} {f : Nat} (hf : f ∈ s.g.faces) :
    (s.g.edges.map (getsOver P maxH s f)).sum = ((s.g.fEdges f).map (getsOver P maxH s f)).sum := by
  have h0 : ∀ e ∈ s.g.edges, e ∉ s.g.fEdges f → getsOver P maxH s f e = 0 := by
    intro e he hn
    unfold getsOver
    split
    · rename_i x y hxy
      rw [if_pos]
      constructor
      · rintro rfl
        exact hn ((hm.edge_face e he f).1 (by rw [hxy]; simp)).2
      · rintro rfl
        exact hn ((hm.edge_face e he f).1 (by rw [hxy]; simp)).2
    · rfl
  have e1 : (s.g.edges.map (getsOver P maxH s f)).sum = ((s.g.edges.filter fun e => decide (e ∈ s.g.fEdges f)).map (getsOver P maxH s f)).sum := by
    have : ∀ l : List Nat, (∀ e ∈ l, e ∈ s.g.edges) →
        (l.map (getsOver P maxH s f)).sum = ((l.filter fun e => decide (e ∈ s.g.fEdges f)).map (getsOver P maxH s f)).sum := by
      intro l
      induction l with
      | nil => simp
      | cons e l ih =>
        intro hl
        have ih := ih fun e he => hl e (List.mem_cons_of_mem _ he)
        by_cases h : e ∈ s.g.fEdges f
        · simp [h, ih]
        · simp [h, ih, h0 e (hl e (by simp)) h]
    exact this _ fun _ h => h
  rw [e1]
  refine List.Perm.sum_eq (List.Perm.map _ ?_)
  rw [List.perm_ext_iff_of_nodup (hm.edges_nodup.filter _) (hm.face_edges f hf).2.1]
  intro e
  simp only [List.mem_filter, decide_eq_true_eq]
  exact ⟨fun h => h.2, fun h => ⟨(hm.face_edges f hf).2.2 e h, h⟩⟩

variable [IsStrictOrderedRing F]

theorem faceShift_nonneg {sqrt : F → F} (hs : ∀ x, 0 ≤ x → 0 ≤ sqrt x ∧ sqrt x * sqrt x = x) {s : Ice F R} {f : Nat} {h : F}
    (hf : faceShift sqrt s f = .ok h) (h3 : (s.g.fNodes f).length = 3) (hc : 0 ≤ s.chunk f) : 0 ≤ h := by
  obtain ⟨n1, n2, n3, e⟩ := List.length_eq_three.1 h3
  obtain ⟨h1, h2, h4⟩ := faceShift_ok hs hf e
  have h0 : 0 ≤ s.chunk f / faceArea sqrt s.g f := div_nonneg hc h1.le
  rcases le_or_gt (s.chunk f) (1 / 10 ^ 10) with hl | hl
  · rw [h2 hl]; exact h0
  · obtain ⟨n, b, c, -, -, rfl⟩ := h4 hl
    exact solveShift_nonneg h0

/-- What goes over an edge is not negative and not more than the part `beta` of the ice of the giver. -/
theorem passes_bounds {P : RemeshPar F} {s : Ice F R} {maxH : F} (hb : 0 ≤ P.hsmoothBeta) (ha : 0 ≤ P.hsmoothAlfa * maxH) {x y : Nat}
    (hxy : s.fShift y ≤ s.fShift x) (hy : 0 ≤ s.fShift y) (hc : 0 ≤ s.chunk x) :
    0 ≤ passes P maxH s x y ∧ passes P maxH s x y ≤ P.hsmoothBeta * s.chunk x := by
  unfold passes
  split_ifs with h0
  · have : s.fShift y = 0 := le_antisymm (h0 ▸ hxy) hy
    rw [h0, this, sub_self, min_eq_left ha, zero_mul, mul_zero]
    exact ⟨le_refl _, mul_nonneg hb hc⟩
  · have hx : 0 < s.fShift x := lt_of_le_of_ne (hy.trans hxy) (Ne.symm h0)
    have hd : 0 ≤ s.chunk x / s.fShift x := div_nonneg hc hx.le
    refine ⟨mul_nonneg hb (mul_nonneg (le_min (sub_nonneg.2 hxy) ha) hd), mul_le_mul_of_nonneg_left ?_ hb⟩
    calc _ ≤ s.fShift x * (s.chunk x / s.fShift x) := mul_le_mul_of_nonneg_right ((min_le_left _ _).trans (by linarith)) hd
      _ = s.chunk x := by field_simp

end Ice
end Verif
