import Verif.Spec.Orient
import Verif.Proofs.Transform
import Mathlib.Tactic.Ring
import Mathlib.Tactic.LinearCombination
import Mathlib.Tactic.Linarith

/-! Orientation of the faces created by transformations. -/

namespace Verif
variable {F R : Type} [Field F] [LinearOrder F] [IsStrictOrderedRing F]

/-- Directions of a vector other than zero are not both. -/
theorem not_both {u v : Vec F} (hv : v ≠ ⟨0, 0, 0⟩) (h1 : SameSide u v) (h2 : OppositeSide u v) : False := by
  obtain ⟨s, hs, rfl⟩ := h1
  obtain ⟨t, ht, h⟩ := h2
  obtain ⟨x, y, z⟩ := v
  simp only [Vec.mul, Vec.mk.injEq] at h
  have hst : s - t ≠ 0 := ne_of_gt (by linarith)
  refine hv ?_
  have e : ∀ w, s * w = t * w → w = 0 := fun w hw => by
    have : (s - t) * w = 0 := by linear_combination hw
    exact (mul_eq_zero.1 this).resolve_left hst
  rw [e x h.1, e y h.2.1, e z h.2.2]

theorem normal_swap (a b c : Vec F) : normal b a c = (normal a b c).mul (-1) := by
  simp only [normal, Vec.mul, Vec.mk.injEq]; exact ⟨by ring, by ring, by ring⟩
theorem normal_rot (a b c : Vec F) : normal b c a = normal a b c := by
  simp only [normal, Vec.mk.injEq]; exact ⟨by ring, by ring, by ring⟩

theorem mix_ab (a b c : Vec F) {s t u : F} (h : s + t + u = 1) : normal a b (mix s a t b u c) = (normal a b c).mul u := by
  obtain rfl : s = 1 - t - u := by linear_combination h
  simp only [normal, mix, Vec.mul, Vec.mk.injEq]; exact ⟨by ring, by ring, by ring⟩
theorem mix_bc (a b c : Vec F) {s t u : F} (h : s + t + u = 1) : normal b c (mix s a t b u c) = (normal a b c).mul s := by
  obtain rfl : s = 1 - t - u := by linear_combination h
  simp only [normal, mix, Vec.mul, Vec.mk.injEq]; exact ⟨by ring, by ring, by ring⟩
theorem mix_ac (a b c : Vec F) {s t u : F} (h : s + t + u = 1) : normal a c (mix s a t b u c) = (normal a b c).mul (-t) := by
  obtain rfl : s = 1 - t - u := by linear_combination h
  simp only [normal, mix, Vec.mul, Vec.mk.injEq]; exact ⟨by ring, by ring, by ring⟩

theorem SameSide.trans_neg {u v w : Vec F} (h1 : OppositeSide u v) (h2 : OppositeSide v w) : SameSide u w := by
  obtain ⟨s, hs, rfl⟩ := h1
  obtain ⟨t, ht, rfl⟩ := h2
  refine ⟨s * t, mul_pos_of_neg_of_neg hs ht, ?_⟩
  simp only [Vec.mul, Vec.mk.injEq]; exact ⟨by ring, by ring, by ring⟩
theorem OppositeSide.trans_pos {u v w : Vec F} (h1 : SameSide u v) (h2 : OppositeSide v w) : OppositeSide u w := by
  obtain ⟨s, hs, rfl⟩ := h1
  obtain ⟨t, ht, rfl⟩ := h2
  refine ⟨s * t, mul_neg_of_pos_of_neg hs ht, ?_⟩
  simp only [Vec.mul, Vec.mk.injEq]; exact ⟨by ring, by ring, by ring⟩
theorem SameSide.refl (u : Vec F) : SameSide u u := ⟨1, one_pos, by simp [Vec.mul]⟩

omit [LinearOrder F] [IsStrictOrderedRing F] in
theorem faceNormal_eq {g : Grid F R} {f a b c : Nat} (h : g.fNodes f = [a, b, c]) :
    faceNormal g f = normal (g.nP a) (g.nP b) (g.nP c) := by unfold faceNormal; rw [h]

/-- A face with corners `a`, `b`, `c` lists them in an order of the one or of the other orientation. -/
theorem faceNormal_corners {g : Grid F R} (m : Mesh g) {f a b c : Nat} (hf : f ∈ g.faces) (hab : a ≠ b) (hac : c ≠ a) (hbc : c ≠ b)
    (h : ∀ n, n ∈ g.fNodes f ↔ n = a ∨ n = b ∨ n = c) :
    faceNormal g f = normal (g.nP a) (g.nP b) (g.nP c) ∨ faceNormal g f = (normal (g.nP a) (g.nP b) (g.nP c)).mul (-1) := by
  obtain ⟨x, y, z, hx⟩ := List.length_eq_three.1 (m.face_nodes f hf).1
  have hnd := (m.face_nodes f hf).2.1
  rw [hx] at hnd h
  have ha := (h a).2 (Or.inl rfl)
  have hb := (h b).2 (Or.inr (Or.inl rfl))
  have hc := (h c).2 (Or.inr (Or.inr rfl))
  rw [faceNormal_eq hx]
  simp only [List.mem_cons, List.not_mem_nil, or_false] at ha hb hc
  have r1 : ∀ p q r : Vec F, normal q r p = normal p q r := normal_rot
  have r2 : ∀ p q r : Vec F, normal r p q = normal p q r := fun p q r => by rw [r1, r1]
  rcases ha with rfl | rfl | rfl <;> rcases hb with rfl | rfl | rfl <;> rcases hc with rfl | rfl | rfl <;>
    first
    | exact absurd rfl hab
    | exact absurd rfl hac
    | exact absurd rfl hbc
    | exact Or.inl rfl
    | exact Or.inl (r1 _ _ _)
    | exact Or.inl (r2 _ _ _)
    | exact Or.inr (normal_swap _ _ _)
    | exact Or.inr (by rw [← normal_swap]; exact r1 _ _ _)
    | exact Or.inr (by rw [← normal_swap]; exact r2 _ _ _)

end Verif
