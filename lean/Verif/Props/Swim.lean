import Verif.Model.Swim
import Verif.Props.CrysMain

/-! Property C105: the library `swim` and what `crys.py` computes with it. -/

namespace Verif.Props
open Verif Crys Grid
variable {F R : Type}

section
variable [Add F]

theorem bump_ok {a : List F} {i : Nat} (h : i < a.length) (x : F) : Swim.bump a i x = .ok (a.set i (a[i] + x)) := by
  unfold Swim.bump
  rw [List.getElem?_eq_getElem h]

theorem bump_error {a : List F} {i : Nat} (h : a.length ≤ i) (x : F) : Swim.bump a i x = .error .index := by
  unfold Swim.bump
  rw [List.getElem?_eq_none h]

theorem bump_step {a : List F} {i : Nat} (h : i < a.length) (x : F) :
    Swim.bump ((a.take i).map (· + x) ++ a.drop i) i x = .ok ((a.take (i + 1)).map (· + x) ++ a.drop (i + 1)) := by
  have hl : ((a.take i).map (· + x)).length = i := by simp; omega
  have hd : a.drop i = a[i] :: a.drop (i + 1) := List.drop_eq_getElem_cons h
  have hg : ((a.take i).map (· + x) ++ a.drop i)[i]? = some a[i] := by
    rw [List.getElem?_append_right (by omega), hl, Nat.sub_self, hd]; rfl
  unfold Swim.bump
  rw [hg]
  simp only
  rw [List.set_append_right _ _ (by omega), hl, Nat.sub_self, hd, List.set_cons_zero, List.take_succ_eq_append_getElem h, List.map_append]
  simp

variable [OfNat F 1] [OfNat F 2] [OfNat F 3]

theorem hi_turns (a b c : List F) (n : Nat) (ha : n ≤ a.length) (hb : n ≤ b.length) (hc : n ≤ c.length) :
    (List.range n).foldlM Swim.turn (a, b, c) = .ok ((a.take n).map (· + 1) ++ a.drop n, (b.take n).map (· + 2) ++ b.drop n,
      (c.take n).map (· + 3) ++ c.drop n) := by
  induction n with
  | zero => simp [pure, Except.pure]
  | succ n ih =>
    rw [List.range_succ, List.foldlM_append, ih (by omega) (by omega) (by omega), res_bind_ok, List.foldlM_cons]
    unfold Swim.turn
    simp only
    rw [bump_step (by omega), res_bind_ok, bump_step (by omega), res_bind_ok, bump_step (by omega)]
    rfl

/-- The library adds 1, 2 and 3 to all elements of the three arrays, if they are equally long. -/
theorem C105_hi (a b c : List F) (hb : b.length = a.length) (hc : c.length = a.length) :
    Swim.hi a b c = .ok (a.map (· + 1), b.map (· + 2), c.map (· + 3)) := by
  unfold Swim.hi
  rw [hi_turns a b c a.length le_rfl (by omega) (by omega)]
  rw [← hb]
  simp only [List.take_length, List.drop_length, List.append_nil]
  rw [hb, ← hc]
  simp only [List.take_length, List.drop_length, List.append_nil]
  rw [hc]
  simp only [List.take_length, List.drop_length, List.append_nil]

/-- It accesses memory outside of an array exactly if the second or the third array is shorter than the first one: their lengths are passed,
but not looked at. If they are longer the rest is not changed. -/
theorem C105_bounds (a b c : List F) :
    ((∃ r, Swim.hi a b c = .ok r) ↔ a.length ≤ b.length ∧ a.length ≤ c.length) ∧
    (a.length ≤ b.length → a.length ≤ c.length → Swim.hi a b c = .ok (a.map (· + 1), (b.take a.length).map (· + 2) ++ b.drop a.length,
      (c.take a.length).map (· + 3) ++ c.drop a.length)) := by
  have key : a.length ≤ b.length → a.length ≤ c.length → Swim.hi a b c = .ok (a.map (· + 1), (b.take a.length).map (· + 2) ++ b.drop a.length,
      (c.take a.length).map (· + 3) ++ c.drop a.length) := by
    intro hb hc
    unfold Swim.hi
    rw [hi_turns a b c a.length le_rfl hb hc]
    simp
  refine ⟨⟨fun ⟨r, h⟩ => ?_, fun ⟨hb, hc⟩ => ⟨_, key hb hc⟩⟩, key⟩
  by_contra hn
  obtain ⟨m, hm1, hm2, hm3, hm⟩ : ∃ m, m < a.length ∧ m ≤ b.length ∧ m ≤ c.length ∧ (b.length ≤ m ∨ c.length ≤ m) :=
    ⟨min b.length c.length, by omega, by omega, by omega, by omega⟩
  have hs : List.range a.length = List.range m ++ (m :: List.range' (m + 1) (a.length - m - 1)) := by
    rw [List.range_eq_range', List.range_eq_range', ← List.range'_succ]
    have := List.range'_append_1 (s := 0) (m := m) (n := a.length - m)
    rw [Nat.zero_add] at this
    rw [show a.length - m - 1 + 1 = a.length - m from by omega, this]
    congr 1
    omega
  unfold Swim.hi at h
  rw [hs, List.foldlM_append, hi_turns a b c m (by omega) hm2 hm3, res_bind_ok, List.foldlM_cons] at h
  unfold Swim.turn at h
  simp only at h
  rw [bump_step hm1, res_bind_ok] at h
  rcases hm with hm | hm
  · rw [bump_error (by simp; omega)] at h
    cases h
  · by_cases hb : m < b.length
    · rw [bump_step hb, res_bind_ok, bump_error (by simp; omega)] at h
      cases h
    · rw [bump_error (by simp; omega)] at h
      cases h

/-- In `crys.py` the three arrays are equally long, so that every process gets two more than the ice heights of the file on its faces. -/
theorem C105_solve (g : Grid F R) (i : Nat) (h : List F) (hs : solve Swim.heights g i = .ok h) :
    ∃ z, g.zones[i]? = some z ∧ List.Forall₂ (fun f x => ∃ y, Py.dictGet? (g.fData f) "Hi".toList = some y ∧ x = y + 2) (g.zFaces z) h := by
  obtain ⟨z, his, t, hw, h1, h2, h3, h4, rfl⟩ := solve_ok hs
  refine ⟨z, h1, ?_⟩
  have l2 := (column_ok h2).length_eq
  have l3 := (column_ok h3).length_eq
  have l4 := (column_ok h4).length_eq
  unfold Swim.heights
  rw [C105_hi t his hw (by omega) (by omega)]
  simp only
  rw [List.forall₂_map_right_iff]
  exact (column_ok h2).imp fun f x hx => ⟨x, hx, rfl⟩

end

variable [Field F] [LinearOrder F] {S : Type} [LinearOrder S] [DecidableEq R] {rc : Vec F → R} {c : Codec F} {new : Grid F R} {fns : Grid F R → List (Nat → S)}
  {text : Str} {k : Nat} {g root : Grid F R} {his : List (List F)}

/-- Missing for the full property: as for C97, a number of faces that is not a multiple of the number of processes.

If the number of processes divides the number of faces, the grid that process 0 remeshes is the grid of the file with 2 added to the ice heights
of all faces. What the library has added to the temperatures and to the water heights is lost. -/
theorem C105_crys_partial (hst : Started rc c new fns text k g) (hrun : Whole false Swim.heights g his root) (hdiv : k ∣ g.faces.length) :
    ∃ d, scatter root his = { g with fData := d } ∧ ∀ f ∈ g.faces,
      (∃ y, Py.dictGet? (g.fData f) "Hi".toList = some y ∧ Py.dictGet? (d f) "Hi".toList = some (y + 2)) ∧
      ∀ v, v ≠ "Hi".toList → Py.dictGet? (d f) v = Py.dictGet? (g.fData f) v := by
  have hsw : ∀ t h w : List F, t.length = h.length → w.length = h.length → (Swim.heights t h w).length = h.length := by
    intro t h w h1 h2
    unfold Swim.heights
    rw [C105_hi t h w (by omega) (by omega)]
    simp
  obtain ⟨d, h1, h2⟩ := C97_heights_partial hst hsw hrun hdiv
  refine ⟨d, h1, fun f hf => ?_⟩
  obtain ⟨hw, -⟩ := hst.facts
  obtain ⟨z, hz, hfz⟩ := List.mem_flatMap.1 ((hw.zones.partition.mem_iff).2 hf)
  obtain ⟨i, hi⟩ := List.getElem?_of_mem hz
  obtain ⟨p, hp⟩ := List.getElem?_of_mem hfz
  obtain ⟨h, -, hs⟩ := forall₂_left hrun.work (List.mem_range.2 (List.getElem?_eq_some_iff.1 hi).1)
  obtain ⟨z', e1, e2⟩ := C105_solve g i h hs
  rw [hi] at e1
  obtain rfl := Option.some.inj e1
  obtain ⟨a1, a2⟩ := List.getElem?_eq_some_iff.1 hp
  have a3 : p < h.length := by rw [← e2.length_eq]; exact a1
  obtain ⟨y, b1, b2⟩ := (List.forall₂_iff_get.1 e2).2 p a1 a3
  simp only [List.get_eq_getElem, a2] at b1 b2
  obtain ⟨c1, c2⟩ := h2 i z p f h (h[p]) hi hs hp (List.getElem?_eq_getElem a3)
  exact ⟨⟨y, b1, by rw [c1, b2]⟩, c2⟩

omit [Field F] [LinearOrder F] in
theorem forall₂_exists {α β : Type} {P : α → β → Prop} (l : List α) (h : ∀ a ∈ l, ∃ b, P a b) : ∃ m, List.Forall₂ P l m := by
  induction l with
  | nil => exact ⟨[], .nil⟩
  | cons a l ih =>
    obtain ⟨b, hb⟩ := h a (by simp)
    obtain ⟨m, hm⟩ := ih fun x hx => h x (by simp [hx])
    exact ⟨b :: m, .cons hb hm⟩

/-- A run does not depend on the library up to the gathered arrays. -/
theorem whole_other {late : Bool} {s1 s2 : List F → List F → List F → List F} (h : Whole late s1 g his root) : ∃ his', Whole late s2 g his' root := by
  obtain ⟨m, hm⟩ := forall₂_exists (P := fun i h => solve s2 g i = .ok h) (List.range g.zones.length) fun i hi => by
    obtain ⟨x, -, hx⟩ := forall₂_left h.work hi
    obtain ⟨z, a, t, b, e1, e2, e3, e4, -⟩ := solve_ok hx
    refine ⟨s2 t a b, ?_⟩
    unfold solve
    rw [get_ofNat, e1]
    simp only [res_bind_ok, e2, e3, e4]
  exact ⟨m, hm, h.one, h.many⟩

/-- The hypotheses are met by a complete run with two processes and four triangles. -/
example : ∃ (g root : Grid ℚ (ℚ × ℚ × ℚ)) (his : List (List ℚ)), Started ratKey ratCodec empty (fun _ => ([] : List (Nat → ℚ))) stripFile 2 g ∧
    2 ∣ g.faces.length ∧ Whole false Swim.heights g his root := by
  obtain ⟨g, root, h0, h1, out, r, q1, q2, q0, q3, -⟩ := crysCheck_sound (text := stripFile) (m := 4) (by decide +kernel)
  obtain ⟨his, h⟩ := whole_other (s2 := Swim.heights) q3
  exact ⟨g, root, his, q1, by rw [q0]; decide, h⟩

/-- Three arrays. -/
example : Swim.hi [10, 20] [1, 2] [5, (6 : Int)] = .ok ([11, 21], [3, 4], [8, 9]) := C105_hi _ _ _ rfl rfl

end Verif.Props
