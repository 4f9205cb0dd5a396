import Verif.Proofs.Zam
import Verif.Proofs.Sample
import Mathlib.Algebra.Field.Basic
import Mathlib.Algebra.CharZero.Defs
import Mathlib.Tactic.FieldSimp
import Mathlib.Tactic.NormNum
import Mathlib.Algebra.Order.Ring.Rat

/-! Properties C15 - C17: the zones adjacency matrix and the kinds of edges. -/

namespace Verif.Props
open Verif Grid
variable {F R : Type}

/-! ## C15 Zones adjacency matrix -/

/-- The matrix is built exactly when every edge has one or two faces and all of them are in the given zones. -/
theorem C15_built_iff (g : Grid F R) (es zs : List Nat) : (∃ a, Zam.make g es zs = .ok a) ↔ EdgesIn g es zs :=
  ⟨fun ⟨a, h⟩ => make_edgesIn g es zs a h, fun h => ⟨_, make_spec g es zs h⟩⟩

/-- The matrix is square with one extra row and column, symmetric, its elements are numbers of edges. -/
theorem C15_matrix (g : Grid F R) (es zs : List Nat) (hnd : zs.Nodup) (a : Zam) (h : Zam.make g es zs = .ok a) :
    a.m.length = zs.length + 1 ∧ (∀ row ∈ a.m, row.length = zs.length + 1) ∧
    (∀ i j, a.entry i j = a.entry j i) ∧
    (∀ i j zi zj : Nat, zs[i]? = some zi → zs[j]? = some zj → a.entry i j = some (howMany (Between g zi zj) es)) ∧
    (∀ i zi : Nat, zs[i]? = some zi → a.entry i zs.length = some (howMany (BorderOf g zi) es)) ∧
    a.entry zs.length zs.length = some 0 := by
  have he := make_edgesIn g es zs a h
  rw [make_spec g es zs he] at h
  obtain rfl := Except.ok.inj h
  refine ⟨by simp [tab], ?_, ?_, ?_, ?_, ?_⟩
  · intro row hr
    simp only [tab, List.mem_map, List.mem_range] at hr
    obtain ⟨i, _, rfl⟩ := hr
    simp
  · intro i j
    rw [tab_entry, tab_entry]
    simp only [and_comm (a := i ≤ zs.length)]
    have : cell i j = cell j i := by
      funext p; unfold cell; apply decide_eq_decide.2; tauto
    rw [this]
  · intro i j zi zj hi hj
    have hil := (List.getElem?_eq_some_iff.1 hi).1
    have hjl := (List.getElem?_eq_some_iff.1 hj).1
    rw [tab_entry, if_pos ⟨by omega, by omega⟩, List.countP_map]
    congr 1
    exact (howMany_eq (fun e hee => cell_between hnd he hi hj hee)).symm
  · intro i zi hi
    have hil := (List.getElem?_eq_some_iff.1 hi).1
    rw [tab_entry, if_pos ⟨by omega, by omega⟩, List.countP_map]
    congr 1
    exact (howMany_eq (fun e hee => cell_border hnd he hi hee)).symm
  · rw [tab_entry, if_pos ⟨by omega, by omega⟩, List.countP_map]
    congr 1
    rw [List.countP_eq_zero]
    intro e hee
    have := zonePair_lt he hee
    simp only [Function.comp, cell, decide_eq_true_eq]
    omega

/-- The matrix of all edges and zones of a well-formed grid is always built. -/
theorem C15_wf (g : Grid F R) (hw : Wf g) : ∃ a, Zam.make g g.edges g.zones = .ok a ∧ g.zones.Nodup :=
  ⟨_, make_spec _ _ _ hw.edgesIn, hw.zones.zones_nodup⟩

/-- The sample: zone 0 has 1 inner and 3 border edges, zone 1 has 2 border edges, 1 edge is between them. -/
example : Zam.make Sample.grid Sample.grid.edges Sample.grid.zones = .ok ⟨2, [[1, 1, 3], [1, 0, 2], [3, 2, 0]]⟩ := by
  rw [make_spec _ _ _ Sample.wf.edgesIn]
  have : tab Sample.grid.zones.length (fun i j => (Sample.grid.edges.map
    (zonePair Sample.grid Sample.grid.zones)).countP (cell i j)) = [[1, 1, 3], [1, 0, 2], [3, 2, 0]] := by decide +kernel
  rw [this, Sample.zones]; rfl

/-! ## C16 Edges statistics -/

/-- The counts are the numbers of border, inner and cross edges, they sum up to the number of edges, and the
percentages are exact shares adding up to 100. -/
theorem C16_statistics {K : Type} [Field K] [CharZero K] (g : Grid F R) (es zs : List Nat) (a : Zam)
    (h : Zam.make g es zs = .ok a) (hne : es ≠ []) :
    ∃ bec iec cec : Nat, ∃ bp ip cp : K, a.edgesStatistics = .ok (es.length, bec, iec, cec, bp, ip, cp) ∧
      bec = howMany (fun e => g.isBorder e = true) es ∧ iec = howMany (fun e => g.isInner e = .ok true) es ∧
      cec = howMany (fun e => g.isCross e = .ok true) es ∧ bec + iec + cec = es.length ∧
      bp * es.length = 100 * bec ∧ ip * es.length = 100 * iec ∧ cp * es.length = 100 * cec ∧ bp + ip + cp = 100 := by
  have he := make_edgesIn g es zs a h
  rw [make_spec g es zs he] at h
  obtain rfl := Except.ok.inj h
  have hs := kinds_sum g es zs he
  have hl : es.length ≠ 0 := by simpa using hne
  have hk : (es.length : K) ≠ 0 := by exact_mod_cast hl
  refine ⟨_, _, _, 100 * (es.countP (fun e => g.isBorder e) : K) / es.length,
    100 * (es.countP (fun e => decide (g.isInner e = .ok true)) : K) / es.length,
    100 * (es.countP (fun e => decide (g.isCross e = .ok true)) : K) / es.length, ?_,
    (howMany_eq (q := fun e => g.isBorder e) (by simp)).symm,
    (howMany_eq (q := fun e => decide (g.isInner e = .ok true)) (by simp)).symm,
    (howMany_eq (q := fun e => decide (g.isCross e = .ok true)) (by simp)).symm, hs,
    div_mul_cancel₀ _ hk, div_mul_cancel₀ _ hk, div_mul_cancel₀ _ hk, ?_⟩
  · unfold Zam.edgesStatistics
    simp only [counts_spec g es zs he, hs]
    rw [if_neg hl]
  · rw [← add_div, ← add_div, ← mul_add, ← mul_add, div_eq_iff hk]
    congr 1
    exact_mod_cast hs

/-- Without edges the percentages are divisions by zero. -/
theorem C16_no_edges {K : Type} [Field K] (g : Grid F R) (zs : List Nat) (a : Zam)
    (h : Zam.make g [] zs = .ok a) : a.edgesStatistics (K := K) = .error .zeroDiv := by
  have he := make_edgesIn g [] zs a h
  rw [make_spec g [] zs he] at h
  obtain rfl := Except.ok.inj h
  unfold Zam.edgesStatistics
  simp only [counts_spec g [] zs he]
  rfl

/-- On the sample grid: 7 edges, 5 of them border, 1 inner, 1 cross. -/
example : Zam.edgesStatistics (K := ℚ) ⟨2, [[1, 1, 3], [1, 0, 2], [3, 2, 0]]⟩ =
    .ok (7, 5, 1, 1, 500 / 7, 100 / 7, 100 / 7) := by
  have h : Zam.counts ⟨2, [[1, 1, 3], [1, 0, 2], [3, 2, 0]]⟩ = (5, 1, 1) := by decide
  unfold Zam.edgesStatistics
  rw [h]
  norm_num

/-! ## C17 Kinds of edges -/

/-- Exactly one of the three kinds, `is_outer` is the negation of `is_inner`. -/
theorem C17_kinds (g : Grid F R) (e : Nat) (h : (g.eFaces e).length = 1 ∨ (g.eFaces e).length = 2) :
    ∃ i c, g.isInner e = .ok i ∧ g.isCross e = .ok c ∧ g.isOuter e = .ok (!i) ∧
      ((g.isBorder e = true ∧ i = false ∧ c = false) ∨ (g.isBorder e = false ∧ i = true ∧ c = false) ∨
       (g.isBorder e = false ∧ i = false ∧ c = true)) := edge_kind h

/-- The kinds mean what they say: one face, two faces of one zone, two faces of different zones. -/
theorem C17_meaning (g : Grid F R) (e : Nat) :
    (g.isBorder e = true ↔ ∃ a, g.eFaces e = [a]) ∧
    (g.isInner e = .ok true ↔ ∃ a b, g.eFaces e = [a, b] ∧ g.fZone a = g.fZone b) ∧
    (g.isCross e = .ok true ↔ ∃ a b, g.eFaces e = [a, b] ∧ g.fZone a ≠ g.fZone b) := by
  unfold Grid.isBorder Grid.isInner Grid.isCross
  match g.eFaces e with
  | [] => simp
  | [a] => simp
  | [a, b] => simp
  | a :: b :: c :: l => simp

/-- Any other number of faces raises. -/
theorem C17_raises (g : Grid F R) (e : Nat) (h : (g.eFaces e).length ≠ 1) (h2 : (g.eFaces e).length ≠ 2) :
    ∃ m, g.isInner e = .error (.exc m) ∧ g.isCross e = .error (.exc m) ∧ g.isOuter e = .error (.exc m) ∧
      g.isBorder e = false := by
  unfold Grid.isOuter Grid.isBorder Grid.isInner Grid.isCross
  match g.eFaces e, h, h2 with
  | [], _, _ => exact ⟨_, rfl, rfl, rfl, rfl⟩
  | a :: b :: c :: l, _, _ => exact ⟨_, rfl, rfl, rfl, by simp⟩

/-- `is_connect_zones` is true exactly for the edges between the two zones. -/
theorem C17_connect (g : Grid F R) (e z0 z1 : Nat) : g.isConnectZones e z0 z1 = true ↔ Between g z0 z1 e := connect_iff g e z0 z1

/-- The first edge of the sample grid is a border edge, the third one inner, the fourth one cross. -/
example : Sample.grid.isBorder 0 = true ∧ Sample.grid.isInner 2 = .ok true ∧ Sample.grid.isCross 3 = .ok true := by
  decide +kernel

end Verif.Props
