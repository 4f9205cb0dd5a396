import Verif.Proofs.Mpi
import Verif.Props.Zam
import Verif.Props.Mpi

/-! # C118 The longest border of a decomposition -/

namespace Verif.Props
open Grid
variable {F R : Type}

theorem foldl_max_ge (l : List Nat) (a : Nat) : a ≤ l.foldl max a ∧ ∀ x ∈ l, x ≤ l.foldl max a := by
  induction l generalizing a with
  | nil => simp
  | cons b l ih =>
    obtain ⟨h1, h2⟩ := ih (max a b)
    refine ⟨by simp only [List.foldl_cons]; omega, ?_⟩
    intro x hx
    simp only [List.foldl_cons]
    rcases List.mem_cons.1 hx with rfl | hx
    · omega
    · exact h2 x hx

theorem foldl_max_mem (l : List Nat) (a : Nat) : l.foldl max a = a ∨ l.foldl max a ∈ l := by
  induction l generalizing a with
  | nil => simp
  | cons b l ih =>
    simp only [List.foldl_cons]
    rcases ih (max a b) with h | h
    · rw [h]
      by_cases hab : a ≤ b
      · right; rw [max_eq_right hab]; simp
      · left; omega
    · right; exact List.mem_cons_of_mem _ h

/-- `zone_max_cross_border_len`: the largest number of edges this zone shares with one other zone, 0 if it has no neighbour. -/
theorem C118_zone_border (g : Grid F R) (hw : Wf g) (i zi : Nat) (hi : g.zones[i]? = some zi) :
    ∃ a, Zam.make g g.edges g.zones = .ok a ∧
      (∀ j zj : Nat, j ≠ i → g.zones[j]? = some zj → howMany (Between g zi zj) g.edges ≤ a.maxBorder i) ∧
      (a.maxBorder i = 0 ∨ ∃ j zj : Nat, j ≠ i ∧ g.zones[j]? = some zj ∧ a.maxBorder i = howMany (Between g zi zj) g.edges) := by
  refine ⟨_, make_spec g g.edges g.zones hw.edgesIn, ?_⟩
  have hil := (List.getElem?_eq_some_iff.1 hi).1
  have hb : ∀ j zj, g.zones[j]? = some zj → edgesBetween g i j = howMany (Between g zi zj) g.edges := fun j zj hj =>
    edgesBetween_howMany hw hi hj
  unfold Zam.maxBorder
  rw [show (fun i j => (g.edges.map (zonePair g g.zones)).countP (cell i j)) = edgesBetween g from rfl]
  rw [crossArray_tab _ _ _ hil]
  obtain ⟨l, hl⟩ : ∃ l, l = (List.range (g.zones.length + 1)).map (fun j => if j = i ∨ j = g.zones.length then 0 else edgesBetween g i j) :=
    ⟨_, rfl⟩
  rw [← hl]
  constructor
  · intro j zj hji hj
    have hjl := (List.getElem?_eq_some_iff.1 hj).1
    rw [← hb j zj hj]
    apply (foldl_max_ge l 0).2
    rw [hl]
    exact List.mem_map.2 ⟨j, List.mem_range.2 (by omega), by rw [if_neg (by omega)]⟩
  · rcases foldl_max_mem l 0 with h | h
    · exact Or.inl h
    · generalize l.foldl max 0 = m at h ⊢
      rw [hl] at h
      obtain ⟨j, hj, hm⟩ := List.mem_map.1 h
      by_cases hc : j = i ∨ j = g.zones.length
      · rw [if_pos hc] at hm
        exact Or.inl hm.symm
      · rw [if_neg hc] at hm
        rw [List.mem_range] at hj
        have hjl : j < g.zones.length := by omega
        refine Or.inr ⟨j, g.zones[j], fun h => hc (.inl h), List.getElem?_eq_getElem hjl, ?_⟩
        rw [← hb j _ (List.getElem?_eq_getElem hjl), hm]

/-- `max_cross_border_len`: the largest number of edges two different zones share, 0 if no two zones share one. -/
theorem C118_longest_border (g : Grid F R) (hw : Wf g) (hz : g.zones ≠ []) :
    ∃ a m, Zam.make g g.edges g.zones = .ok a ∧ a.maxBorderAll = .ok m ∧
      (∀ i j zi zj : Nat, j ≠ i → g.zones[i]? = some zi → g.zones[j]? = some zj → howMany (Between g zi zj) g.edges ≤ m) ∧
      (m = 0 ∨ ∃ i j zi zj : Nat, j ≠ i ∧ g.zones[i]? = some zi ∧ g.zones[j]? = some zj ∧ m = howMany (Between g zi zj) g.edges) := by
  obtain ⟨a, ha⟩ : ∃ a, Zam.make g g.edges g.zones = .ok a := ⟨_, make_spec g g.edges g.zones hw.edgesIn⟩
  have hn : a.n = g.zones.length := by
    have := make_spec g g.edges g.zones hw.edgesIn
    rw [ha] at this
    rw [Except.ok.inj this]
  have hpos : 0 < g.zones.length := List.length_pos_iff.2 hz
  refine ⟨a, _, ha, by unfold Zam.maxBorderAll; rw [if_neg (by omega)], ?_, ?_⟩
  · intro i j zi zj hji hi hj
    obtain ⟨a', e, h, -⟩ := C118_zone_border g hw i zi hi
    obtain rfl := Except.ok.inj (ha.symm.trans e)
    refine (h j zj hji hj).trans ((foldl_max_ge _ 0).2 _ (List.mem_map.2 ⟨i, ?_, rfl⟩))
    rw [List.mem_range, hn]
    exact (List.getElem?_eq_some_iff.1 hi).1
  · rcases foldl_max_mem ((List.range a.n).map a.maxBorder) 0 with h | h
    · exact Or.inl h
    · obtain ⟨i, hi, hm⟩ := List.mem_map.1 h
      rw [List.mem_range, hn] at hi
      obtain ⟨a', e, -, h'⟩ := C118_zone_border g hw i g.zones[i] (List.getElem?_eq_getElem hi)
      obtain rfl := Except.ok.inj (ha.symm.trans e)
      rcases h' with h' | ⟨j, zj, h1, h2, h3⟩
      · left; rw [← hm, h']
      · exact Or.inr ⟨i, j, _, zj, h1, List.getElem?_eq_getElem hi, h2, by rw [← hm, h3]⟩

/-- Without zones there is no longest border: `max` of an empty list. -/
theorem C118_no_zones (g : Grid F R) (es : List Nat) (a : Zam) (h : Zam.make g es [] = .ok a) : a.maxBorderAll = .error .value := by
  have hn : ∀ (es : List Nat) (b a : Zam), es.foldlM (Zam.addEdge g []) b = .ok a → a.n = b.n := by
    intro es
    induction es with
    | nil => intro b a h; rw [Except.ok.inj h]
    | cons e es ih =>
      intro b a h
      rw [List.foldlM_cons] at h
      cases hb : Zam.addEdge g [] b e with
      | error x => rw [hb] at h; cases h
      | ok b' =>
        rw [hb] at h
        rw [ih b' a h]
        unfold Zam.addEdge at hb
        have hi : ∀ f x, Zam.zoneIndex g [] f ≠ .ok x := by
          intro f x
          unfold Zam.zoneIndex
          split
          · simp
          · simp [Py.index]
        split at hb
        · rename_i f0 _
          cases h0 : Zam.zoneIndex g [] f0 with
          | error x => rw [h0] at hb; cases hb
          | ok x => exact absurd h0 (hi _ _)
        · rename_i f0 f1 _
          cases h0 : Zam.zoneIndex g [] f0 with
          | error x => rw [h0] at hb; cases hb
          | ok x => exact absurd h0 (hi _ _)
        · cases hb
  unfold Zam.maxBorderAll
  rw [if_pos (show a.n = 0 from hn es _ a h)]

/-- Two zones of one face each, sharing one edge. -/
example : Wf Sample.grid ∧ Sample.grid.zones ≠ [] ∧
    (Zam.make Sample.grid Sample.grid.edges Sample.grid.zones).toOption.map Zam.maxBorderAll = some (.ok 1) :=
  ⟨Sample.wf, by rw [Sample.zones]; simp, by decide +kernel⟩

end Verif.Props
