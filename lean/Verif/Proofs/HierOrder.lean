import Verif.Proofs.BestCut

/-! Only the order of the values of the sign functions matters for `decompose_hierarchical`. -/

namespace Verif
open Grid
variable {F R S T : Type} [LinearOrder S] [LinearOrder T]

/-- The two functions put the faces into the same order. -/
def SameOrder (fs : List Nat) (fn : Nat → S) (fn' : Nat → T) : Prop := ∀ a ∈ fs, ∀ b ∈ fs, (fn a ≤ fn b ↔ fn' a ≤ fn' b)

theorem SameOrder.lt {fs : List Nat} {fn : Nat → S} {fn' : Nat → T} (h : SameOrder fs fn fn') {a b : Nat} (ha : a ∈ fs)
    (hb : b ∈ fs) : fn a < fn b ↔ fn' a < fn' b := by
  rw [← not_le, ← not_le, h b hb a ha]

theorem medians {fs : List Nat} {fn : Nat → S} {fn' : Nat → T} (h : SameOrder fs fn fn') (hne : fs ≠ []) :
    ∃ f0 ∈ fs, Grid.median (fs.map fn) = .ok (fn f0) ∧ Grid.median (fs.map fn') = .ok (fn' f0) := by
  have hlen : (fs.mergeSort (fun a b => decide (fn a ≤ fn b))).length = fs.length := (List.mergeSort_perm _ _).length_eq
  have hlt : fs.length / 2 < (fs.mergeSort (fun a b => decide (fn a ≤ fn b))).length := by
    have : 0 < fs.length := List.length_pos_of_ne_nil hne
    rw [hlen]
    omega
  refine ⟨_, (List.mergeSort_perm _ _).mem_iff.1 (List.getElem_mem hlt), ?_, ?_⟩
  · unfold Grid.median
    rw [← List.map_mergeSort (r := fun a b => decide (fn a ≤ fn b)) (fun a _ b _ => rfl), get_ofNat, List.length_map,
      List.getElem?_map, List.getElem?_eq_getElem hlt]
    rfl
  · unfold Grid.median
    rw [← List.map_mergeSort (r := fun a b => decide (fn a ≤ fn b)) (fun a ha b hb => decide_eq_decide.2 (h a ha b hb)),
      get_ofNat, List.length_map, List.getElem?_map, List.getElem?_eq_getElem hlt]
    rfl

theorem foldl_congr_mem {α β : Type} (f f' : α → β → α) : ∀ (l : List β) (a : α), (∀ a, ∀ b ∈ l, f a b = f' a b) →
    l.foldl f a = l.foldl f' a
  | [], _, _ => rfl
  | b :: l, a, h => by
    rw [List.foldl_cons, List.foldl_cons, h a b (by simp)]
    exact foldl_congr_mem f f' l _ (fun a b hb => h a b (by simp [hb]))

theorem splitZoneMetric_order (g : Grid F R) (zone zl zr : Nat) (fn : Nat → S) (fn' : Nat → T) (hne : g.zFaces zone ≠ [])
    (h : SameOrder (g.zFaces zone) fn fn') : g.splitZoneMetric zone zl zr fn = g.splitZoneMetric zone zl zr fn' := by
  obtain ⟨f0, hf0, m1, m2⟩ := medians h hne
  unfold Grid.splitZoneMetric
  dsimp only
  rw [m1, m2, res_bind_ok, res_bind_ok]
  have e1 : (g.zFaces zone).foldl (fun m f => upd m f (some (if fn f < fn f0 then zl else zr))) g.fZone =
      (g.zFaces zone).foldl (fun m f => upd m f (some (if fn' f < fn' f0 then zl else zr))) g.fZone := by
    apply foldl_congr_mem
    intro m f hf
    congr 2
    exact if_congr (h.lt hf hf0) rfl rfl
  have e2 : (g.zFaces zone).filter (fun f => decide (fn f < fn f0)) = (g.zFaces zone).filter (fun f => decide (fn' f < fn' f0)) :=
    List.filter_congr (fun f hf => decide_eq_decide.2 (h.lt hf hf0))
  have e3 : (g.zFaces zone).filter (fun f => !decide (fn f < fn f0)) = (g.zFaces zone).filter (fun f => !decide (fn' f < fn' f0)) :=
    List.filter_congr (fun f hf => by rw [decide_eq_decide.2 (h.lt hf hf0)])
  simp only [e1, e2, e3]

theorem splitMetrics_order (zone zl zr : Nat) {fns : List (Nat → S)} {fns' : List (Nat → T)} (fs : List Nat) (hne : fs ≠ [])
    (h : List.Forall₂ (SameOrder fs) fns fns') : ∀ g : Grid F R, g.zFaces zone = fs →
    Grid.splitMetrics zone zl zr fns g = Grid.splitMetrics zone zl zr fns' g := by
  induction h with
  | nil => intro g _; rfl
  | cons h1 _ ih =>
    intro g hg
    rename_i fn fn' _ _ _
    have e := splitZoneMetric_order g zone zl zr fn fn' (by rw [hg]; exact hne) (by rw [hg]; exact h1)
    obtain ⟨fz, m, a, -⟩ := splitZoneMetric_spec g zone zl zr fn (by rw [hg]; exact hne)
    rw [a] at e
    simp only [Grid.splitMetrics]
    rw [a, ← e]
    simp only [res_bind_ok]
    rw [ih { g with fZone := fz } hg]

theorem splitZone_order {g : Grid F R} {keep : List Nat} {s : Grid F R} (h : HInv g keep s) (z : Nat)
    {fns : List (Nat → S)} {fns' : List (Nat → T)} (ho : List.Forall₂ (SameOrder g.faces) fns fns') (hz : z ∈ s.zones) :
    s.splitZone z fns = s.splitZone z fns' := by
  by_cases hx : s.zFixed z = true ∨ (s.zFaces z).length < 2
  · rw [splitZone_skip s z fns hz hx, splitZone_skip s z fns' hz hx]
  have hfx : s.zFixed z = false := by
    cases hh : s.zFixed z with
    | true => exact absurd (Or.inl hh) hx
    | false => rfl
  have hlen : 2 ≤ (s.zFaces z).length := by
    rcases Nat.lt_or_ge (s.zFaces z).length 2 with hh | hh
    · exact absurd (Or.inr hh) hx
    · exact hh
  have hsub : ∀ f ∈ s.zFaces z, f ∈ g.faces := fun f hf => h.partition.mem_iff.1 (List.mem_flatMap.2 ⟨z, hz, hf⟩)
  have ho' : List.Forall₂ (SameOrder (s.zFaces z)) fns fns' :=
    ho.imp (fun fn fn' hs a ha b hb => hs a (hsub a ha) b (hsub b hb))
  have hne : s.zFaces z ≠ [] := fun hc => by rw [hc] at hlen; simp at hlen
  have hzlt := h.alloc z hz
  have e1 : (opened s z).zFaces z = s.zFaces z := by
    show upd (upd s.zFaces s.zNext _) (s.zNext + 1) _ z = _
    rw [upd_ne _ _ (show z ≠ s.zNext + 1 by omega), upd_ne _ _ (show z ≠ s.zNext by omega)]
  obtain ⟨fz, ms, a1, -⟩ := splitMetrics_spec z s.zNext (s.zNext + 1) fns (opened s z) (by rw [e1]; exact hne)
  have a2 := (splitMetrics_order z s.zNext (s.zNext + 1) _ hne ho' (opened s z) e1).symm.trans a1
  rw [splitZone_unfold s z fns hz h.alloc hfx hlen fz ms a1, splitZone_unfold s z fns' hz h.alloc hfx hlen fz ms a2]
  have hemp : fns.isEmpty = fns'.isEmpty := by cases ho' <;> rfl
  rw [hemp]
  congr 1
  cases hb : Grid.bestMetric ms 0 with
  | none => rfl
  | some p =>
    obtain ⟨k, i⟩ := p
    simp only
    have hget : (fns[i]? = none ∧ fns'[i]? = none) ∨ ∃ fn fn', fns[i]? = some fn ∧ fns'[i]? = some fn' ∧ SameOrder (s.zFaces z) fn fn' := by
      have hl := ho'.length_eq
      rcases Nat.lt_or_ge i fns.length with hi | hi
      · exact .inr ⟨_, _, List.getElem?_eq_getElem hi, List.getElem?_eq_getElem (by omega), List.Forall₂.get ho' hi (by omega)⟩
      · exact .inl ⟨List.getElem?_eq_none hi, List.getElem?_eq_none (by omega)⟩
    rcases hget with ⟨n1, n2⟩ | ⟨fn, fn', n1, n2, hs⟩
    · rw [n1, n2]
    · obtain ⟨f0, hf0, m1, m2⟩ := medians hs hne
      rw [n1, n2]
      simp only
      rw [m1, m2, res_bind_ok, res_bind_ok]
      have e2 : (s.zFaces z).filter (fun f => decide (fn f < fn f0)) = (s.zFaces z).filter (fun f => decide (fn' f < fn' f0)) :=
        List.filter_congr (fun f hf => decide_eq_decide.2 (hs.lt hf hf0))
      have e3 : (s.zFaces z).filter (fun f => decide (fn f0 ≤ fn f)) = (s.zFaces z).filter (fun f => decide (fn' f0 ≤ fn' f)) :=
        List.filter_congr (fun f hf => decide_eq_decide.2 (hs f0 hf0 f hf))
      rw [e2, e3]

theorem splitLevel_order {g : Grid F R} (hm : Mesh g) {keep : List Nat} {fns : List (Nat → S)} {fns' : List (Nat → T)}
    (ho : List.Forall₂ (SameOrder g.faces) fns fns') (c : Nat) :
    ∀ s : Grid F R, HInv g keep s → Grid.splitLevel fns c s = Grid.splitLevel fns' c s ∧
      ∀ s', Grid.splitLevel fns c s = .ok s' → HInv g keep s' := by
  induction c with
  | zero => intro s h; exact ⟨rfl, fun s' hr => by cases hr; exact h⟩
  | succ c ih =>
    intro s h
    rw [Grid.splitLevel, Grid.splitLevel]
    cases hs : s.zones with
    | nil => exact ⟨rfl, fun s' hr => by cases hr⟩
    | cons z l =>
      have hz : z ∈ s.zones := by rw [hs]; simp
      rw [get_zero rfl, res_bind_ok, res_bind_ok, ← splitZone_order h z ho hz]
      cases h1 : s.splitZone z fns with
      | error e => exact ⟨rfl, fun s' hr => by cases hr⟩
      | ok s1 => exact ih s1 (splitZone_inv hm h z fns hz h1).1

theorem splitLevels_order {g : Grid F R} (hm : Mesh g) {keep : List Nat} {fns : List (Nat → S)} {fns' : List (Nat → T)}
    (ho : List.Forall₂ (SameOrder g.faces) fns fns') (k : Nat) :
    ∀ s : Grid F R, HInv g keep s → Grid.splitLevels fns k s = Grid.splitLevels fns' k s := by
  induction k with
  | zero => intro s _; rfl
  | succ k ih =>
    intro s h
    obtain ⟨a, b⟩ := splitLevel_order hm ho s.zones.length s h
    rw [Grid.splitLevels, Grid.splitLevels, ← a]
    cases h1 : Grid.splitLevel fns s.zones.length s with
    | error e => rfl
    | ok s1 => exact ih s1 (b s1 h1)

end Verif
