import Verif.Proofs.Hier
import Mathlib.Tactic.Ring
import Mathlib.Tactic.Linarith
import Mathlib.Tactic.IntervalCases
import Mathlib.Tactic.Positivity

/-! Sizes of the zones made by `decompose_hierarchical`. -/

namespace Verif
open Grid
variable {F R S : Type} [LinearOrder S]

/-- Not more than half of the faces are strictly below the median. -/
theorem below_le {fs : List Nat} {fn : Nat → S} {b : S} (hb : IsMedian (fs.map fn) b) :
    (fs.filter (fun f => decide (fn f < b))).length ≤ fs.length / 2 := by
  obtain ⟨s, k1, k2, k3⟩ := hb
  rw [List.length_map] at k3
  have e1 : (fs.filter (fun f => decide (fn f < b))).length = s.countP (fun x => decide (x < b)) := by
    rw [k1.countP_eq, List.countP_map, List.countP_eq_length_filter]; rfl
  obtain ⟨hlt, hget⟩ := List.getElem?_eq_some_iff.1 k3
  rw [e1, ← List.take_append_drop (fs.length / 2) s, List.countP_append]
  have h0 : (s.drop (fs.length / 2)).countP (fun x => decide (x < b)) = 0 := by
    rw [List.countP_eq_zero]
    intro x hx
    obtain ⟨i, hi, rfl⟩ := List.mem_iff_getElem.1 hx
    rw [List.getElem_drop]
    simp only [decide_eq_true_eq, not_lt, ← hget]
    rcases Nat.eq_zero_or_pos i with rfl | hi0
    · simp
    · exact List.pairwise_iff_getElem.1 k2 _ _ hlt (by rw [List.length_drop] at hi; omega) (by omega)
  rw [h0, Nat.add_zero]
  exact List.countP_le_length.trans (List.length_take_le _ _)

/-- Exactly half of them if the function takes different values on different faces. -/
theorem below_eq {fs : List Nat} {fn : Nat → S} {b : S} (hb : IsMedian (fs.map fn) b) (hnd : fs.Nodup)
    (hinj : ∀ a ∈ fs, ∀ c ∈ fs, fn a = fn c → a = c) :
    (fs.filter (fun f => decide (fn f < b))).length = fs.length / 2 := by
  refine le_antisymm (below_le hb) ?_
  obtain ⟨s, k1, k2, k3⟩ := hb
  rw [List.length_map] at k3
  have hsn : s.Nodup := by
    rw [k1.nodup_iff]
    exact hnd.map_on (fun a ha b hb e => hinj a ha b hb e)
  have e1 : (fs.filter (fun f => decide (fn f < b))).length = s.countP (fun x => decide (x < b)) := by
    rw [k1.countP_eq, List.countP_map, List.countP_eq_length_filter]; rfl
  obtain ⟨hlt, hget⟩ := List.getElem?_eq_some_iff.1 k3
  rw [e1, ← List.take_append_drop (fs.length / 2) s, List.countP_append]
  have h0 : (s.take (fs.length / 2)).countP (fun x => decide (x < b)) = (s.take (fs.length / 2)).length := by
    rw [List.countP_eq_length]
    intro x hx
    obtain ⟨i, hi, rfl⟩ := List.mem_iff_getElem.1 hx
    rw [List.length_take] at hi
    rw [List.getElem_take]
    simp only [decide_eq_true_eq, ← hget]
    refine lt_of_le_of_ne (List.pairwise_iff_getElem.1 k2 _ _ (by omega) hlt (by omega)) (fun e => ?_)
    have := (List.Nodup.getElem_inj_iff hsn).1 e
    omega
  rw [h0, List.length_take]
  omega

theorem above_length (fs : List Nat) (fn : Nat → S) (b : S) :
    (fs.filter (fun f => decide (b ≤ fn f))).length = fs.length - (fs.filter (fun f => decide (fn f < b))).length := by
  have h := List.length_eq_length_filter_add (l := fs) (fun f => decide (fn f < b))
  have : fs.filter (fun f => decide (b ≤ fn f)) = fs.filter (fun f => !decide (fn f < b)) := by
    apply List.filter_congr; intro f _
    rcases lt_or_ge (fn f) b with h | h
    · rw [decide_eq_true h, decide_eq_false (not_le.2 h)]; rfl
    · rw [decide_eq_false (not_lt.2 h), decide_eq_true h]; rfl
  rw [this]
  omega

theorem splitZone_sizes {g : Grid F R} (hm : Mesh g) {keep : List Nat} {s s' : Grid F R} (h : HInv g keep s) (z : Nat)
    (fns : List (Nat → S)) (hinj : ∀ fn ∈ fns, ∀ a ∈ g.faces, ∀ c ∈ g.faces, fn a = fn c → a = c) (hz : z ∈ s.zones)
    (hr : s.splitZone z fns = .ok s') :
    ∃ P, s'.zones = s.zones.erase z ++ P ∧ (∀ w ∈ s.zones.erase z, s'.zFaces w = s.zFaces w) ∧
      (∀ w ∈ P, w ∉ keep → z ∉ keep ∧ ((s'.zFaces w).length = (s.zFaces z).length ∧ (s.zFaces z).length < 2 ∨
        (s'.zFaces w).length = (s.zFaces z).length / 2 ∨ (s'.zFaces w).length = (s.zFaces z).length - (s.zFaces z).length / 2)) ∧
      freeZones keep P = (if z ∈ keep then 0 else if (s.zFaces z).length < 2 then 1 else 2) := by
  by_cases hx : s.zFixed z = true ∨ (s.zFaces z).length < 2
  · rw [splitZone_skip s z fns hz hx] at hr
    cases hr
    refine ⟨[z], rfl, fun w _ => rfl, fun w hw hk => ?_, ?_⟩
    · rw [List.mem_singleton] at hw
      subst hw
      refine ⟨hk, .inl ⟨rfl, ?_⟩⟩
      rcases hx with hx | hx
      · rw [h.free w hz hk] at hx; cases hx
      · exact hx
    · rw [freeZones_cons]
      by_cases hk : z ∈ keep
      · simp [hk, freeZones]
      · have : (s.zFaces z).length < 2 := by
          rcases hx with hx | hx
          · rw [h.free z hz hk] at hx; cases hx
          · exact hx
        simp [hk, this, freeZones]
  · have hfx : s.zFixed z = false := by
      cases hh : s.zFixed z with
      | true => exact absurd (Or.inl hh) hx
      | false => rfl
    have hlen : 2 ≤ (s.zFaces z).length := by
      rcases Nat.lt_or_ge (s.zFaces z).length 2 with hh | hh
      · exact absurd (Or.inr hh) hx
      · exact hh
    have hzk : z ∉ keep := fun hc => by
      have := (h.keep_mem z hc).2.1
      rw [hfx] at this; cases this
    have hnd := h.zone_nodup hm hz
    rcases splitZone_main s z fns hz h.nodup h.alloc hnd (h.points z hz) hfx hlen with ⟨_, he⟩ | ⟨_, _, _, s'', he, hs⟩
    · rw [he] at hr; cases hr
    rw [he] at hr
    cases hr
    obtain ⟨fn, hfn, b, hb, e1, e2, -, -⟩ := hs.split
    have hsub : ∀ f ∈ s.zFaces z, f ∈ g.faces := fun f hf =>
      h.partition.mem_iff.1 (List.mem_flatMap.2 ⟨z, hz, hf⟩)
    have hl := below_eq hb hnd (fun a ha c hc => hinj fn hfn a (hsub a ha) c (hsub c hc))
    have hr := above_length (s.zFaces z) fn b
    have hnk : ∀ w, s.zNext ≤ w → w ∉ keep := fun w hw hc => by
      have := h.keep_lt w hc
      have := h.next
      omega
    refine ⟨[s.zNext, s.zNext + 1], hs.zones, fun w hw => ?_, fun w hw _ => ⟨hzk, .inr ?_⟩, ?_⟩
    · exact (hs.others w (List.mem_of_mem_erase hw) ((List.Nodup.mem_erase_iff h.nodup).1 hw).1).1
    · simp only [List.mem_cons, List.not_mem_nil, or_false] at hw
      rcases hw with rfl | rfl
      · left; rw [e1]; exact hl
      · right; rw [e2, hr, hl]
    · rw [if_neg hzk, if_neg (by omega), freeZones_cons, freeZones_cons, if_neg (hnk _ le_rfl), if_neg (hnk _ (by omega))]
      rfl

/-- `x` is the integer part of `n / m` or the next integer if `n / m` is no integer. -/
def EvenShare (n m x : Nat) : Prop := n < (x + 1) * m ∧ x * m < n + m

theorem EvenShare.small {n m x : Nat} (h : EvenShare n m x) (hx : x < 2) : EvenShare n (2 * m) x := by
  obtain ⟨h1, h2⟩ := h
  have hm : 0 < m := by
    rcases Nat.eq_zero_or_pos m with rfl | hm
    · simp at h1
    · exact hm
  unfold EvenShare
  interval_cases x <;> omega

theorem EvenShare.half {n m x y : Nat} (h : EvenShare n m x) (hy : y = x / 2 ∨ y = x - x / 2) : EvenShare n (2 * m) y := by
  obtain ⟨h1, h2⟩ := h
  have a : x + 1 ≤ 2 * (y + 1) := by omega
  have b : 2 * y ≤ x + 1 := by omega
  have a' := Nat.mul_le_mul_right m a
  have b' := Nat.mul_le_mul_right m b
  unfold EvenShare
  constructor <;> nlinarith

theorem splitLevel_sizes {g : Grid F R} (hm : Mesh g) {keep : List Nat} (fns : List (Nat → S))
    (hinj : ∀ fn ∈ fns, ∀ a ∈ g.faces, ∀ c ∈ g.faces, fn a = fn c → a = c) (n m : Nat) (A : List Nat) :
    ∀ (B : List Nat) (s s' : Grid F R), HInv g keep s → s.zones = A ++ B →
      (∀ z ∈ A, z ∉ keep → EvenShare n m (s.zFaces z).length) → (∀ z ∈ B, z ∉ keep → EvenShare n (2 * m) (s.zFaces z).length) →
      Grid.splitLevel fns A.length s = .ok s' →
      (∀ z ∈ s'.zones, z ∉ keep → EvenShare n (2 * m) (s'.zFaces z).length) ∧
      (2 * m ≤ n → freeZones keep s'.zones = 2 * freeZones keep A + freeZones keep B) := by
  induction A with
  | nil =>
    intro B s s' _ hz _ hB hr
    cases hr
    refine ⟨fun z h => hB z (by rw [hz] at h; simpa using h), fun _ => ?_⟩
    rw [hz]; simp [freeZones]
  | cons z A ih =>
    intro B s s' h hz hA hB hr
    rw [List.length_cons, Grid.splitLevel, get_zero hz, res_bind_ok, res_bind_eq_ok] at hr
    obtain ⟨s1, h1, h2⟩ := hr
    have hzm : z ∈ s.zones := by rw [hz]; simp
    obtain ⟨q1, -⟩ := splitZone_inv hm h z fns hzm h1
    obtain ⟨P, q3, q4, q5, q6⟩ := splitZone_sizes hm h z fns hinj hzm h1
    rw [hz] at q3 q4
    simp only [List.cons_append, List.erase_cons_head] at q3 q4
    obtain ⟨j1, j2⟩ := ih (B ++ P) s1 s' q1 (by rw [q3, List.append_assoc]) (by
      intro w hw hk
      rw [q4 w (List.mem_append_left _ hw)]
      exact hA w (List.mem_cons_of_mem _ hw) hk) (by
      intro w hw hk
      rcases List.mem_append.1 hw with hw | hw
      · rw [q4 w (List.mem_append_right _ hw)]
        exact hB w hw hk
      · obtain ⟨a1, a2⟩ := q5 w hw hk
        have ha := hA z (by simp) a1
        rcases a2 with ⟨a2, a3⟩ | a2
        · rw [a2]; exact ha.small a3
        · exact ha.half a2) h2
    refine ⟨j1, fun hn => ?_⟩
    rw [j2 hn, freeZones_append, freeZones_cons, q6]
    by_cases hk : z ∈ keep
    · rw [if_pos hk, if_pos hk]; omega
    · have ha := (hA z (by simp) hk).1
      have : ¬ (s.zFaces z).length < 2 := by
        intro hlt
        have : ((s.zFaces z).length + 1) * m ≤ 2 * m := Nat.mul_le_mul_right m (by omega)
        omega
      rw [if_neg hk, if_neg hk, if_neg this]
      omega

theorem splitLevels_sizes {g : Grid F R} (hm : Mesh g) {keep : List Nat} (fns : List (Nat → S))
    (hinj : ∀ fn ∈ fns, ∀ a ∈ g.faces, ∀ c ∈ g.faces, fn a = fn c → a = c) (n : Nat) (k : Nat) :
    ∀ (m : Nat) (s s' : Grid F R), HInv g keep s → (∀ z ∈ s.zones, z ∉ keep → EvenShare n m (s.zFaces z).length) →
      Grid.splitLevels fns k s = .ok s' →
      (∀ z ∈ s'.zones, z ∉ keep → EvenShare n (2 ^ k * m) (s'.zFaces z).length) ∧
      (2 ^ k * m ≤ n → freeZones keep s'.zones = 2 ^ k * freeZones keep s.zones) := by
  induction k with
  | zero =>
    intro m s s' _ hd hr
    cases hr
    simpa using hd
  | succ k ih =>
    intro m s s' h hd hr
    rw [Grid.splitLevels, res_bind_eq_ok] at hr
    obtain ⟨s1, h1, h2⟩ := hr
    obtain ⟨k1, -⟩ := splitLevel_inv hm fns s.zones [] s s1 h (by simp) h1
    obtain ⟨k2, k3⟩ := splitLevel_sizes hm fns hinj n m s.zones [] s s1 h (by simp) hd (by simp) h1
    obtain ⟨j1, j2⟩ := ih (2 * m) s1 s' k1 k2 h2
    rw [show 2 ^ (k + 1) * m = 2 ^ k * (2 * m) by ring]
    refine ⟨j1, fun hn => ?_⟩
    rw [j2 hn, k3 (le_trans (Nat.le_mul_of_pos_left _ (by positivity)) hn)]
    simp only [freeZones, List.filter_nil, List.length_nil, Nat.add_zero]
    ring

theorem hier_sizes (g g' : Grid F R) (hw : Wf g) (fns : List (Nat → S))
    (hinj : ∀ fn ∈ fns, ∀ a ∈ g.faces, ∀ c ∈ g.faces, fn a = fn c → a = c) (levels : Nat) (nm : Option Str)
    (names : List Str) (hr : g.decomposeHierarchical fns levels nm names = .ok g') :
    (∀ z ∈ g'.zones, z ∉ keptZones g names → EvenShare (freeFaces g names).length (2 ^ (levels - 1)) (g'.zFaces z).length) ∧
    (2 ^ (levels - 1) ≤ (freeFaces g names).length → freeZones (keptZones g names) g'.zones = 2 ^ (levels - 1)) := by
  obtain ⟨s, h1, h2, h3, h4, h6, h5⟩ := hier_init g hw fns nm names
  rw [h5] at hr
  by_cases hl : levels < 1
  · rw [if_pos hl] at hr; cases hr
  rw [if_neg hl, res_bind_eq_ok] at hr
  obtain ⟨s', k1, k2⟩ := hr
  obtain ⟨j1, -⟩ := splitLevels_inv hw.mesh fns (levels - 1) s s' h1 k1
  obtain ⟨n1, n2⟩ := splitLevels_sizes hw.mesh fns hinj (freeFaces g names).length (levels - 1) 1 s s' h1 (by
    intro z hz hk
    rw [h2] at hz
    rcases List.mem_append.1 hz with h | h
    · exact absurd h hk
    · rw [List.mem_singleton.1 h, h4]; unfold EvenShare; omega) k1
  obtain ⟨g2, m1, m2, m3, m4, m5, m6⟩ := j1.decompOk hw.mesh
  rw [m1] at k2
  cases k2
  rw [Nat.mul_one] at n1 n2
  have hkn : g.zNext ∉ keptZones g names := fun hc => by
    have := h1.keep_lt _ hc; omega
  have hone : freeZones (keptZones g names) s.zones = 1 := by
    rw [h2, freeZones_append, freeZones_cons, if_neg hkn]
    have : freeZones (keptZones g names) (keptZones g names) = 0 := by
      unfold freeZones
      rw [List.length_eq_zero_iff, List.filter_eq_nil_iff]
      intro z hz; simp [hz]
    rw [this]; simp [freeZones]
  rw [hone, Nat.mul_one] at n2
  rw [m3, m4]
  exact ⟨n1, n2⟩

end Verif
