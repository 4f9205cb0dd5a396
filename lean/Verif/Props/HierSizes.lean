import Verif.Proofs.HierSizes
import Verif.Props.BestCut
import Verif.Props.Decomp

/-! Property C133: sizes of the zones made by `decompose_hierarchical`. -/

namespace Verif.Props
open Verif Grid
variable {F R : Type}

/-- One split of a zone with `n` faces never puts more than `n / 2` faces into the first half. -/
theorem C133_first_half {S : Type} [LinearOrder S] (g g' : Grid F R) (hw : Wf g) (zone : Nat) (hz : zone ∈ g.zones)
    (hf : g.zFixed zone = false) (hl : 2 ≤ (g.zFaces zone).length) (fns : List (Nat → S))
    (hr : g.splitZone zone fns = .ok g') :
    ∃ l r, g'.zones = g.zones.erase zone ++ [l, r] ∧ 1 ≤ (g'.zFaces l).length ∧
      (g'.zFaces l).length ≤ (g.zFaces zone).length / 2 ∧
      (g'.zFaces l).length + (g'.zFaces r).length = (g.zFaces zone).length := by
  obtain ⟨l, r, h1, -, -, -, -, -, h2, -, ⟨fn, -, b, hb, e1, e2⟩, -⟩ := C13_split g g' hw zone hz hf hl fns hr
  refine ⟨l, r, h1, List.length_pos_of_ne_nil h2, by rw [e1]; exact below_le hb, ?_⟩
  have := List.length_eq_length_filter_add (l := g.zFaces zone) (fun f => decide (fn f < b))
  rw [e1, e2, this]
  congr 2
  apply List.filter_congr
  intro f _
  by_cases h : fn f < b <;> simp [h]

/-- If every sign function takes different values on different faces, then after `decompose_hierarchical` each zone
that is not one of the kept zones has `n / 2 ^ (levels - 1)` faces, rounded down or up, where `n` is the number of
faces outside the kept zones. (Missing: sign functions with equal values, see `C133_uneven_violation`.) -/
theorem C133_balance_partial {S : Type} [LinearOrder S] (g g' : Grid F R) (hw : Wf g) (fns : List (Nat → S))
    (hinj : ∀ fn ∈ fns, ∀ a ∈ g.faces, ∀ c ∈ g.faces, fn a = fn c → a = c) (levels : Nat) (nm : Option Str)
    (names : List Str) (hr : g.decomposeHierarchical fns levels nm names = .ok g') :
    ∀ z ∈ g'.zones, ¬ (z ∈ g.zones ∧ g.zName z ∈ names) →
      (freeFaces g names).length / 2 ^ (levels - 1) ≤ (g'.zFaces z).length ∧
      (g'.zFaces z).length ≤ ((freeFaces g names).length + 2 ^ (levels - 1) - 1) / 2 ^ (levels - 1) := by
  intro z hz hk
  obtain ⟨h1, h2⟩ := (hier_sizes g g' hw fns hinj levels nm names hr).1 z hz (mt mem_kept.1 hk)
  have hp : 0 < 2 ^ (levels - 1) := by positivity
  refine ⟨Nat.lt_succ_iff.1 ((Nat.div_lt_iff_lt_mul hp).2 h1), (Nat.le_div_iff_mul_le hp).2 ?_⟩
  omega

/-- So the sizes of two such zones differ by at most one. (Missing: as above.) -/
theorem C133_differ_partial {S : Type} [LinearOrder S] (g g' : Grid F R) (hw : Wf g) (fns : List (Nat → S))
    (hinj : ∀ fn ∈ fns, ∀ a ∈ g.faces, ∀ c ∈ g.faces, fn a = fn c → a = c) (levels : Nat) (nm : Option Str)
    (names : List Str) (hr : g.decomposeHierarchical fns levels nm names = .ok g') :
    ∀ z ∈ g'.zones, ¬ (z ∈ g.zones ∧ g.zName z ∈ names) → ∀ w ∈ g'.zones, ¬ (w ∈ g.zones ∧ g.zName w ∈ names) →
      (g'.zFaces z).length ≤ (g'.zFaces w).length + 1 := by
  intro z hz hk w hw' hk'
  obtain ⟨-, h1⟩ := C133_balance_partial g g' hw fns hinj levels nm names hr z hz hk
  obtain ⟨h2, -⟩ := C133_balance_partial g g' hw fns hinj levels nm names hr w hw' hk'
  have hp : 0 < 2 ^ (levels - 1) := by positivity
  have : ((freeFaces g names).length + 2 ^ (levels - 1) - 1) / 2 ^ (levels - 1) ≤
      ((freeFaces g names).length + 2 ^ (levels - 1)) / 2 ^ (levels - 1) := Nat.div_le_div_right (by omega)
  rw [Nat.add_div_right _ hp] at this
  omega

/-- And if there are at least `2 ^ (levels - 1)` faces outside the kept zones, exactly that many zones are made.
(Missing: as above.) -/
theorem C133_count_partial {S : Type} [LinearOrder S] (g g' : Grid F R) (hw : Wf g) (fns : List (Nat → S))
    (hinj : ∀ fn ∈ fns, ∀ a ∈ g.faces, ∀ c ∈ g.faces, fn a = fn c → a = c) (levels : Nat) (nm : Option Str)
    (names : List Str) (hr : g.decomposeHierarchical fns levels nm names = .ok g')
    (hn : 2 ^ (levels - 1) ≤ (freeFaces g names).length) :
    (g'.zones.filter (fun z => z ∉ g.zones.filter (fun z => g.zName z ∈ names))).length = 2 ^ (levels - 1) :=
  (hier_sizes g g' hw fns hinj levels nm names hr).2 hn

/-- The strip of four triangles is decomposed with three levels by the numbers of its faces. -/
example : Wf climb ∧ (∀ fn ∈ [fun f : Nat => f], ∀ a ∈ climb.faces, ∀ c ∈ climb.faces, fn a = fn c → a = c) ∧
    (∃ g', climb.decomposeHierarchical [fun f : Nat => f] 3 none [] = .ok g') ∧
    2 ^ (3 - 1) ≤ (freeFaces climb []).length :=
  ⟨climb_wf, by simp, C14_returns_partial climb climb_wf [fun f => f] 3 none [] (by omega) _ rfl (fun _ _ _ _ h => h),
    by decide +kernel⟩

/-! Three triangles in a row with the same `x` and `z` of their centres and a fourth one beside the second. -/

def sideFile : List (ZoneBlock ℚ) :=
  [ { name := "a".toList
      pts := [⟨0, 0, 0⟩, ⟨1, 0, 3⟩, ⟨2, 1, 0⟩, ⟨0, 3, 0⟩, ⟨1, 5, 3⟩, ⟨-2, -1, -3⟩]
      faces := [([], [1, 2, 3]), ([], [2, 3, 4]), ([], [3, 4, 5]), ([], [2, 4, 6])] } ]

@[irreducible] def sideGrid : Grid ℚ (ℚ × ℚ × ℚ) :=
  match Grid.loadBlocks Sample.rcq true Grid.empty sideFile with
  | .ok g => g
  | .error _ => Grid.empty

theorem side_wf : Wf sideGrid := by
  have hload : loadBlocks Sample.rcq true Grid.empty sideFile = .ok sideGrid := by
    have h : (loadBlocks Sample.rcq true Grid.empty sideFile).isOk = true := by decide +kernel
    unfold sideGrid
    split
    · assumption
    · rename_i e he; rw [he] at h; cases h
  have hv : ∀ b ∈ sideFile, b.Valid := by unfold ZoneBlock.Valid; decide +kernel
  have hd : NonDegenerate Sample.rcq true sideFile := by unfold NonDegenerate; decide +kernel
  rcases load_spec Sample.rcq true Grid.empty sideFile hv hd (by intro h; cases h) with ⟨_, h⟩ | ⟨_, g, h2, h3⟩
  · rw [hload] at h; cases h
  · rw [hload] at h2
    obtain rfl := Except.ok.inj h2
    exact ⟨h3.mesh, h3.zones, h3.alloc⟩

theorem median_unique {l : List ℚ} {a b : ℚ} (ha : IsMedian l a) (hb : IsMedian l b) : a = b := by
  obtain ⟨s, p1, p2, p3⟩ := ha
  obtain ⟨t, q1, q2, q3⟩ := hb
  have : s = t := List.Perm.eq_of_pairwise (fun _ _ _ _ h1 h2 => le_antisymm h1 h2) p2 q2 (p1.trans q1.symm)
  subst this
  rw [p3] at q3
  exact Option.some.inj q3

/-- The default functions split these four faces into one and three, though the cut across `y` makes two and two. -/
theorem C133_uneven_violation : ∃ g', sideGrid.splitZone 0 sideGrid.centerSigns = .ok g' ∧
    (sideGrid.zFaces 0).length = 4 ∧ (∃ b, IsMedian ((sideGrid.zFaces 0).map (centreAlong sideGrid Vec.y)) b ∧
      ((sideGrid.zFaces 0).filter (fun f => centreAlong sideGrid Vec.y f < b)).length = 2) ∧
    ∃ l r, g'.zones = [l, r] ∧ (g'.zFaces l).length = 1 ∧ (g'.zFaces r).length = 3 := by
  have hz : 0 ∈ sideGrid.zones := by decide +kernel
  have hf : sideGrid.zFixed 0 = false := by decide +kernel
  have hfs : sideGrid.zFaces 0 = [0, 1, 2, 3] := by decide +kernel
  have hl : 2 ≤ (sideGrid.zFaces 0).length := by rw [hfs]; decide
  have hnd : (sideGrid.zFaces 0).Nodup := by rw [hfs]; decide
  have mx : IsMedian ((sideGrid.zFaces 0).map (centreAlong sideGrid Vec.x)) 1 :=
    ⟨[-1 / 3, 1, 1, 1], by decide +kernel, by decide +kernel, by decide +kernel⟩
  have my : IsMedian ((sideGrid.zFaces 0).map (centreAlong sideGrid Vec.y)) (4 / 3) :=
    ⟨[1 / 3, 2 / 3, 4 / 3, 3], by decide +kernel, by decide +kernel, by decide +kernel⟩
  have mz : IsMedian ((sideGrid.zFaces 0).map (centreAlong sideGrid Vec.z)) 1 :=
    ⟨[0, 1, 1, 1], by decide +kernel, by decide +kernel, by decide +kernel⟩
  have hsz : sideGrid.zones.erase 0 = [] := by decide +kernel
  rcases splitZone_main sideGrid 0 sideGrid.centerSigns hz side_wf.zones.zones_nodup side_wf.alloc hnd
    (side_wf.zones.points 0 hz) hf hl with ⟨h, _⟩ | ⟨_, _, _, g', h1, _⟩
  · refine absurd (?_ : Splits (sideGrid.zFaces 0) (fun f => (sideGrid.getCenter f).z)) (h _ rfl)
    exact ⟨1, ⟨[0, 1, 1, 1], by decide +kernel, by decide +kernel, by decide +kernel⟩, 3, by rw [hfs]; simp, by decide +kernel⟩
  · refine ⟨g', h1, by rw [hfs]; rfl, ⟨_, my, by decide +kernel⟩, ?_⟩
    obtain ⟨l, r, a, b, e1, ha, hb, e2, e3, hmin⟩ := C131_axes sideGrid g' side_wf 0 hz hf hl h1
    rw [hsz] at e1
    refine ⟨l, r, e1, ?_⟩
    have hx := hmin Vec.x (by simp) 1 mx ⟨3, by rw [hfs]; simp, by decide +kernel⟩
    simp only [List.mem_cons, List.not_mem_nil, or_false] at ha
    rcases ha with rfl | rfl | rfl
    · obtain rfl := median_unique hb mx
      rw [e2, e3]; exact ⟨by decide +kernel, by decide +kernel⟩
    · obtain rfl := median_unique hb my
      rw [e2, e3] at hx
      exact absurd hx (by decide +kernel)
    · obtain rfl := median_unique hb mz
      rw [e2, e3]; exact ⟨by decide +kernel, by decide +kernel⟩

end Verif.Props
