import Verif.Proofs.HierNames
import Verif.Props.Decomp

/-! Property C125: names of the zones made by `decompose_hierarchical`. -/

namespace Verif.Props
open Verif Grid
variable {F R : Type}

/-- Whenever `decompose_hierarchical` returns, the name of each zone that is not one of the kept zones is `h` followed
by at most `levels - 1` letters, each `l` or `r`; for two different such zones neither name is the beginning of the
other. -/
theorem C125_names {S : Type} [LinearOrder S] (g g' : Grid F R) (hw : Wf g) (fns : List (Nat → S)) (levels : Nat)
    (nm : Option Str) (names : List Str) (hr : g.decomposeHierarchical fns levels nm names = .ok g') :
    (∀ z ∈ g'.zones, ¬ (z ∈ g.zones ∧ g.zName z ∈ names) →
      ∃ w : Str, g'.zName z = 'h' :: w ∧ w.length ≤ levels - 1 ∧ ∀ ch ∈ w, ch = 'l' ∨ ch = 'r') ∧
    ∀ z ∈ g'.zones, ¬ (z ∈ g.zones ∧ g.zName z ∈ names) → ∀ z' ∈ g'.zones, ¬ (z' ∈ g.zones ∧ g.zName z' ∈ names) →
      z ≠ z' → ¬ g'.zName z <+: g'.zName z' := by
  obtain ⟨h1, h2⟩ := hier_names g g' hw fns levels nm names hr
  refine ⟨fun z hz hk => ?_, fun z hz hk z' hz' hk' => h1.apart z hz (mt mem_kept.1 hk) z' hz' (mt mem_kept.1 hk')⟩
  obtain ⟨w, k1, k2⟩ := h1.path z hz (mt mem_kept.1 hk)
  refine ⟨w, k1, ?_, k2⟩
  have := h2 z hz (mt mem_kept.1 hk)
  rw [k1, List.length_cons] at this
  omega

/-- If the fixed zones have different names and none of them has a name of that form, all zones of the result have
different names. (Missing: fixed zones with such a name, see `C125_same_name_violation`.) -/
theorem C125_different_partial {S : Type} [LinearOrder S] (g g' : Grid F R) (hw : Wf g) (fns : List (Nat → S)) (levels : Nat)
    (nm : Option Str) (names : List Str) (hr : g.decomposeHierarchical fns levels nm names = .ok g')
    (hn : ((g.zones.filter (fun z => g.zName z ∈ names)).map g.zName).Nodup)
    (hh : ∀ z ∈ g.zones, g.zName z ∈ names → ∀ w : Str, (∀ ch ∈ w, ch = 'l' ∨ ch = 'r') → g.zName z ≠ 'h' :: w) :
    (g'.zones.map g'.zName).Nodup := by
  obtain ⟨h1, h2, -⟩ := C13_hierarchical g g' hw fns levels nm names hr
  obtain ⟨h3, h4⟩ := C125_names g g' hw fns levels nm names hr
  refine List.Nodup.map_on ?_ h1.zones.zones_nodup
  intro z hz z' hz' he
  by_contra hne
  by_cases a : z ∈ g.zones ∧ g.zName z ∈ names <;> by_cases b : z' ∈ g.zones ∧ g.zName z' ∈ names
  · rw [(h2 z a.1 a.2).2.2, (h2 z' b.1 b.2).2.2] at he
    exact hne (List.inj_on_of_nodup_map hn (List.mem_filter.2 ⟨a.1, by simpa using a.2⟩) (List.mem_filter.2 ⟨b.1, by simpa using b.2⟩) he)
  · obtain ⟨w, k1, -, k2⟩ := h3 z' hz' b
    rw [(h2 z a.1 a.2).2.2, k1] at he
    exact hh z a.1 a.2 w k2 he
  · obtain ⟨w, k1, -, k2⟩ := h3 z hz a
    rw [(h2 z' b.1 b.2).2.2, k1] at he
    exact hh z' b.1 b.2 w k2 he.symm
  · exact h4 z hz a z' hz' b hne (he ▸ List.prefix_rfl)

/-- The sample is decomposed with three levels by the numbers of its faces, zone `a` is fixed. -/
example : (∃ g', Sample.grid.decomposeHierarchical [fun f => f] 3 none ["a".toList] = .ok g') ∧
    ((Sample.grid.zones.filter (fun z => Sample.grid.zName z ∈ ["a".toList])).map Sample.grid.zName).Nodup ∧
    ∀ z ∈ Sample.grid.zones, Sample.grid.zName z ∈ ["a".toList] → ∀ w : Str, (∀ ch ∈ w, ch = 'l' ∨ ch = 'r') →
      Sample.grid.zName z ≠ 'h' :: w := by
  refine ⟨C14_returns_partial Sample.grid Sample.wf [fun f => f] 3 none ["a".toList] (by omega) _ rfl (fun _ _ _ _ h => h),
    by decide +kernel, fun z _ hn w _ he => ?_⟩
  rw [he] at hn
  simp at hn

/-- The sample with its zones called `h` and `b`. -/
def hNamed : List (ZoneBlock Int) :=
  Sample.blocks.map (fun b => if b.name = "a".toList then { b with name := "h".toList } else b)

/-- Zone `h` of the file is fixed. In the result there are two zones `h`, with different faces. -/
theorem C125_same_name_violation : ∃ g g' : Grid Int (Int × Int × Int),
    loadBlocks Sample.rc true Grid.empty hNamed = .ok g ∧ NonDegenerate Sample.rc true hNamed ∧
    g.zones.map g.zName = ["h".toList, "b".toList] ∧
    g.decomposeHierarchical [fun f => (f : Int)] 1 none ["h".toList] = .ok g' ∧
    g'.zones.map (fun z => (g'.zName z, g'.zFaces z)) = [("h".toList, [0, 1]), ("h".toList, [2])] := by
  have h : ((loadBlocks Sample.rc true Grid.empty hNamed).toOption.bind fun g =>
      (g.decomposeHierarchical [fun f => (f : Int)] 1 none ["h".toList]).toOption.map fun g' =>
        (g.zones.map g.zName, g'.zones.map (fun z => (g'.zName z, g'.zFaces z)))) =
      some (["h".toList, "b".toList], [("h".toList, [0, 1]), ("h".toList, [2])]) := by decide +kernel
  have hd : NonDegenerate Sample.rc true hNamed := by decide +kernel
  cases h1 : loadBlocks Sample.rc true Grid.empty hNamed with
  | error e => rw [h1] at h; cases h
  | ok g =>
    rw [h1] at h
    cases h2 : g.decomposeHierarchical [fun f => (f : Int)] 1 none ["h".toList] with
    | error e => simp only [Except.toOption, h2, Option.bind_some, Option.map_none] at h; cases h
    | ok g' =>
      simp only [Except.toOption, h2, Option.bind_some, Option.map_some, Option.some.injEq, Prod.mk.injEq] at h
      exact ⟨g, g', rfl, hd, h.1, h2, h.2⟩

end Verif.Props
