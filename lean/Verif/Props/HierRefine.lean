import Verif.Proofs.HierRefine
import Verif.Props.HierSizes
import Verif.Props.Zam

/-! Property C135: more levels of `decompose_hierarchical` refine the zones. -/

namespace Verif.Props
open Verif Grid
variable {F R : Type}

/-- If `decompose_hierarchical` returns with some number of levels, it returns with each smaller positive number of
levels too. Each zone of the finer result is a part of a zone of the coarser one, with the faces in the same order, and
its name begins with the name of that zone. -/
theorem C135_refines {S : Type} [LinearOrder S] (g g2 : Grid F R) (hw : Wf g) (fns : List (Nat → S)) (levels levels2 : Nat)
    (h1 : 1 ≤ levels) (h2 : levels ≤ levels2) (nm : Option Str) (names : List Str)
    (hr : g.decomposeHierarchical fns levels2 nm names = .ok g2) :
    ∃ g1, g.decomposeHierarchical fns levels nm names = .ok g1 ∧
      ∀ w ∈ g2.zones, ∃ z ∈ g1.zones, (g2.zFaces w).Sublist (g1.zFaces z) ∧ g1.zName z <+: g2.zName w := by
  obtain ⟨m, rfl⟩ := Nat.exists_eq_add_of_le h2
  exact hier_within g g2 hw fns levels m h1 nm names hr

/-- So every cross edge of the coarser result is a cross edge of the finer one. -/
theorem C135_cross {S : Type} [LinearOrder S] (g g1 g2 : Grid F R) (hw : Wf g) (fns : List (Nat → S)) (levels levels2 : Nat)
    (h2 : levels ≤ levels2) (nm : Option Str) (names : List Str)
    (hr1 : g.decomposeHierarchical fns levels nm names = .ok g1)
    (hr2 : g.decomposeHierarchical fns levels2 nm names = .ok g2) :
    ∀ e ∈ g.edges, g1.isCross e = .ok true → g2.isCross e = .ok true := by
  intro e he
  have h1 : 1 ≤ levels := by
    rcases Nat.lt_or_ge levels 1 with h | h
    · obtain ⟨s, -, -, -, -, -, h5⟩ := hier_init g hw fns nm names
      rw [h5, if_pos h] at hr1; cases hr1
    · exact h
  obtain ⟨g1', hr1', hin⟩ := C135_refines g g2 hw fns levels levels2 h1 h2 nm names hr2
  rw [hr1] at hr1'
  obtain rfl := Except.ok.inj hr1'
  obtain ⟨d1, -⟩ := C13_hierarchical g g1 hw fns levels nm names hr1
  obtain ⟨d2, -⟩ := C13_hierarchical g g2 hw fns levels2 nm names hr2
  rw [(C17_meaning g1 e).2.2, (C17_meaning g2 e).2.2]
  rintro ⟨a, b, hab, hne⟩
  rw [d1.same.eFaces] at hab
  refine ⟨a, b, by rw [d2.same.eFaces]; exact hab, fun heq => hne ?_⟩
  have ha : a ∈ g2.faces := by rw [d2.same.faces]; exact ((hw.mesh.edge_face e he a).1 (by rw [hab]; simp)).1
  have hb : b ∈ g2.faces := by rw [d2.same.faces]; exact ((hw.mesh.edge_face e he b).1 (by rw [hab]; simp)).1
  obtain ⟨wa, ha1, ha2⟩ := List.mem_flatMap.1 (d2.zones.partition.mem_iff.2 ha)
  obtain ⟨wb, hb1, hb2⟩ := List.mem_flatMap.1 (d2.zones.partition.mem_iff.2 hb)
  rw [d2.zones.points wa ha1 a ha2, d2.zones.points wb hb1 b hb2] at heq
  obtain rfl := Option.some.inj heq
  obtain ⟨z, hz, hs, -⟩ := hin wa ha1
  rw [d1.zones.points z hz a (hs.subset ha2), d1.zones.points z hz b (hs.subset hb2)]

/-- In each zone made by `decompose_hierarchical` the faces stand in the order of the grid. -/
theorem C13_order {S : Type} [LinearOrder S] (g g' : Grid F R) (hw : Wf g) (fns : List (Nat → S)) (levels : Nat)
    (nm : Option Str) (names : List Str) (hr : g.decomposeHierarchical fns levels nm names = .ok g') :
    ∀ w ∈ g'.zones, ¬ (w ∈ g.zones ∧ g.zName w ∈ names) → (g'.zFaces w).Sublist g.faces := by
  obtain ⟨s, h1, h2, -, h4, -, h5⟩ := hier_init g hw fns nm names
  rw [h5] at hr
  by_cases hl : levels < 1
  · rw [if_pos hl] at hr; cases hr
  rw [if_neg hl, res_bind_eq_ok] at hr
  obtain ⟨s', k1, k2⟩ := hr
  obtain ⟨j1, j2⟩ := splitLevels_within hw.mesh fns _ s s' h1 k1
  obtain ⟨g2, m1, m2, m3, m4, -, -⟩ := j1.decompOk hw.mesh
  rw [m1] at k2
  cases k2
  rw [m3, m4]
  intro w hwz hk
  by_cases he : s'.zFaces w = []
  · rw [he]; exact List.nil_sublist _
  obtain ⟨z, hz, a, -⟩ := j2 w hwz
  rw [h2] at hz
  rcases List.mem_append.1 hz with hz | hz
  · obtain ⟨f, hf⟩ := List.exists_mem_of_ne_nil _ he
    obtain ⟨q1, -, q3, -⟩ := j1.keep_mem z hz
    obtain ⟨-, -, p3, -⟩ := h1.keep_mem z hz
    have hfz : f ∈ s'.zFaces z := by rw [q3, ← p3]; exact a.subset hf
    have e := (j1.points w hwz f hf).symm.trans (j1.points z q1 f hfz)
    rw [Option.some.inj e] at hk
    exact absurd (mem_kept.1 hz) hk
  · rw [List.mem_singleton.1 hz, h4] at a
    exact a.trans List.filter_sublist

/-- The strip of four triangles with two and three levels. -/
example : Wf climb ∧ (∃ g1, climb.decomposeHierarchical climb.centerSigns 2 none [] = .ok g1) ∧
    ∃ g2, climb.decomposeHierarchical climb.centerSigns 3 none [] = .ok g2 :=
  ⟨climb_wf, C14_returns_partial climb climb_wf climb.centerSigns 2 none [] (by omega) _ rfl (by decide +kernel),
    C14_returns_partial climb climb_wf climb.centerSigns 3 none [] (by omega) _ rfl (by decide +kernel)⟩

end Verif.Props
