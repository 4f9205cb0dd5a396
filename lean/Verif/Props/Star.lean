import Verif.Props.HierCut
import Verif.Spec.Bfs

/-! Property C136: connected zones. -/

namespace Verif.Props
open Verif Grid
variable {F R : Type}

theorem connected_congr {adj : Nat → Nat → Prop} {l l' : List Nat} (h : ∀ f, f ∈ l ↔ f ∈ l') (hc : Connected adj l) :
    Connected adj l' := by
  intro a ha b hb
  have : ∀ b, Reach adj (· ∈ l) a b → Reach adj (· ∈ l') a b := by
    intro b hr
    induction hr with
    | refl p => exact .refl ((h _).1 p)
    | step _ h1 p ih => exact .step ih h1 ((h _).1 p)
  exact this b (hc a ((h a).2 ha) b ((h b).2 hb))

/-- If the faces of the grid are connected, so is the zone made by `decompose_mono`. -/
theorem C136_mono_partial (g : Grid F R) (hw : Wf g) (hc : Connected (Adj g) g.faces) (nm : Option Str) :
    ∃ g', g.decomposeMono nm = .ok g' ∧ ∀ z ∈ g'.zones, Connected (Adj g) (g'.zFaces z) := by
  obtain ⟨g', z, h1, h2, -, h3⟩ := C07_mono g hw nm
  refine ⟨g', h1, fun w hw => ?_⟩
  rw [h2, List.mem_singleton] at hw
  rw [hw, h3]
  exact hc

/-- If the faces of the grid are connected, so is the first zone made by `decompose_farhat` without fixed zones. (Missing:
the other zones, see `C136_star_violation`.) -/
theorem C136_first_partial (g : Grid F R) (hw : Wf g) (hne : g.faces ≠ []) (hc : Connected (Adj g) g.faces) (count : Nat)
    (h1 : 1 ≤ count) (nm : Option Str) :
    ∃ g' z rest, g.decomposeFarhat count nm [] = .ok g' ∧ g'.zones = z :: rest ∧ Connected (Adj g) (g'.zFaces z) := by
  obtain ⟨g', new, k1, k2, k3, k4⟩ := C12_connected g hw count h1 hne nm []
  obtain ⟨g2, new2, j1, j2, j3, -⟩ := C11_farhat g hw count h1 hne nm []
  rw [k1] at j1
  obtain rfl := Except.ok.inj j1
  simp only [List.not_mem_nil, decide_false, List.filter_false, List.nil_append] at k2 j3
  cases new with
  | nil => simp at k3; omega
  | cons z rest =>
    refine ⟨g', z, rest, k1, k2, ?_⟩
    obtain ⟨path, p1, -, p3⟩ := k4 0 z rfl
    refine p3 (connected_congr (fun f => ?_) hc)
    rw [p1.mem]
    refine ⟨fun hf => ⟨hf, ?_⟩, fun h => h.1⟩
    obtain ⟨w, hw1, hw2⟩ := List.mem_flatMap.1 (j2.zones.partition.mem_iff.2 (by rw [j2.same.faces]; exact hf))
    have hwz := j2.zones.points w hw1 f hw2
    rw [k2] at hw1
    obtain ⟨j, hj⟩ := List.mem_iff_getElem?.1 hw1
    exact ⟨j, w, Nat.zero_le _, hj, hwz⟩

/-! A triangle with three others at its sides. -/

def starFile : List (ZoneBlock ℚ) :=
  [ { name := "a".toList
      pts := [⟨0, 0, 0⟩, ⟨4, 0, 0⟩, ⟨0, 4, 0⟩, ⟨4, -4, 1⟩, ⟨5, 5, 2⟩, ⟨-4, 4, 4⟩]
      faces := [([], [1, 2, 3]), ([], [1, 2, 4]), ([], [2, 3, 5]), ([], [3, 1, 6])] } ]

@[irreducible] def starGrid : Grid ℚ (ℚ × ℚ × ℚ) :=
  match Grid.loadBlocks Sample.rcq true Grid.empty starFile with
  | .ok g => g
  | .error _ => Grid.empty

theorem star_wf : Wf starGrid := by
  have hload : loadBlocks Sample.rcq true Grid.empty starFile = .ok starGrid := by
    have h : (loadBlocks Sample.rcq true Grid.empty starFile).isOk = true := by decide +kernel
    unfold starGrid
    split
    · assumption
    · rename_i e he; rw [he] at h; cases h
  have hv : ∀ b ∈ starFile, b.Valid := by unfold ZoneBlock.Valid; decide +kernel
  have hd : NonDegenerate Sample.rcq true starFile := by unfold NonDegenerate; decide +kernel
  rcases load_spec Sample.rcq true Grid.empty starFile hv hd (by intro h; cases h) with ⟨_, h⟩ | ⟨_, g, h2, h3⟩
  · rw [hload] at h; cases h
  · rw [hload] at h2
    obtain rfl := Except.ok.inj h2
    exact ⟨h3.mesh, h3.zones, h3.alloc⟩

theorem star_faces : starGrid.faces = [0, 1, 2, 3] := by decide +kernel

/-- Only the middle face is adjacent to others. -/
theorem star_adj {a b : Nat} (ha : a ∈ starGrid.faces) (hb : b ∈ starGrid.faces) (h : Adj starGrid a b) : a = 0 ∨ b = 0 := by
  obtain ⟨hne, e, he, h1, h2⟩ := h
  have key : ∀ e ∈ starGrid.edges, ∀ a ∈ [1, 2, 3], ∀ b ∈ [1, 2, 3], a ∈ starGrid.eFaces e → b ∈ starGrid.eFaces e → a = b := by
    decide +kernel
  rw [star_faces] at ha hb
  by_contra hc
  rw [not_or] at hc
  refine hne (key e he a ?_ b ?_ h1 h2)
  · simp only [List.mem_cons, List.not_mem_nil, or_false] at ha ⊢; tauto
  · simp only [List.mem_cons, List.not_mem_nil, or_false] at hb ⊢; tauto

theorem star_connected : Connected (Adj starGrid) starGrid.faces := by
  have h0 : ∀ b ∈ [1, 2, 3], Adj starGrid 0 b := by unfold Adj; decide +kernel
  have hs : ∀ b ∈ [1, 2, 3], Adj starGrid b 0 := fun b hb => by
    obtain ⟨h1, e, he, h2, h3⟩ := h0 b hb
    exact ⟨h1.symm, e, he, h3, h2⟩
  rw [star_faces]
  intro a ha b hb
  have r0 : Reach (Adj starGrid) (· ∈ [0, 1, 2, 3]) a 0 := by
    rcases List.mem_cons.1 ha with rfl | h
    · exact .refl ha
    · exact .step (.refl ha) (hs a h) (by simp)
  rcases List.mem_cons.1 hb with rfl | h
  · exact r0
  · exact .step r0 (h0 b h) hb

/-- A decomposition of the star into two zones of two faces has a zone that is not connected. -/
theorem star_halves (g' : Grid ℚ (ℚ × ℚ × ℚ)) (hd : DecompOk starGrid g') (l r : Nat) (hz : g'.zones = [l, r])
    (h1 : (g'.zFaces l).length = 2) (h2 : (g'.zFaces r).length = 2) :
    ∃ z ∈ g'.zones, ¬ Connected (Adj starGrid) (g'.zFaces z) := by
  have hp := hd.zones.partition
  rw [hz, hd.same.faces] at hp
  simp only [List.flatMap_cons, List.flatMap_nil, List.append_nil] at hp
  have hnd : (g'.zFaces l ++ g'.zFaces r).Nodup := hp.nodup_iff.2 (by rw [star_faces]; decide)
  obtain ⟨n1, n2, n3⟩ := List.nodup_append.1 hnd
  have key : ∀ z ∈ [l, r], (g'.zFaces z).length = 2 → (g'.zFaces z).Nodup → (∀ f ∈ g'.zFaces z, f ∈ starGrid.faces) →
      0 ∉ g'.zFaces z → ∃ z ∈ g'.zones, ¬ Connected (Adj starGrid) (g'.zFaces z) := by
    intro z hzz hlen hn hsub h0
    refine ⟨z, by rw [hz]; exact hzz, fun hc => ?_⟩
    obtain ⟨a, b, hab⟩ := List.length_eq_two.1 hlen
    rw [hab] at hc hn hsub h0
    have hne : a ≠ b := by simpa using hn
    have hr := hc a (by simp) b (by simp)
    have hin : ∀ x y, Reach (Adj starGrid) (· ∈ [a, b]) x y → y ∈ [a, b] := by
      intro x y h; cases h <;> assumption
    cases hr with
    | refl _ => exact hne rfl
    | step h3 h4 _ =>
      have hcm := hin _ _ h3
      rcases star_adj (hsub _ hcm) (hsub b (by simp)) h4 with h | h
      · exact h0 (h ▸ hcm)
      · exact h0 (by rw [← h]; simp)
  by_cases h0 : 0 ∈ g'.zFaces l
  · exact key r (by simp) h2 n2 (fun f hf => hp.mem_iff.1 (by simp [hf])) (fun hc => n3 0 h0 0 hc rfl)
  · exact key l (by simp) h1 n1 (fun f hf => hp.mem_iff.1 (by simp [hf])) h0

theorem two_of {l : List Nat} (h : l.length = 2) : ∃ a b, l = [a, b] := List.length_eq_two.1 h

/-- The star is connected. Each of `decompose_linear`, `decompose_farhat` and `decompose_hierarchical` (with sign functions that take
different values on its faces) divides it into two halves, and one of the halves is not connected. -/
theorem C136_star_violation : Wf starGrid ∧ Connected (Adj starGrid) starGrid.faces ∧
    (∃ g', starGrid.decomposeLinear 2 none = .ok g' ∧ ∃ z ∈ g'.zones, ¬ Connected (Adj starGrid) (g'.zFaces z)) ∧
    (∃ g', starGrid.decomposeFarhat 2 none [] = .ok g' ∧ ∃ z ∈ g'.zones, ¬ Connected (Adj starGrid) (g'.zFaces z)) ∧
    (∀ fns : List (Nat → ℚ), fns ≠ [] →
      (∀ fn ∈ fns, ∀ a ∈ starGrid.faces, ∀ c ∈ starGrid.faces, fn a = fn c → a = c) →
      ∃ g', starGrid.decomposeHierarchical fns 2 none [] = .ok g' ∧ ∃ z ∈ g'.zones, ¬ Connected (Adj starGrid) (g'.zFaces z)) := by
  have hlen : starGrid.faces.length = 4 := by rw [star_faces]; rfl
  have hsum : ∀ (g' : Grid ℚ (ℚ × ℚ × ℚ)) (l r : Nat), DecompOk starGrid g' → g'.zones = [l, r] →
      (g'.zFaces l).length + (g'.zFaces r).length = 4 := by
    intro g' l r hd hz
    have := hd.zones.partition.length_eq
    rw [hz, hd.same.faces, hlen] at this
    simpa using this
  refine ⟨star_wf, star_connected, ?_, ?_, ?_⟩
  · obtain ⟨g', h1, h2, h3, -, -, h6⟩ := C09_linear starGrid star_wf 2 (by omega) none
    obtain ⟨l, r, hz⟩ := two_of h3
    have hs := hsum g' l r h2 hz
    have := h6 0 1 l r (by omega) (by rw [hz]; rfl) (by rw [hz]; rfl)
    exact ⟨g', h1, star_halves g' h2 l r hz (by omega) (by omega)⟩
  · obtain ⟨g', new, h1, h2, h3, h4, -, -, h6⟩ := C11_farhat starGrid star_wf 2 (by omega) (by rw [star_faces]; simp) none []
    obtain ⟨l, r, hn⟩ := two_of h4
    have hz : g'.zones = [l, r] := by rw [h3, hn]; simp
    have hs := hsum g' l r h2 hz
    have := h6 0 1 l r (by omega) (by rw [hn]; rfl) (by rw [hn]; rfl)
    exact ⟨g', h1, star_halves g' h2 l r hz (by omega) (by omega)⟩
  · intro fns hne hinj
    obtain ⟨fl, hfl⟩ := Option.ne_none_iff_exists'.1 (mt List.getLast?_eq_none_iff.1 hne)
    obtain ⟨g', h1⟩ := C14_returns_partial starGrid star_wf fns 2 none [] (by omega) fl hfl
      (hinj fl (List.mem_of_getLast? hfl))
    obtain ⟨l, r, -, -, hz, -⟩ := C134_two_levels starGrid g' star_wf (by omega) fns none h1
    obtain ⟨hd, -⟩ := C13_hierarchical starGrid g' star_wf fns 2 none [] h1
    have hs := hsum g' l r hd hz
    have hdl := C133_differ_partial starGrid g' star_wf fns hinj 2 none [] h1
    have a := hdl l (by rw [hz]; simp) (by simp) r (by rw [hz]; simp) (by simp)
    have b := hdl r (by rw [hz]; simp) (by simp) l (by rw [hz]; simp) (by simp)
    exact ⟨g', h1, star_halves g' hd l r hz (by omega) (by omega)⟩

/-- The hypotheses of the partial theorems, and of the last part of the violation for the default sign functions. -/
example : Wf starGrid ∧ starGrid.faces ≠ [] ∧ Connected (Adj starGrid) starGrid.faces ∧
    ∀ fn ∈ starGrid.centerSigns, ∀ a ∈ starGrid.faces, ∀ c ∈ starGrid.faces, fn a = fn c → a = c := by
  refine ⟨star_wf, by rw [star_faces]; simp, star_connected, fun fn hfn => ?_⟩
  simp only [Grid.centerSigns, List.mem_cons, List.not_mem_nil, or_false] at hfn
  rcases hfn with rfl | rfl | rfl <;> decide +kernel

end Verif.Props
