import Verif.Proofs.BestCut
import Verif.Proofs.Sample
import Mathlib.Algebra.Order.Ring.Rat
import Mathlib.Algebra.Order.Field.Rat

/-! Property C131: which of its sign functions a split of a zone follows. -/

namespace Verif.Props
open Verif Grid
variable {F R : Type}

/-- A split of a zone which is not fixed and has two or more faces follows the first of the sign functions whose cut
at the median leaves the fewest edges between the two new zones. The edges with a face in both new zones
are not more than the edges with a face in both halves of the zone for any other of the functions,
and fewer than for any earlier one. Functions with no face below the median do not compete. -/
theorem C131_fewest {S : Type} [LinearOrder S] (g g' : Grid F R) (hw : Wf g) (zone : Nat) (hz : zone ∈ g.zones)
    (hf : g.zFixed zone = false) (hl : 2 ≤ (g.zFaces zone).length) (fns : List (Nat → S))
    (hr : g.splitZone zone fns = .ok g') :
    ∃ (l r i : Nat) (fn : Nat → S) (b : S), g'.zones = g.zones.erase zone ++ [l, r] ∧
      fns[i]? = some fn ∧ IsMedian ((g.zFaces zone).map fn) b ∧
      g'.zFaces l = (g.zFaces zone).filter (fun f => fn f < b) ∧
      g'.zFaces r = (g.zFaces zone).filter (fun f => b ≤ fn f) ∧
      ∀ (j : Nat) (fn' : Nat → S) (b' : S), fns[j]? = some fn' → IsMedian ((g.zFaces zone).map fn') b' →
        (∃ f ∈ g.zFaces zone, fn' f < b') →
        cutEdges g (g'.zFaces l) (g'.zFaces r) ≤
          cutEdges g ((g.zFaces zone).filter (fun f => fn' f < b')) ((g.zFaces zone).filter (fun f => b' ≤ fn' f)) ∧
        (j < i → cutEdges g (g'.zFaces l) (g'.zFaces r) <
          cutEdges g ((g.zFaces zone).filter (fun f => fn' f < b')) ((g.zFaces zone).filter (fun f => b' ≤ fn' f))) := by
  have hnd : (g.zFaces zone).Nodup :=
    List.Sublist.nodup (List.sublist_flatten_of_mem (List.mem_map_of_mem hz))
      (hw.zones.partition.nodup_iff.2 hw.mesh.faces_nodup)
  obtain ⟨i, fn, hi, h1, b, hb, h2⟩ := splitZone_best g g' hw zone fns hz hf hl hr
  rcases splitZone_main g zone [fn] hz hw.zones.zones_nodup hw.alloc hnd (hw.zones.points zone hz) hf hl with
    ⟨_, h⟩ | ⟨fl, _, _, g2, k1, k2⟩
  · rw [h1] at h; cases h
  · rw [h1] at k1
    cases k1
    obtain ⟨fn0, hfn0, b0, hb0, e1, e2, _, _⟩ := k2.split
    rw [List.mem_singleton] at hfn0
    subst hfn0
    rw [isMedian_unique hb0 hb] at e1 e2
    refine ⟨g.zNext, g.zNext + 1, i, fn0, b, k2.zones, hi, hb, e1, e2, fun j fn' b' hj hb' hs => ?_⟩
    rw [e1, e2]
    exact h2 j fn' b' hj hb' hs

/-- The other sign functions have no further effect: the same grid results when only the function that was followed
is given. -/
theorem C131_alone {S : Type} [LinearOrder S] (g g' : Grid F R) (hw : Wf g) (zone : Nat) (hz : zone ∈ g.zones)
    (hf : g.zFixed zone = false) (hl : 2 ≤ (g.zFaces zone).length) (fns : List (Nat → S))
    (hr : g.splitZone zone fns = .ok g') : ∃ fn ∈ fns, g.splitZone zone [fn] = .ok g' := by
  obtain ⟨i, fn, hi, h1, _⟩ := splitZone_best g g' hw zone fns hz hf hl hr
  exact ⟨fn, List.mem_of_getElem? hi, h1⟩

/-- A coordinate of the centre of a face: the mean of the coordinate over its corners. -/
def centreAlong [Field F] (g : Grid F R) (a : Vec F → F) (f : Nat) : F :=
  ((g.fNodes f).map (fun n => a (g.nP n))).sum / 3

/-- With the default sign functions a zone is cut across the `x`, `y` or `z` axis: for one of them the faces whose
centres are below the median of the centres go to the first new zone and the others to the second one. No
other axis gives fewer edges between the new zones, unless all centres have the same place on it or the median is the lowest. -/
theorem C131_axes [Field F] [LinearOrder F] (g g' : Grid F R) (hw : Wf g) (zone : Nat) (hz : zone ∈ g.zones)
    (hf : g.zFixed zone = false) (hl : 2 ≤ (g.zFaces zone).length) (hr : g.splitZone zone g.centerSigns = .ok g') :
    ∃ (l r : Nat) (a : Vec F → F) (b : F), g'.zones = g.zones.erase zone ++ [l, r] ∧
      a ∈ [Vec.x, Vec.y, Vec.z] ∧ IsMedian ((g.zFaces zone).map (centreAlong g a)) b ∧
      g'.zFaces l = (g.zFaces zone).filter (fun f => centreAlong g a f < b) ∧
      g'.zFaces r = (g.zFaces zone).filter (fun f => b ≤ centreAlong g a f) ∧
      ∀ a' ∈ [Vec.x, Vec.y, Vec.z], ∀ b', IsMedian ((g.zFaces zone).map (centreAlong g a')) b' →
        (∃ f ∈ g.zFaces zone, centreAlong g a' f < b') →
        cutEdges g (g'.zFaces l) (g'.zFaces r) ≤
          cutEdges g ((g.zFaces zone).filter (fun f => centreAlong g a' f < b'))
            ((g.zFaces zone).filter (fun f => b' ≤ centreAlong g a' f)) := by
  have hsub : ∀ f ∈ g.zFaces zone, f ∈ g.faces := fun f hf =>
    hw.zones.partition.mem_iff.1 (List.mem_flatMap.2 ⟨zone, hz, hf⟩)
  have hc : ∀ f ∈ g.zFaces zone, (g.getCenter f).x = centreAlong g Vec.x f ∧ (g.getCenter f).y = centreAlong g Vec.y f ∧
      (g.getCenter f).z = centreAlong g Vec.z f := by
    intro f hf
    obtain ⟨h1, _, _⟩ := hw.mesh.face_nodes f (hsub f hf)
    obtain ⟨p, q, s, he⟩ := List.length_eq_three.1 h1
    simp [getCenter, centreAlong, he, add_assoc]
  have key : ∀ (fn fn' : Nat → F), (∀ f ∈ g.zFaces zone, fn f = fn' f) → ∀ b,
      (g.zFaces zone).map fn = (g.zFaces zone).map fn' ∧
      (g.zFaces zone).filter (fun f => decide (fn f < b)) = (g.zFaces zone).filter (fun f => decide (fn' f < b)) ∧
      (g.zFaces zone).filter (fun f => decide (b ≤ fn f)) = (g.zFaces zone).filter (fun f => decide (b ≤ fn' f)) := by
    intro fn fn' h b
    exact ⟨List.map_congr_left h, List.filter_congr (fun f hf => by rw [h f hf]), List.filter_congr (fun f hf => by rw [h f hf])⟩
  have ax : ∀ (i : Nat) (fn : Nat → F), g.centerSigns[i]? = some fn → ∃ a ∈ ([Vec.x, Vec.y, Vec.z] : List (Vec F → F)), ∀ f ∈ g.zFaces zone, fn f = centreAlong g a f := by
    intro i fn hi
    have := List.mem_of_getElem? hi
    simp only [centerSigns, List.mem_cons, List.not_mem_nil, or_false] at this
    rcases this with rfl | rfl | rfl
    · exact ⟨Vec.x, by simp, fun f hf => (hc f hf).1⟩
    · exact ⟨Vec.y, by simp, fun f hf => (hc f hf).2.1⟩
    · exact ⟨Vec.z, by simp, fun f hf => (hc f hf).2.2⟩
  have xa : ∀ a ∈ ([Vec.x, Vec.y, Vec.z] : List (Vec F → F)), ∃ (i : Nat) (fn : Nat → F), g.centerSigns[i]? = some fn ∧ ∀ f ∈ g.zFaces zone, fn f = centreAlong g a f := by
    intro a ha
    simp only [List.mem_cons, List.not_mem_nil, or_false] at ha
    rcases ha with rfl | rfl | rfl
    · exact ⟨0, _, rfl, fun f hf => (hc f hf).1⟩
    · exact ⟨1, _, rfl, fun f hf => (hc f hf).2.1⟩
    · exact ⟨2, _, rfl, fun f hf => (hc f hf).2.2⟩
  obtain ⟨l, r, i, fn, b, h1, h2, h3, h4, h5, h6⟩ := C131_fewest g g' hw zone hz hf hl g.centerSigns hr
  obtain ⟨a, ha, hfa⟩ := ax i fn h2
  obtain ⟨k1, k2, k3⟩ := key fn _ hfa b
  refine ⟨l, r, a, b, h1, ha, by rw [← k1]; exact h3, by rw [h4, k2], by rw [h5, k3], fun a' ha' b' hb' hs => ?_⟩
  obtain ⟨j, fn', hj, hfa'⟩ := xa a' ha'
  obtain ⟨m1, m2, m3⟩ := key fn' _ hfa' b'
  have := (h6 j fn' b' hj (by rw [m1]; exact hb') (by
    obtain ⟨f, hf, hlt⟩ := hs
    exact ⟨f, hf, by rw [hfa' f hf]; exact hlt⟩)).1
  rw [m2, m3] at this
  exact this

/-! A strip of four triangles going up along the `x` axis. The cut across `x` meets one edge, the cut across `y`
three. -/

def climbFile : List (ZoneBlock ℚ) :=
  [ { name := "a".toList
      pts := [⟨0, 0, 0⟩, ⟨0, 1, 1⟩, ⟨1, 0, 2⟩, ⟨1, 1, 3⟩, ⟨2, 0, 4⟩, ⟨2, 1, 5⟩]
      faces := [([], [1, 2, 3]), ([], [2, 3, 4]), ([], [3, 4, 5]), ([], [4, 5, 6])] } ]

@[irreducible] def climb : Grid ℚ (ℚ × ℚ × ℚ) :=
  match Grid.loadBlocks Sample.rcq true Grid.empty climbFile with
  | .ok g => g
  | .error _ => Grid.empty

theorem climb_wf : Wf climb := by
  have hload : loadBlocks Sample.rcq true Grid.empty climbFile = .ok climb := by
    have h : (loadBlocks Sample.rcq true Grid.empty climbFile).isOk = true := by decide +kernel
    unfold climb
    split
    · assumption
    · rename_i e he; rw [he] at h; cases h
  have hv : ∀ b ∈ climbFile, b.Valid := by unfold ZoneBlock.Valid; decide +kernel
  have hd : NonDegenerate Sample.rcq true climbFile := by unfold NonDegenerate; decide +kernel
  rcases load_spec Sample.rcq true Grid.empty climbFile hv hd (by intro h; cases h) with ⟨_, h⟩ | ⟨_, g, h2, h3⟩
  · rw [hload] at h; cases h
  · rw [hload] at h2
    obtain rfl := Except.ok.inj h2
    exact ⟨h3.mesh, h3.zones, h3.alloc⟩

/-- The strip is split by the default functions. -/
example : Wf climb ∧ 0 ∈ climb.zones ∧ climb.zFixed 0 = false ∧ 2 ≤ (climb.zFaces 0).length ∧
    ∃ g', climb.splitZone 0 climb.centerSigns = .ok g' := by
  have hz : 0 ∈ climb.zones := by decide +kernel
  have hf : climb.zFixed 0 = false := by decide +kernel
  have hl : 2 ≤ (climb.zFaces 0).length := by decide +kernel
  have hnd : (climb.zFaces 0).Nodup := by decide +kernel
  refine ⟨climb_wf, hz, hf, hl, ?_⟩
  rcases splitZone_main climb 0 climb.centerSigns hz climb_wf.zones.zones_nodup climb_wf.alloc hnd
    (climb_wf.zones.points 0 hz) hf hl with ⟨h, _⟩ | ⟨_, _, _, g2, h1, _⟩
  · exact absurd (splits_of_injective (climb.zFaces 0) (fun f => (climb.getCenter f).z) hnd hl (by decide +kernel)) (h _ rfl)
  · exact ⟨g2, h1⟩

/-- The halves across `x` are the first two and the last two faces and have one edge in common; those across `y` have
three. -/
example : cutEdges climb [0, 1] [2, 3] = 1 ∧ cutEdges climb [0, 2] [1, 3] = 3 ∧
    climb.zFaces 0 = [0, 1, 2, 3] ∧ IsMedian ([0, 1, 2, 3].map (centreAlong climb Vec.x)) (4 / 3) ∧
    IsMedian ([0, 1, 2, 3].map (centreAlong climb Vec.y)) (2 / 3) :=
  ⟨by decide +kernel, by decide +kernel, by decide +kernel,
    ⟨[1 / 3, 2 / 3, 4 / 3, 5 / 3], by decide +kernel, by decide +kernel, by decide +kernel⟩,
    ⟨[1 / 3, 1 / 3, 2 / 3, 2 / 3], by decide +kernel, by decide +kernel, by decide +kernel⟩⟩

end Verif.Props
