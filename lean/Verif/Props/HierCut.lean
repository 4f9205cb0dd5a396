import Verif.Props.HierSizes
import Verif.Props.Zam

/-! Property C134: cross edges after `decompose_hierarchical` with two levels. -/

namespace Verif.Props
open Verif Grid
variable {F R : Type}

/-- In a grid with two zones the cross edges are the edges with a face in both of them. -/
theorem cross_two (g : Grid F R) (hm : Mesh g) (hz : ZonesOk g) (l r : Nat) (hlr : g.zones = [l, r]) :
    (g.edges.filter (fun e => decide (g.isCross e = .ok true))).length = cutEdges g (g.zFaces l) (g.zFaces r) := by
  have hne : l ≠ r := by
    have := hz.zones_nodup
    rw [hlr] at this
    simpa using this
  have hmem : ∀ f ∈ g.faces, (f ∈ g.zFaces l ∧ f ∉ g.zFaces r ∧ g.fZone f = some l) ∨
      (f ∉ g.zFaces l ∧ f ∈ g.zFaces r ∧ g.fZone f = some r) := by
    intro f hf
    have h := hz.partition.mem_iff.2 hf
    rw [hlr] at h
    have pl : f ∈ g.zFaces l → g.fZone f = some l := hz.points l (by rw [hlr]; simp) f
    have pr : f ∈ g.zFaces r → g.fZone f = some r := hz.points r (by rw [hlr]; simp) f
    simp only [List.flatMap_cons, List.flatMap_nil, List.append_nil, List.mem_append] at h
    rcases h with h | h
    · refine .inl ⟨h, fun hc => ?_, pl h⟩
      have := (pl h).symm.trans (pr hc)
      exact hne (Option.some.inj this)
    · refine .inr ⟨fun hc => ?_, h, pr h⟩
      have := (pl hc).symm.trans (pr h)
      exact hne (Option.some.inj this)
  unfold cutEdges
  congr 1
  apply List.filter_congr
  intro e he
  rw [Bool.eq_iff_iff]
  simp only [decide_eq_true_eq, Bool.and_eq_true, List.any_eq_true, List.contains_iff_mem]
  rw [(C17_meaning g e).2.2]
  constructor
  · rintro ⟨a, b, hab, hd⟩
    have ha := hmem a ((hm.edge_face e he a).1 (by rw [hab]; simp)).1
    have hb := hmem b ((hm.edge_face e he b).1 (by rw [hab]; simp)).1
    rw [hab]
    rcases ha with ⟨a1, -, a3⟩ | ⟨-, a2, a3⟩ <;> rcases hb with ⟨b1, -, b3⟩ | ⟨-, b2, b3⟩
    · exact absurd (a3.trans b3.symm) hd
    · exact ⟨⟨a, by simp, a1⟩, ⟨b, by simp, b2⟩⟩
    · exact ⟨⟨b, by simp, b1⟩, ⟨a, by simp, a2⟩⟩
    · exact absurd (a3.trans b3.symm) hd
  · rintro ⟨⟨a, ha, a1⟩, ⟨b, hb, b1⟩⟩
    have za : g.fZone a = some l := hz.points l (by rw [hlr]; simp) a a1
    have zb : g.fZone b = some r := hz.points r (by rw [hlr]; simp) b b1
    have hd : g.fZone a ≠ g.fZone b := by rw [za, zb]; simpa using hne
    have hab : a ≠ b := fun hc => hd (by rw [hc])
    rcases (hm.edge_faces e he).1 with h1 | h1
    · obtain ⟨x, hx⟩ := List.length_eq_one_iff.1 h1
      rw [hx, List.mem_singleton] at ha hb
      exact absurd (ha.trans hb.symm) hab
    · obtain ⟨x, y, hxy⟩ := List.length_eq_two.1 h1
      rw [hxy] at ha hb
      simp only [List.mem_cons, List.not_mem_nil, or_false] at ha hb
      refine ⟨x, y, hxy, ?_⟩
      rcases ha with rfl | rfl <;> rcases hb with rfl | rfl
      · exact absurd rfl hab
      · exact hd
      · exact hd.symm
      · exact absurd rfl hab

/-- `decompose_hierarchical` with two levels and no fixed zones, for a grid with at least two faces. Whenever it
returns, there are two zones: the faces below the median of one of the sign functions and the others. The number of
cross edges of the grid is not more than the number of edges between the halves for any of the sign
functions that has a face below the median. -/
theorem C134_two_levels {S : Type} [LinearOrder S] (g g' : Grid F R) (hw : Wf g) (hl : 2 ≤ g.faces.length)
    (fns : List (Nat → S)) (nm : Option Str) (hr : g.decomposeHierarchical fns 2 nm [] = .ok g') :
    ∃ (l r : Nat) (fn : Nat → S) (b : S), g'.zones = [l, r] ∧ fn ∈ fns ∧ IsMedian (g.faces.map fn) b ∧
      g'.zFaces l = g.faces.filter (fun f => fn f < b) ∧ g'.zFaces r = g.faces.filter (fun f => b ≤ fn f) ∧
      ∀ fn' ∈ fns, ∀ b' : S, IsMedian (g.faces.map fn') b' → (∃ f ∈ g.faces, fn' f < b') →
        (g'.edges.filter (fun e => decide (g'.isCross e = .ok true))).length ≤
          cutEdges g (g.faces.filter (fun f => fn' f < b')) (g.faces.filter (fun f => b' ≤ fn' f)) := by
  obtain ⟨s, h1, h2, h3, h4, h6, h5⟩ := hier_init g hw fns nm []
  have hk : keptZones g [] = [] := by simp [keptZones]
  have hf : freeFaces g [] = g.faces := by simp [freeFaces, hk]
  rw [h5, if_neg (by omega), res_bind_eq_ok] at hr
  obtain ⟨s', k1, k2⟩ := hr
  obtain ⟨j1, -⟩ := splitLevels_inv hw.mesh fns (2 - 1) s s' h1 k1
  rw [hk] at h2
  rw [hf] at h4
  have hz : g.zNext ∈ s.zones := by rw [h2]; simp
  have hws : Wf s := ⟨hw.mesh.congr h1.same, ⟨h1.nodup, by rw [h1.same.faces]; exact h1.partition, h1.points⟩, h1.alloc⟩
  have hsz : s.splitZone g.zNext fns = .ok s' := by
    have e : Grid.splitLevels fns (2 - 1) s = (s.splitZone g.zNext fns >>= fun t => .ok t) >>= fun t => .ok t := by
      show (Grid.splitLevel fns s.zones.length s >>= fun t => .ok t) = _
      rw [h2]
      show ((Py.get s.zones 0 >>= fun z => s.splitZone z fns >>= fun t => .ok t) >>= fun t => .ok t) = _
      rw [show s.zones = g.zNext :: [] by rw [h2]; rfl, get_zero rfl]
      rfl
    rw [e] at k1
    cases hh : s.splitZone g.zNext fns with
    | error x => rw [hh] at k1; cases k1
    | ok t => rw [hh] at k1; cases k1; rfl
  obtain ⟨l, r, i, fn, b, c1, c2, c3, c4, c5, c6⟩ := C131_fewest s s' hws g.zNext hz
    (h1.free _ hz (by rw [hk]; simp)) (by rw [h4]; exact hl) fns hsz
  rw [h2] at c1
  rw [h4] at c3 c4 c5 c6
  obtain ⟨g2, m1, m2, m3, m4, -, -⟩ := j1.decompOk hw.mesh
  rw [m1] at k2
  cases k2
  have c1' : g'.zones = [l, r] := by rw [m3, c1]; simp
  refine ⟨l, r, fn, b, c1', List.mem_of_getElem? c2, c3, by rw [m4]; exact c4, by rw [m4]; exact c5, fun fn' hfn b' hb' hs => ?_⟩
  obtain ⟨j, hj⟩ := List.mem_iff_getElem?.1 hfn
  have h := (c6 j fn' b' hj hb' hs).1
  rw [cross_two g' (hw.mesh.congr m2.same) m2.zones l r c1', m4]
  have q1 : ∀ x y, cutEdges s x y = cutEdges g x y := fun x y => by
    unfold cutEdges; rw [h1.same.edges, h1.same.eFaces]
  have q2 : ∀ x y, cutEdges g' x y = cutEdges g x y := fun x y => by
    unfold cutEdges; rw [m2.same.edges, m2.same.eFaces]
  rw [q1, q1] at h
  rw [q2]
  exact h

/-- The strip of four triangles with the default functions. -/
example : Wf climb ∧ 2 ≤ climb.faces.length ∧ ∃ g', climb.decomposeHierarchical climb.centerSigns 2 none [] = .ok g' :=
  ⟨climb_wf, by decide +kernel, C14_returns_partial climb climb_wf climb.centerSigns 2 none [] (by omega) _ rfl (by decide +kernel)⟩

end Verif.Props
