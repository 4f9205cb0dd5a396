import Verif.Proofs.Hier

/-! More levels of `decompose_hierarchical` refine the zones. -/

namespace Verif
open Grid
variable {F R S : Type} [LinearOrder S]

/-- Each zone of `s'` is a part of a zone of `s`, and its name continues the name of that zone. -/
def ZonesWithin (s s' : Grid F R) : Prop :=
  ∀ w ∈ s'.zones, ∃ z ∈ s.zones, (s'.zFaces w).Sublist (s.zFaces z) ∧ s.zName z <+: s'.zName w

theorem ZonesWithin.refl (s : Grid F R) : ZonesWithin s s := fun w hw => ⟨w, hw, .refl _, List.prefix_rfl⟩

theorem ZonesWithin.trans {s t u : Grid F R} (h : ZonesWithin s t) (h' : ZonesWithin t u) : ZonesWithin s u := by
  intro w hw
  obtain ⟨z, hz, a1, a2⟩ := h' w hw
  obtain ⟨y, hy, b1, b2⟩ := h z hz
  exact ⟨y, hy, a1.trans b1, b2.trans a2⟩

theorem splitZone_within {g : Grid F R} (hm : Mesh g) {keep : List Nat} {s s' : Grid F R} (h : HInv g keep s) (z : Nat)
    (fns : List (Nat → S)) (hz : z ∈ s.zones) (hr : s.splitZone z fns = .ok s') : ZonesWithin s s' := by
  by_cases hx : s.zFixed z = true ∨ (s.zFaces z).length < 2
  · rw [splitZone_skip s z fns hz hx] at hr
    cases hr
    have hperm : (s.zones.erase z ++ [z]).Perm s.zones := List.perm_append_comm.trans (List.perm_cons_erase hz).symm
    exact fun w hw => ⟨w, hperm.mem_iff.1 hw, .refl _, List.prefix_rfl⟩
  · have hfx : s.zFixed z = false := by
      cases hh : s.zFixed z with
      | true => exact absurd (Or.inl hh) hx
      | false => rfl
    have hlen : 2 ≤ (s.zFaces z).length := by
      rcases Nat.lt_or_ge (s.zFaces z).length 2 with hh | hh
      · exact absurd (Or.inr hh) hx
      · exact hh
    rcases splitZone_main s z fns hz h.nodup h.alloc (h.zone_nodup hm hz) (h.points z hz) hfx hlen with ⟨_, he⟩ | ⟨_, _, _, s'', he, hs⟩
    · rw [he] at hr; cases hr
    rw [he] at hr
    cases hr
    obtain ⟨fn, -, b, -, e1, e2, -, -⟩ := hs.split
    intro w hw
    rw [hs.zones] at hw
    rcases List.mem_append.1 hw with hw | hw
    · obtain ⟨o1, o2, -⟩ := hs.others w (List.mem_of_mem_erase hw) ((List.Nodup.mem_erase_iff h.nodup).1 hw).1
      exact ⟨w, List.mem_of_mem_erase hw, by rw [o1], by rw [o2]; exact List.prefix_rfl⟩
    · simp only [List.mem_cons, List.not_mem_nil, or_false] at hw
      rcases hw with rfl | rfl
      · exact ⟨z, hz, by rw [e1]; exact List.filter_sublist, by rw [hs.names.1]; exact List.prefix_append _ _⟩
      · exact ⟨z, hz, by rw [e2]; exact List.filter_sublist, by rw [hs.names.2]; exact List.prefix_append _ _⟩

theorem splitLevel_within {g : Grid F R} (hm : Mesh g) {keep : List Nat} (fns : List (Nat → S)) (c : Nat) :
    ∀ (s s' : Grid F R), HInv g keep s → Grid.splitLevel fns c s = .ok s' → HInv g keep s' ∧ ZonesWithin s s' := by
  induction c with
  | zero => intro s s' h hr; cases hr; exact ⟨h, .refl s⟩
  | succ c ih =>
    intro s s' h hr
    rw [Grid.splitLevel, res_bind_eq_ok] at hr
    obtain ⟨z, h0, hr⟩ := hr
    rw [res_bind_eq_ok] at hr
    obtain ⟨s1, h1, h2⟩ := hr
    have hz : z ∈ s.zones := by
      cases hs : s.zones with
      | nil => rw [hs] at h0; cases h0
      | cons x l => rw [get_zero hs] at h0; cases h0; simp
    obtain ⟨q1, -⟩ := splitZone_inv hm h z fns hz h1
    obtain ⟨j1, j2⟩ := ih s1 s' q1 h2
    exact ⟨j1, (splitZone_within hm h z fns hz h1).trans j2⟩

theorem splitLevels_within {g : Grid F R} (hm : Mesh g) {keep : List Nat} (fns : List (Nat → S)) (k : Nat) :
    ∀ (s s' : Grid F R), HInv g keep s → Grid.splitLevels fns k s = .ok s' → HInv g keep s' ∧ ZonesWithin s s' := by
  induction k with
  | zero => intro s s' h hr; cases hr; exact ⟨h, .refl s⟩
  | succ k ih =>
    intro s s' h hr
    rw [Grid.splitLevels, res_bind_eq_ok] at hr
    obtain ⟨s1, h1, h2⟩ := hr
    obtain ⟨q1, q2⟩ := splitLevel_within hm fns _ s s1 h h1
    obtain ⟨j1, j2⟩ := ih s1 s' q1 h2
    exact ⟨j1, q2.trans j2⟩

theorem splitLevels_add (fns : List (Nat → S)) (j k : Nat) : ∀ s s' : Grid F R,
    Grid.splitLevels fns (j + k) s = .ok s' →
    ∃ t, Grid.splitLevels fns j s = .ok t ∧ Grid.splitLevels fns k t = .ok s' := by
  induction j with
  | zero => intro s s' hr; rw [Nat.zero_add] at hr; exact ⟨s, rfl, hr⟩
  | succ j ih =>
    intro s s' hr
    rw [show j + 1 + k = (j + k) + 1 by omega, Grid.splitLevels, res_bind_eq_ok] at hr
    obtain ⟨s1, h1, h2⟩ := hr
    obtain ⟨t, h3, h4⟩ := ih s1 s' h2
    exact ⟨t, by rw [Grid.splitLevels, h1]; exact h3, h4⟩

theorem hier_within (g g2 : Grid F R) (hw : Wf g) (fns : List (Nat → S)) (levels more : Nat) (hl : 1 ≤ levels)
    (nm : Option Str) (names : List Str) (hr : g.decomposeHierarchical fns (levels + more) nm names = .ok g2) :
    ∃ g1, g.decomposeHierarchical fns levels nm names = .ok g1 ∧ ZonesWithin g1 g2 := by
  obtain ⟨s, h1, -, -, -, -, h5⟩ := hier_init g hw fns nm names
  rw [h5, if_neg (by omega), res_bind_eq_ok] at hr
  obtain ⟨s2, k1, k2⟩ := hr
  rw [show levels + more - 1 = (levels - 1) + more by omega] at k1
  obtain ⟨s1, a1, a2⟩ := splitLevels_add fns _ _ s s2 k1
  obtain ⟨i1, -⟩ := splitLevels_within hw.mesh fns _ s s1 h1 a1
  obtain ⟨i2, w2⟩ := splitLevels_within hw.mesh fns _ s1 s2 i1 a2
  obtain ⟨g1, m1, -, m3, m4, m5, -⟩ := i1.decompOk hw.mesh
  obtain ⟨g2', n1, -, n3, n4, n5, -⟩ := i2.decompOk hw.mesh
  rw [n1] at k2
  cases k2
  refine ⟨g1, by rw [h5, if_neg (by omega), a1]; exact m1, ?_⟩
  unfold ZonesWithin
  rw [m3, m4, m5, n3, n4, n5]
  exact w2

end Verif
