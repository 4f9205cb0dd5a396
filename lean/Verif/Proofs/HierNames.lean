import Verif.Proofs.Hier

/-! Names of the zones made by `decompose_hierarchical`. -/

namespace Verif
open Grid
variable {F R S : Type} [LinearOrder S]

/-- `h`, followed by letters `l` and `r`. -/
def PathName (s : Str) : Prop := ∃ w : Str, s = 'h' :: w ∧ ∀ ch ∈ w, ch = 'l' ∨ ch = 'r'

theorem PathName.snoc {s : Str} (h : PathName s) {ch : Char} (hc : ch = 'l' ∨ ch = 'r') : PathName (s ++ [ch]) := by
  obtain ⟨w, rfl, hw⟩ := h
  refine ⟨w ++ [ch], rfl, fun x hx => ?_⟩
  rcases List.mem_append.1 hx with h | h
  · exact hw x h
  · rw [List.mem_singleton] at h
    exact h ▸ hc

/-- Names of the zones that are not kept, `k` letters at most. -/
structure PathNames (keep : List Nat) (s : Grid F R) : Prop where
  path : ∀ z ∈ s.zones, z ∉ keep → PathName (s.zName z)
  apart : ∀ z ∈ s.zones, z ∉ keep → ∀ w ∈ s.zones, w ∉ keep → z ≠ w → ¬ s.zName z <+: s.zName w

theorem prefix_snoc {u w : Str} {ch : Char} (h : u <+: w ++ [ch]) : u <+: w ∨ u = w ++ [ch] := by
  rcases List.prefix_concat_iff.1 h with h | h
  · exact .inr h
  · exact .inl h

theorem splitZone_names {g : Grid F R} (hm : Mesh g) {keep : List Nat} {s s' : Grid F R} (h : HInv g keep s) (hp : PathNames keep s) (z : Nat)
    (fns : List (Nat → S)) (hz : z ∈ s.zones) (hr : s.splitZone z fns = .ok s') :
    PathNames keep s' ∧ ∃ P, s'.zones = s.zones.erase z ++ P ∧ (∀ w ∈ s.zones.erase z, s'.zName w = s.zName w) ∧
      ∀ w ∈ P, w ∉ keep → z ∉ keep ∧ (s'.zName w).length ≤ (s.zName z).length + 1 := by
  by_cases hx : s.zFixed z = true ∨ (s.zFaces z).length < 2
  · rw [splitZone_skip s z fns hz hx] at hr
    cases hr
    have hperm : (s.zones.erase z ++ [z]).Perm s.zones := List.perm_append_comm.trans (List.perm_cons_erase hz).symm
    refine ⟨⟨fun w hw => hp.path w (hperm.mem_iff.1 hw), fun w hw hk v hv => hp.apart w (hperm.mem_iff.1 hw) hk v (hperm.mem_iff.1 hv)⟩,
      [z], rfl, fun w _ => rfl, fun w hw hk => ?_⟩
    rw [List.mem_singleton] at hw
    subst hw
    exact ⟨hk, by dsimp only; omega⟩
  · have hfx : s.zFixed z = false := by
      cases hh : s.zFixed z with
      | true => exact absurd (Or.inl hh) hx
      | false => rfl
    have hlen : 2 ≤ (s.zFaces z).length := by
      rcases Nat.lt_or_ge (s.zFaces z).length 2 with hh | hh
      · exact absurd (Or.inr hh) hx
      · exact hh
    have hzk : z ∉ keep := fun hc => by
      have := (h.keep_mem z hc).2.1
      rw [hfx] at this; cases this
    rcases splitZone_main s z fns hz h.nodup h.alloc (h.zone_nodup hm hz) (h.points z hz) hfx hlen with ⟨_, he⟩ | ⟨_, _, _, s'', he, hs⟩
    · rw [he] at hr; cases hr
    rw [he] at hr
    cases hr
    have hne : ∀ w ∈ s.zones.erase z, w ∈ s.zones ∧ w ≠ z := fun w hw =>
      ⟨List.mem_of_mem_erase hw, ((List.Nodup.mem_erase_iff h.nodup).1 hw).1⟩
    have hkeep : ∀ w ∈ s.zones.erase z, s'.zName w = s.zName w := fun w hw => (hs.others w (hne w hw).1 (hne w hw).2).2.1
    have hmem : ∀ w ∈ s'.zones, (w ∈ s.zones ∧ w ≠ z ∧ s'.zName w = s.zName w) ∨
        ∃ ch, (ch = 'l' ∧ w = s.zNext ∨ ch = 'r' ∧ w = s.zNext + 1) ∧ s'.zName w = s.zName z ++ [ch] := by
      intro w hw
      rw [hs.zones] at hw
      rcases List.mem_append.1 hw with hw | hw
      · exact .inl ⟨(hne w hw).1, (hne w hw).2, hkeep w hw⟩
      · right
        simp only [List.mem_cons, List.not_mem_nil, or_false] at hw
        rcases hw with rfl | rfl
        · exact ⟨'l', .inl ⟨rfl, rfl⟩, hs.names.1⟩
        · exact ⟨'r', .inr ⟨rfl, rfl⟩, hs.names.2⟩
    refine ⟨⟨?_, ?_⟩, [s.zNext, s.zNext + 1], hs.zones, hkeep, ?_⟩
    · intro w hw hk
      rcases hmem w hw with ⟨h1, -, e⟩ | ⟨ch, h1, e⟩
      · rw [e]; exact hp.path w h1 hk
      · rw [e]; exact (hp.path z hz hzk).snoc (by rcases h1 with h1 | h1 <;> simp [h1.1])
    · intro w hw hk v hv hvk hwv hpre
      rcases hmem w hw with ⟨h1, n1, e1⟩ | ⟨ch, h1, e1⟩ <;> rcases hmem v hv with ⟨h2, n2, e2⟩ | ⟨ch', h2, e2⟩
      · rw [e1, e2] at hpre
        exact hp.apart w h1 hk v h2 hvk hwv hpre
      · rw [e1, e2] at hpre
        rcases prefix_snoc hpre with hpre | hpre
        · exact hp.apart w h1 hk z hz hzk n1 hpre
        · exact hp.apart z hz hzk w h1 hk (Ne.symm n1) (by rw [hpre]; exact List.prefix_append _ _)
      · rw [e1, e2] at hpre
        exact hp.apart z hz hzk v h2 hvk (Ne.symm n2) ((List.prefix_append _ _).trans hpre)
      · rw [e1, e2] at hpre
        have : ch = ch' := by
          have := hpre.eq_of_length (by simp)
          simpa using this
        rcases h1 with h1 | h1 <;> rcases h2 with h2 | h2
        · exact hwv (h1.2.trans h2.2.symm)
        · rw [h1.1, h2.1] at this; cases this
        · rw [h1.1, h2.1] at this; cases this
        · exact hwv (h1.2.trans h2.2.symm)
    · intro w hw _
      refine ⟨hzk, ?_⟩
      simp only [List.mem_cons, List.not_mem_nil, or_false] at hw
      rcases hw with rfl | rfl
      · rw [hs.names.1]; simp
      · rw [hs.names.2]; simp

theorem splitLevel_names {g : Grid F R} (hm : Mesh g) {keep : List Nat} (fns : List (Nat → S)) (k : Nat) (A : List Nat) :
    ∀ (B : List Nat) (s s' : Grid F R), HInv g keep s → PathNames keep s → s.zones = A ++ B →
      (∀ z ∈ A, z ∉ keep → (s.zName z).length ≤ k) → (∀ z ∈ B, z ∉ keep → (s.zName z).length ≤ k + 1) →
      Grid.splitLevel fns A.length s = .ok s' →
      PathNames keep s' ∧ ∀ z ∈ s'.zones, z ∉ keep → (s'.zName z).length ≤ k + 1 := by
  induction A with
  | nil =>
    intro B s s' _ hp hz _ hB hr
    cases hr
    exact ⟨hp, fun z h => hB z (by rw [hz] at h; simpa using h)⟩
  | cons z A ih =>
    intro B s s' h hp hz hA hB hr
    rw [List.length_cons, Grid.splitLevel, get_zero hz, res_bind_ok, res_bind_eq_ok] at hr
    obtain ⟨s1, h1, h2⟩ := hr
    have hzm : z ∈ s.zones := by rw [hz]; simp
    obtain ⟨q1, -⟩ := splitZone_inv hm h z fns hzm h1
    obtain ⟨q2, P, q3, q4, q5⟩ := splitZone_names hm h hp z fns hzm h1
    rw [hz] at q3 q4
    simp only [List.cons_append, List.erase_cons_head] at q3 q4
    refine ih (B ++ P) s1 s' q1 q2 (by rw [q3, List.append_assoc]) ?_ ?_ h2
    · intro w hw hk
      rw [q4 w (List.mem_append_left _ hw)]
      exact hA w (List.mem_cons_of_mem _ hw) hk
    · intro w hw hk
      rcases List.mem_append.1 hw with hw | hw
      · rw [q4 w (List.mem_append_right _ hw)]
        exact hB w hw hk
      · obtain ⟨a1, a2⟩ := q5 w hw hk
        have := hA z (by simp) a1
        omega

theorem splitLevels_names {g : Grid F R} (hm : Mesh g) {keep : List Nat} (fns : List (Nat → S)) (k : Nat) :
    ∀ (d : Nat) (s s' : Grid F R), HInv g keep s → PathNames keep s → (∀ z ∈ s.zones, z ∉ keep → (s.zName z).length ≤ d) →
      Grid.splitLevels fns k s = .ok s' → PathNames keep s' ∧ ∀ z ∈ s'.zones, z ∉ keep → (s'.zName z).length ≤ d + k := by
  induction k with
  | zero =>
    intro d s s' _ hp hd hr
    cases hr
    exact ⟨hp, hd⟩
  | succ k ih =>
    intro d s s' h hp hd hr
    rw [Grid.splitLevels, res_bind_eq_ok] at hr
    obtain ⟨s1, h1, h2⟩ := hr
    obtain ⟨k1, -⟩ := splitLevel_inv hm fns s.zones [] s s1 h (by simp) h1
    obtain ⟨k2, k3⟩ := splitLevel_names hm fns d s.zones [] s s1 h hp (by simp) hd (by simp) h1
    obtain ⟨j1, j2⟩ := ih (d + 1) s1 s' k1 k2 k3 h2
    exact ⟨j1, fun z hz hk => by have := j2 z hz hk; omega⟩

/-- Names of the zones made by `decompose_hierarchical`. -/
theorem hier_names (g g' : Grid F R) (hw : Wf g) (fns : List (Nat → S)) (levels : Nat) (nm : Option Str)
    (names : List Str) (hr : g.decomposeHierarchical fns levels nm names = .ok g') :
    PathNames (keptZones g names) g' ∧ ∀ z ∈ g'.zones, z ∉ keptZones g names → (g'.zName z).length ≤ levels := by
  obtain ⟨s, h1, h2, h3, h4, h6, h5⟩ := hier_init g hw fns nm names
  rw [h5] at hr
  by_cases hl : levels < 1
  · rw [if_pos hl] at hr; cases hr
  rw [if_neg hl, res_bind_eq_ok] at hr
  obtain ⟨s', k1, k2⟩ := hr
  have hs : ∀ z ∈ s.zones, z ∉ keptZones g names → z = g.zNext := by
    intro z hz hk
    rw [h2] at hz
    rcases List.mem_append.1 hz with h | h
    · exact absurd h hk
    · exact List.mem_singleton.1 h
  obtain ⟨j1, -⟩ := splitLevels_inv hw.mesh fns (levels - 1) s s' h1 k1
  obtain ⟨n1, n2⟩ := splitLevels_names hw.mesh fns (levels - 1) 1 s s' h1
    ⟨fun z hz hk => ⟨[], by rw [hs z hz hk, h6], by simp⟩, fun z hz hk w hw hwk hne => absurd ((hs z hz hk).trans (hs w hw hwk).symm) hne⟩
    (fun z hz hk => by rw [hs z hz hk, h6]; simp) k1
  obtain ⟨g2, m1, m2, m3, m4, m5, m6⟩ := j1.decompOk hw.mesh
  rw [m1] at k2
  cases k2
  refine ⟨⟨?_, ?_⟩, ?_⟩
  · rw [m3, m5]; exact n1.path
  · rw [m3, m5]; exact n1.apart
  · rw [m3, m5]
    intro z hz hk
    have := n2 z hz hk
    omega

end Verif
