import Verif.Spec.History
import Verif.Proofs.LoadAny
import Verif.Proofs.Farhat
import Verif.Proofs.Hier

/-! Every successful decomposition keeps the mesh and makes consistent zones, also for degenerate counts. -/

namespace Verif
variable {F R : Type}
open Grid

theorem check_ok {g : Grid F R} (h : g.checkFacesLinked = .ok ()) : ∀ f ∈ g.faces, g.fZone f ≠ none := by
  unfold checkFacesLinked at h
  generalize g.faces = l at h
  induction l with
  | nil => simp
  | cons f l ih =>
    rw [List.forM_eq_forM, List.forM_cons, ← List.forM_eq_forM, res_bind_eq_ok] at h
    obtain ⟨_, h1, h2⟩ := h
    intro a ha
    rcases List.mem_cons.1 ha with rfl | ha
    · intro hc; rw [if_pos hc] at h1; cases h1
    · exact ih h2 a ha

theorem post_linked {g g' : Grid F R} (h : g.postDecompose = .ok g') : ∀ f ∈ g.faces, g.fZone f ≠ none := by
  unfold postDecompose at h
  rw [res_bind_eq_ok] at h
  obtain ⟨g1, h1, h2⟩ := h
  rw [res_bind_eq_ok] at h2
  obtain ⟨_, h2, _⟩ := h2
  have fr := linkZones_frame h1
  have := check_ok h2
  rwa [fr.faces, fr.fZone] at this

theorem random_any (g g' : Grid F R) (hw : Wf g) (rand : Nat → Nat) (count : Nat) (nm : Option Str)
    (hr : ∀ i, 0 < count → rand i < count) (h : g.decomposeRandom rand count nm = .ok g') : DecompOk g g' := by
  by_cases hc : 0 < count ∨ g.faces = []
  · obtain ⟨g2, h1, h2, _⟩ := random_spec g hw rand count nm (by
      intro i hi
      rcases hc with hc | hc
      · exact hr i hc
      · rw [hc] at hi; simp at hi)
    rw [h] at h1
    cases h1
    exact h2
  · exfalso
    have h0 : count = 0 := by omega
    obtain ⟨fz, c1, _⟩ := cleared_spec g hw nm
    unfold decomposeRandom at h
    rw [res_bind_eq_ok] at h
    obtain ⟨g1, h1, h⟩ := h
    have c1' : (cleared g nm g.fZone).unlinkFacesFromZones = .ok g1 := h1
    rw [c1] at c1'
    cases c1'
    simp only [h0, if_true, res_bind_eq_ok] at h
    obtain ⟨g2, h2, _⟩ := h
    cases hf : g.faces with
    | nil => exact hc (.inr hf)
    | cons f l =>
      have : ((cleared g nm fz).pushZones (numbered "random ".toList 0)).faces = f :: l := hf
      rw [this] at h2
      simp [List.zipIdx_cons] at h2

theorem linear_any (g g' : Grid F R) (hw : Wf g) (count : Int) (nm : Option Str)
    (h : g.decomposeLinear count nm = .ok g') : DecompOk g g' := by
  by_cases hc : 0 < count
  · obtain ⟨n, rfl⟩ : ∃ n : Nat, count = n := ⟨count.toNat, by omega⟩
    obtain ⟨g2, h1, h2, _⟩ := linear_spec g hw n (by omega) nm
    rw [h] at h1
    cases h1
    exact h2
  · have hn : count.toNat = 0 := by omega
    obtain ⟨fz, c1, c2⟩ := cleared_spec g hw nm
    unfold decomposeLinear at h
    simp only at h
    split at h
    · cases h
    · rw [res_bind_eq_ok] at h
      obtain ⟨g1, h1, h⟩ := h
      have c1' : (cleared g nm g.fZone).unlinkFacesFromZones = .ok g1 := h1
      rw [c1] at c1'
      cases c1'
      rw [hn] at h
      have hz : ((cleared g nm fz).pushZones (numbered "linear ".toList 0)) = cleared g nm fz := rfl
      rw [hz, show (cleared g nm fz).zones = [] from rfl] at h
      simp only [List.zipIdx_nil, List.foldlM_nil, res_pure, res_bind_ok] at h
      split at h
      · cases h
      · rename_i hl
        have hf : g.faces = [] := List.length_eq_zero_iff.1 (by
          have : ¬ (0 ≠ g.faces.length) := hl
          omega)
        obtain ⟨g2, r1, g3, r2, r3, _⟩ := renew_spec g hw nm fz c2 [] [] (by simp) (by simp [hf])
        simp only [List.foldlM_nil, res_pure] at r1
        cases r1
        have r2' : (cleared g nm fz).postDecompose = .ok g3 := r2
        rw [h] at r2'
        cases r2'
        exact r3

theorem farhat_any (g g' : Grid F R) (hw : Wf g) (count : Nat) (nm : Option Str) (names : List Str)
    (h : g.decomposeFarhat count nm names = .ok g') : DecompOk g g' := by
  obtain ⟨fz, u1, u2, u3⟩ := fixedCleared_spec g hw nm names
  by_cases hne : g.faces = []
  · exfalso
    unfold decomposeFarhat at h
    simp only [res_bind_eq_ok] at h
    obtain ⟨g1, h1, st, h2, _⟩ := h
    have u1' : (fixedCleared g nm names g.fZone).unlinkFacesFromZones = .ok g1 := by
      rw [← h1]; congr 1; unfold fixedCleared rename markFixed; simp only; rw [← keep_eq]
    rw [u1] at u1'
    cases u1'
    obtain ⟨zi, zm, zn, ze, zf, zx, p1, _⟩ :=
      (fixedCleared g nm names fz).pushZones_spec (Grid.numbered "farhat ".toList count)
    rw [p1] at h2
    have h2' : Py.get g.faces 0 = .ok st := h2
    rw [hne] at h2'
    cases h2'
  by_cases hc : 0 < count
  · obtain ⟨g2, h1, h2, _⟩ := farhat_spec g hw count hc hne nm names
    rw [h] at h1
    cases h1
    exact h2
  · obtain rfl : count = 0 := by omega
    unfold decomposeFarhat at h
    simp only [res_bind_eq_ok] at h
    obtain ⟨g1, h1, st, h2, ⟨g2, st'⟩, h3, h4⟩ := h
    have u1' : (fixedCleared g nm names g.fZone).unlinkFacesFromZones = .ok g1 := by
      rw [← h1]; congr 1; unfold fixedCleared rename markFixed; simp only; rw [← keep_eq]
    rw [u1] at u1'
    cases u1'
    have hz : ((fixedCleared g nm names fz).pushZones (numbered "farhat ".toList 0)) = fixedCleared g nm names fz := rfl
    rw [hz] at h3
    simp only [List.range_zero, List.map_nil, List.zip_nil_right, List.foldlM_nil, res_pure, Except.ok.injEq,
      Prod.mk.injEq] at h3
    rw [← h3.1] at h4
    have hl : ∀ f ∈ g.faces, fz f ≠ none := post_linked h4
    have hzo : ZonesOk (fixedCleared g nm names fz) := by
      refine ⟨hw.zones.zones_nodup.filter _, ?_, ?_⟩
      · have : g.faces.filter (fun f => fz f = none) = [] := by
          rw [List.filter_eq_nil_iff]; intro f hf; simpa using hl f hf
        rw [this, List.append_nil] at u3
        exact u3
      · intro z hz f hf
        have := (hw.zones.mem_iff (mem_kept.1 hz).1 f).1 hf
        exact (u2 f this.1 z).2 ⟨this.2, hz⟩
    obtain ⟨zn, ze, zi, f1, f2⟩ := finish (fixedCleared g nm names fz) (hw.mesh.congr (by constructor <;> rfl)) hzo
      (fun z hz => hw.alloc z (mem_kept.1 hz).1)
    rw [h4] at f1
    cases f1
    exact ⟨SameMesh.trans (by constructor <;> rfl) f2.same, f2.zones, f2.lists, f2.alloc, f2.ids⟩

theorem call_ok {S : Type} [LinearOrder S] (g g' : Grid F R) (hw : Wf g) (c : DecompCall S) (hp : c.Possible)
    (h : c.run g = .ok g') : DecompOk g g' := by
  cases c with
  | mono nm =>
    obtain ⟨g2, h1, h2, _⟩ := mono_spec g hw nm
    have h1' : g.decomposeMono nm = .ok g' := h
    rw [h1] at h1'
    cases h1'
    exact h2
  | random rand count nm => exact random_any g g' hw rand count nm hp h
  | linear count nm => exact linear_any g g' hw count nm h
  | farhat count nm fixed => exact farhat_any g g' hw count nm fixed h
  | hierarchical fns levels nm fixed => exact (hier_spec g g' hw fns levels nm fixed h).1

theorem SameMesh.gloIds {g g' : Grid F R} (h : SameMesh g g') (k : GloIds g) : GloIds g' := by
  refine ⟨?_, ?_, ?_⟩
  · rw [h.nodes, h.nGlo]; exact k.nodes
  · rw [h.edges, h.eGlo]; exact k.edges
  · rw [h.faces, h.fGlo]; exact k.faces

/-- Any sequence of decompositions. -/
theorem calls_ok {S : Type} [LinearOrder S] (cs : List (DecompCall S)) (hp : ∀ c ∈ cs, c.Possible) (g g' : Grid F R)
    (hw : Wf g) (hl : ZoneLists g) (h : cs.foldlM DecompCall.run g = .ok g') :
    SameMesh g g' ∧ Wf g' ∧ ZoneLists g' := by
  refine foldlM_partial _ cs (fun _ s => SameMesh g s ∧ Wf s ∧ ZoneLists s) g g' h ⟨SameMesh.refl g, hw, hl⟩ ?_
  rintro pre c post s s' hs ⟨h1, h2, _⟩ hr
  have := call_ok s s' h2 c (hp c (by rw [hs]; simp)) hr
  exact ⟨h1.trans this.same, this.wf h2.mesh, this.lists⟩

end Verif
