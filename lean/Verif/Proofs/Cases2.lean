import Verif.Proofs.Cases
import Verif.Proofs.Farhat

/-! Helper lemmas for `case_002_decompose`: what each method does with a loaded grid. -/

namespace Verif
namespace Cases
variable {F R S : Type} [DecidableEq R]
open Grid

/-- The names of the zones that are kept. -/
abbrev fixedNames : List Str := ["POS1".toList, "POS2".toList]

omit [DecidableEq R] in
theorem contents_names (rc : Vec F → R) (b : List (ZoneBlock F)) : (contents rc b).map Prod.fst = b.map (·.name) := by
  unfold contents
  rw [List.map_map]
  rfl

omit [DecidableEq R] in
theorem gridContents_names (rc : Vec F → R) (g : Grid F R) : (gridContents rc g).map Prod.fst = g.zones.map g.zName := by
  unfold gridContents
  rw [List.map_map]
  rfl

omit [DecidableEq R] in
theorem names_eq {rc : Vec F → R} {b' : List (ZoneBlock F)} {g' : Grid F R} (h : contents rc b' = gridContents rc g') :
    b'.map (·.name) = g'.zones.map g'.zName := by
  rw [← contents_names rc, h, gridContents_names]

omit [DecidableEq R] in
theorem names_numbered {g' : Grid F R} {z n : Nat} {s : Str} (hz : g'.zones = List.range' z n)
    (hn : ∀ i < n, g'.zName (z + i) = s ++ Py.natStr i) : g'.zones.map g'.zName = (List.range n).map (fun i => s ++ Py.natStr i) := by
  rw [hz, List.range'_eq_map_range, List.map_map]
  exact List.map_congr_left fun i hi => hn i (List.mem_range.1 hi)

omit [DecidableEq R] in
theorem plain_numbered {g' : Grid F R} {z n : Nat} {s : Str} (hs : PlainName s) (hz : g'.zones = List.range' z n)
    (hn : ∀ i < n, g'.zName (z + i) = s ++ Py.natStr i) : ∀ w ∈ g'.zones, PlainName (g'.zName w) := by
  intro w hw
  rw [hz, List.mem_range'_1] at hw
  obtain ⟨i, rfl⟩ := Nat.exists_eq_add_of_le hw.1
  rw [hn i (by omega)]
  exact plain_nat s hs i

theorem tris_order {rc : Vec F → R} {blocks b' : List (ZoneBlock F)} {g0 g g' : Grid F R} (L : Loaded rc true blocks g0 g)
    (m : SameMesh g g') (h : contents rc b' = gridContents rc g') (ho : g'.zones.flatMap g'.zFaces = g.faces) :
    allTris rc b' = allTris rc blocks := by
  rw [allTris_contents, allTris_contents, h, ← loaded_contents L, gridContents_tris, gridContents_tris, m.fData, m.fNodes, m.nP, ho,
    ← L.order]

theorem pos_contents {rc : Vec F → R} {blocks : List (ZoneBlock F)} {g0 g : Grid F R} (L : Loaded rc true blocks g0 g) :
    contents rc (posZones blocks) = (keptZones g fixedNames).map
      (fun z => (g.zName z, (g.zFaces z).map (fun f => (g.fData f, (g.fNodes f).map (fun n => some (rc (g.nP n))))))) := by
  have h1 : contents rc (posZones blocks) = (contents rc blocks).filter (fun p => decide (p.1 ∈ fixedNames)) := by
    unfold contents posZones
    rw [List.filter_map]
    rfl
  rw [h1, ← loaded_contents L]
  unfold gridContents keptZones
  rw [List.filter_map]
  rfl

theorem kept_length {rc : Vec F → R} {blocks : List (ZoneBlock F)} {g0 g : Grid F R} (L : Loaded rc true blocks g0 g) :
    (posZones blocks).length = (keptZones g fixedNames).length := by
  have := congrArg List.length (pos_contents L)
  unfold contents at this
  simpa using this

section
variable {rc : Vec F → R} {blocks : List (ZoneBlock F)} {g0 g : Grid F R}

theorem dec_mono (L : Loaded rc true blocks g0 g) (nm : Str) :
    ∃ g', g.decomposeMono (some nm) = .ok g' ∧ Decomposed rc "mono".toList nm blocks g g' := by
  obtain ⟨g', a1, a2, a3, a4, a5, a6⟩ := mono_spec g L.wf (some nm)
  refine ⟨g', a1, a2, a3, ?_, ?_⟩
  · intro z hz
    rw [a4, List.mem_singleton] at hz
    rw [hz, a5]
    decide
  · intro b' hb
    refine ⟨fun _ => ?_, fun h => absurd h (by decide), fun h => absurd h (by decide), fun h => absurd h (by decide), fun h => absurd h (by decide)⟩
    have ho := tris_order L a2.same hb (by rw [a4]; simpa using a6)
    have := names_eq hb
    rw [a4] at this
    simp only [List.map_cons, List.map_nil, a5] at this
    obtain ⟨b, rfl⟩ : ∃ b, b' = [b] := List.length_eq_one_iff.1 (by simpa using congrArg List.length this)
    simp only [List.map_cons, List.map_nil, List.cons.injEq, and_true] at this
    unfold contents
    rw [← ho, ← this]
    simp [allTris]

theorem dec_random (L : Loaded rc true blocks g0 g) (nm : Str) (rand : Nat → Nat) (hr : ∀ i, rand i < 32) :
    ∃ g', g.decomposeRandom rand 32 (some nm) = .ok g' ∧ Decomposed rc "random".toList nm blocks g g' := by
  obtain ⟨g', a1, a2, a3, a4, a5, -⟩ := random_spec g L.wf rand 32 (some nm) (fun i _ => hr i)
  refine ⟨g', a1, a2, a3, plain_numbered (by decide) a4 a5, ?_⟩
  intro b' hb
  refine ⟨fun h => absurd h (by decide), fun _ => ?_, fun h => absurd h (by decide), fun h => absurd h (by decide), fun h => absurd h (by decide)⟩
  rw [names_eq hb, names_numbered a4 a5]

theorem dec_linear (L : Loaded rc true blocks g0 g) (nm : Str) :
    ∃ g', g.decomposeLinear 32 (some nm) = .ok g' ∧ Decomposed rc "linear".toList nm blocks g g' := by
  obtain ⟨g', a1, a2, a3, a4, a5, -, a6⟩ := linear_spec g L.wf 32 (by omega) (some nm)
  refine ⟨g', a1, a2, a3, plain_numbered (by decide) a4 a5, ?_⟩
  intro b' hb
  refine ⟨fun h => absurd h (by decide), fun h => absurd h (by decide), fun _ => ?_, fun h => absurd h (by decide), fun h => absurd h (by decide)⟩
  exact ⟨by rw [names_eq hb, names_numbered a4 a5], tris_order L a2.same hb a6⟩

theorem loaded_plain {c : Codec F} {text title : Str} {vars : List Str} (h : GoodFile rc c text title vars blocks)
    (L : Loaded rc true blocks g0 g) : ∀ z ∈ g.zones, PlainName (g.zName z) := by
  intro z hz
  obtain ⟨b, hb, hr⟩ := forall₂_right L.rep hz
  rw [hr.name]; exact h.plain_names b hb

theorem dec_farhat {c : Codec F} {text title : Str} {vars : List Str} (h : GoodFile rc c text title vars blocks)
    (L : Loaded rc true blocks g0 g) (hne : g.faces ≠ []) (nm : Str) :
    ∃ g', g.decomposeFarhat 32 (some nm) fixedNames = .ok g' ∧ Decomposed rc "farhat".toList nm blocks g g' := by
  obtain ⟨g', a1, a2, a3, a4, a5, a6, -⟩ := farhat_spec g L.wf 32 (by omega) hne (some nm) fixedNames
  refine ⟨g', a1, a2, a3, ?_, ?_⟩
  · intro z hz
    rw [a4, List.mem_append] at hz
    rcases hz with hz | hz
    · rw [(a5 z hz).2]
      exact loaded_plain h L z (mem_kept.1 hz).1
    · rw [List.mem_range'_1] at hz
      obtain ⟨i, rfl⟩ := Nat.exists_eq_add_of_le hz.1
      rw [a6 i (by omega)]
      exact plain_nat _ (by decide) i
  · intro b' hb
    refine ⟨fun h => absurd h (by decide), fun h => absurd h (by decide), fun h => absurd h (by decide), fun h => absurd h (by decide), fun _ => ?_⟩
    refine ⟨b'.drop (posZones blocks).length, (List.take_append_drop _ _).symm, ?_, ?_⟩
    · have : contents rc (b'.take (posZones blocks).length) = (contents rc b').take (posZones blocks).length := by
        unfold contents; rw [List.map_take]
      rw [this, hb, kept_length L, pos_contents L]
      unfold gridContents
      rw [a4, List.map_append, List.take_append_of_le_length (by simp), List.take_of_length_le (by simp)]
      apply List.map_congr_left
      intro z hz
      rw [(a5 z hz).1, (a5 z hz).2, a2.same.fData, a2.same.fNodes, a2.same.nP]
    · rw [List.map_drop, names_eq hb, a4, List.map_append, kept_length L, List.drop_append_of_le_length (by simp),
        List.drop_of_length_le (by simp), List.nil_append, List.range'_eq_map_range, List.map_map]
      exact List.map_congr_left fun i hi => a6 i (List.mem_range.1 hi)

theorem dec_hier [LinearOrder S] {c : Codec F} {text title : Str} {vars : List Str} (h : GoodFile rc c text title vars blocks)
    (L : Loaded rc true blocks g0 g) (nm : Str) (fns : List (Nat → S)) {g' : Grid F R}
    (hg : g.decomposeHierarchical fns 6 (some nm) fixedNames = .ok g') : Decomposed rc "hierarchical".toList nm blocks g g' := by
  obtain ⟨a2, a3, a4, a5, -⟩ := hier_spec g g' L.wf fns 6 (some nm) fixedNames hg
  obtain ⟨n1, -⟩ := hier_names g g' L.wf fns 6 (some nm) fixedNames hg
  refine ⟨a2, a3, ?_, ?_⟩
  · intro z hz
    by_cases hk : z ∈ keptZones g fixedNames
    · rw [(a4 z hk).2.2]
      exact loaded_plain h L z (mem_kept.1 hk).1
    · exact (n1.path z hz hk).plain
  · intro b' hb
    refine ⟨fun h => absurd h (by decide), fun h => absurd h (by decide), fun h => absurd h (by decide), fun _ => ⟨?_, ?_⟩, fun h => absurd h (by decide)⟩
    · intro b hbm
      have : (b.name, b.tris rc) ∈ contents rc (posZones blocks) := List.mem_map.2 ⟨b, hbm, rfl⟩
      rw [pos_contents L, List.mem_map] at this
      obtain ⟨z, hz, e⟩ := this
      rw [← e, hb]
      refine List.mem_map.2 ⟨z, (a4 z hz).1, ?_⟩
      rw [(a4 z hz).2.1, (a4 z hz).2.2, a2.same.fData, a2.same.fNodes, a2.same.nP]
    · have hl : b'.length = g'.zones.length := by
        have := congrArg List.length (names_eq hb)
        simpa using this
      have hd : (g'.zones.filter (fun z => decide (z ∈ keptZones g fixedNames))).length ≤ (keptZones g fixedNames).length := by
        refine (List.Nodup.subperm (a2.zones.zones_nodup.filter _) ?_).length_le
        intro z hz
        simpa using (List.mem_filter.1 hz).2
      have hs := List.length_eq_length_filter_add (l := g'.zones) (fun z => decide (z ∈ keptZones g fixedNames))
      rw [hl, kept_length L, hs]
      have : (g'.zones.filter (fun z => !decide (z ∈ keptZones g fixedNames))).length ≤ 32 := by
        refine le_trans (le_of_eq ?_) a5
        congr 1
        apply List.filter_congr
        intro z _
        simp
      omega

end

end Cases
end Verif
