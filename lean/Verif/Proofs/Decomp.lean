import Verif.Proofs.Zones
import Mathlib.Data.List.Perm.Basic
import Mathlib.Data.List.Range

/-! Decompositions. -/

namespace Verif

variable {F R : Type}

theorem SameMesh.refl (g : Grid F R) : SameMesh g g := by constructor <;> rfl

theorem SameMesh.trans {a b c : Grid F R} (h1 : SameMesh a b) (h2 : SameMesh b c) : SameMesh a c := by
  constructor
  · exact h2.nodes.trans h1.nodes
  · exact h2.edges.trans h1.edges
  · exact h2.faces.trans h1.faces
  · exact h2.bag.trans h1.bag
  · exact h2.nGlo.trans h1.nGlo
  · exact h2.nP.trans h1.nP
  · exact h2.nKey.trans h1.nKey
  · exact h2.nEdges.trans h1.nEdges
  · exact h2.nFaces.trans h1.nFaces
  · exact h2.nBorder.trans h1.nBorder
  · exact h2.eGlo.trans h1.eGlo
  · exact h2.eNodes.trans h1.eNodes
  · exact h2.eFaces.trans h1.eFaces
  · exact h2.fGlo.trans h1.fGlo
  · exact h2.fData.trans h1.fData
  · exact h2.fNodes.trans h1.fNodes
  · exact h2.fEdges.trans h1.fEdges
  · exact h2.nNext.trans h1.nNext
  · exact h2.eNext.trans h1.eNext
  · exact h2.fNext.trans h1.fNext

theorem Mesh.congr {g g' : Grid F R} (h : SameMesh g g') (hm : Mesh g) : Mesh g' := by
  obtain ⟨h1, h2, h3, _, _, _, _, h4, h5, _, _, h6, h7, _, _, h8, h9⟩ := h
  constructor
  · rw [h1]; exact hm.nodes_nodup
  · rw [h2]; exact hm.edges_nodup
  · rw [h3]; exact hm.faces_nodup
  · rw [h1, h3, h8]; exact hm.face_nodes
  · rw [h2, h3, h9]; exact hm.face_edges
  · rw [h1, h2, h6]; exact hm.edge_nodes
  · rw [h2, h7]; exact hm.edge_faces
  · rw [h1, h5]; exact hm.node_faces_nodup
  · rw [h1, h4]; exact hm.node_edges_nodup
  · rw [h1, h3, h5, h8]; exact hm.node_face
  · rw [h1, h2, h4, h6]; exact hm.node_edge
  · rw [h2, h3, h7, h9]; exact hm.edge_face
  · rw [h3, h6, h8, h9]; exact hm.sides
  · rw [h3, h6, h8, h9]; exact hm.edge_in_face
  · rw [h2, h6]; exact hm.edge_unique

theorem ZonesOk.mem_iff {g : Grid F R} (h : ZonesOk g) {z : Nat} (hz : z ∈ g.zones) (f : Nat) :
    f ∈ g.zFaces z ↔ f ∈ g.faces ∧ g.fZone f = some z := by
  constructor
  · intro hf
    exact ⟨h.partition.mem_iff.1 (List.mem_flatMap.2 ⟨z, hz, hf⟩), h.points z hz f hf⟩
  · rintro ⟨hf, hfz⟩
    obtain ⟨z', hz', hf'⟩ := List.mem_flatMap.1 (h.partition.mem_iff.2 hf)
    have := h.points z' hz' f hf'
    rw [hfz] at this
    rw [Option.some.inj this]; exact hf'

theorem ZonesOk.pointsIn {g : Grid F R} (h : ZonesOk g) : g.PointsIn g.faces := by
  intro f hf
  obtain ⟨z', hz', hf'⟩ := List.mem_flatMap.1 (h.partition.mem_iff.2 hf)
  exact ⟨z', hz', h.points z' hz' f hf'⟩

/-- The final actions of a decomposition. -/
theorem finish (g : Grid F R) (hm : Mesh g) (hz : ZonesOk g) (ha : ZonesAlloc g) :
    ∃ zn ze zi, g.postDecompose = .ok { g with zNodes := zn, zEdges := ze, zId := zi } ∧
      DecompOk g { g with zNodes := zn, zEdges := ze, zId := zi } := by
  obtain ⟨zn, ze, zi, h1, h2, h3, h4⟩ := g.post_spec hm hz.zones_nodup hz.pointsIn
  refine ⟨zn, ze, zi, h1, ⟨by constructor <;> rfl, ⟨hz.zones_nodup, hz.partition, hz.points⟩, ⟨?_, ?_⟩, ha, h4⟩⟩
  · intro z hzz
    show zn z = _
    rw [h2 z hzz]
    apply List.filter_congr
    intro n hn
    rw [Bool.eq_iff_iff]
    simp only [List.any_eq_true, decide_eq_true_eq, List.contains_iff_mem]
    constructor
    · rintro ⟨f, hf, hfz⟩
      have := (hm.node_face n hn f).1 hf
      exact ⟨f, (hz.mem_iff hzz f).2 ⟨this.1, hfz⟩, this.2⟩
    · rintro ⟨f, hf, hnf⟩
      have := (hz.mem_iff hzz f).1 hf
      exact ⟨f, (hm.node_face n hn f).2 ⟨this.1, hnf⟩, this.2⟩
  · intro z hzz
    show ze z = _
    rw [h3 z hzz]
    apply List.filter_congr
    intro n hn
    rw [Bool.eq_iff_iff]
    simp only [List.any_eq_true, decide_eq_true_eq, List.contains_iff_mem]
    constructor
    · rintro ⟨f, hf, hfz⟩
      have := (hm.edge_face n hn f).1 hf
      exact ⟨f, (hz.mem_iff hzz f).2 ⟨this.1, hfz⟩, this.2⟩
    · rintro ⟨f, hf, hnf⟩
      have := (hz.mem_iff hzz f).1 hf
      exact ⟨f, (hm.edge_face n hn f).2 ⟨this.1, hnf⟩, this.2⟩

theorem DecompOk.wf {g g' : Grid F R} (hm : Mesh g) (h : DecompOk g g') : Wf g' :=
  ⟨hm.congr h.same, h.zones, h.alloc⟩

/-- Faces of zone objects `z`, collected from pairs (zone, face), are a permutation of the faces of the
pairs. -/
theorem flatMap_filter_perm (zs : List Nat) (pairs : List (Nat × Nat)) (hnd : zs.Nodup)
    (h : ∀ p ∈ pairs, p.1 ∈ zs) :
    (zs.flatMap (fun z => (pairs.filter (fun p => p.1 = z)).map (·.2))).Perm (pairs.map (·.2)) := by
  induction pairs with
  | nil => simp
  | cons p ps ih =>
    have ih' := ih (fun q hq => h q (by simp [hq]))
    have hp := h p (by simp)
    refine List.Perm.trans ?_ (List.Perm.cons p.2 ih')
    clear ih ih' h
    induction zs with
    | nil => simp at hp
    | cons z zs ih2 =>
      rw [List.nodup_cons] at hnd
      by_cases e : p.1 = z
      · subst e
        simp only [List.flatMap_cons, List.filter_cons, decide_true, if_true, List.map_cons, List.cons_append]
        apply List.Perm.cons
        apply List.Perm.append_left
        apply List.Perm.of_eq
        apply List.flatMap_congr
        intro z hz
        have : p.1 ≠ z := fun e => hnd.1 (e ▸ hz)
        simp [this]
      · have hp' : p.1 ∈ zs := by
          rcases List.mem_cons.1 hp with h | h
          · exact absurd h e
          · exact h
        rw [List.flatMap_cons, List.flatMap_cons, List.filter_cons_of_neg (by simpa using e)]
        exact (List.Perm.append_left _ (ih2 hnd.2 hp')).trans List.perm_middle

/-- Decomposition by an explicit assignment `pairs` of faces to new zones, keeping the zones of `g`. -/
theorem assign_spec (g : Grid F R) (hm : Mesh g) (names : List Str) (pairs : List (Nat × Nat))
    (hnd : g.zones.Nodup) (hal : ZonesAlloc g)
    (hkeep : ∀ z ∈ g.zones, ∀ f ∈ g.zFaces z, g.fZone f = some z)
    (hnew : ∀ p ∈ pairs, g.zNext ≤ p.1 ∧ p.1 < g.zNext + names.length)
    (hperm : (g.zones.flatMap g.zFaces ++ pairs.map (·.2)).Perm g.faces)
    (hold : ∀ p ∈ pairs, ∀ z, g.fZone p.2 = some z → p.2 ∈ g.zFaces z ∧ z < g.zNext) :
    ∃ g2, pairs.foldlM Grid.addPair (g.pushZones names) = .ok g2 ∧ ∃ g', g2.postDecompose = .ok g' ∧
      DecompOk g g' ∧ g'.name = g.name ∧ g'.zones = g.zones ++ List.range' g.zNext names.length ∧
      (∀ z ∈ g.zones, g'.zFaces z = g.zFaces z ∧ g'.zName z = g.zName z) ∧
      (∀ i nm, names[i]? = some nm → g'.zName (g.zNext + i) = nm) ∧
      (∀ z, g.zNext ≤ z → z < g.zNext + names.length →
        g'.zFaces z = (pairs.filter (fun p => p.1 = z)).map (·.2)) ∧
      (∀ p ∈ pairs, g'.fZone p.2 = some p.1) := by
  obtain ⟨zi, zm, zn, ze, zf, zx, p1, p2, p3, p4⟩ := g.pushZones_spec names
  have hfn : (g.zones.flatMap g.zFaces ++ pairs.map (·.2)).Nodup := hperm.nodup_iff.2 hm.faces_nodup
  have hdisj := (List.nodup_append.1 hfn).2.2
  obtain ⟨zf', fz', a1, a2, a3, a4, a5⟩ := Grid.addAll_spec pairs (fun z => g.zNext ≤ z ∧ z < g.zNext + names.length)
    (g.pushZones names) (by
      intro p hp z hz
      rw [p1] at hz ⊢
      obtain ⟨h1, h2⟩ := hold p hp z hz
      exact ⟨by show p.2 ∈ zf z; rw [(p2 z h2).2.1]; exact h1, by omega⟩) hnew (List.nodup_append.1 hfn).2.1
  refine ⟨_, a1, ?_⟩
  rw [p1] at *
  simp only at a2 a3 a4 a5
  have hkeepz : ∀ z ∈ g.zones, zf' z = g.zFaces z := by
    intro z hz
    have hlt := hal z hz
    rw [a3 z (by omega), (p2 z hlt).2.1]
    intro p hp hc
    have := (hold p hp z hc).1
    exact hdisj p.2 (List.mem_flatMap.2 ⟨z, hz, this⟩) p.2 (List.mem_map_of_mem hp) rfl
  have hnewz : ∀ z, g.zNext ≤ z → z < g.zNext + names.length →
      zf' z = (pairs.filter (fun p => p.1 = z)).map (·.2) := by
    intro z h1 h2
    rw [a2 z ⟨h1, h2⟩, (p4 z h1 h2).1, List.nil_append]
  let g2 : Grid F R := { g with
        zones := g.zones ++ List.range' g.zNext names.length, zId := zi, zName := zm, zNodes := zn,
        zEdges := ze, zFaces := zf', zFixed := zx, zNext := g.zNext + names.length, fZone := fz' }
  have hsame : SameMesh g g2 := by constructor <;> rfl
  have hzok : ZonesOk g2 := by
    refine ⟨?_, ?_, ?_⟩
    · refine List.nodup_append.2 ⟨hnd, List.nodup_range', ?_⟩
      intro a ha b hb e
      have := hal a ha
      have := List.mem_range'_1.1 hb
      omega
    · show ((g.zones ++ List.range' g.zNext names.length).flatMap zf').Perm g.faces
      rw [List.flatMap_append]
      refine List.Perm.trans (List.Perm.append ?_ ?_) hperm
      · exact List.Perm.of_eq (List.flatMap_congr hkeepz)
      · rw [List.flatMap_congr (g := fun z => (pairs.filter (fun p => p.1 = z)).map (·.2))
          (fun z hz => by have := List.mem_range'_1.1 hz; exact hnewz z this.1 this.2)]
        exact flatMap_filter_perm _ _ List.nodup_range' (fun p hp => List.mem_range'_1.2 (hnew p hp))
    · intro z hz f hf
      show fz' f = some z
      rcases List.mem_append.1 hz with h | h
      · have hf' : f ∈ g.zFaces z := by rw [← hkeepz z h]; exact hf
        rw [a5]
        · exact hkeep z h f hf'
        · intro hc
          exact hdisj f (List.mem_flatMap.2 ⟨z, h, hf'⟩) f hc rfl
      · have h' := List.mem_range'_1.1 h
        have hf' : f ∈ (pairs.filter (fun p => p.1 = z)).map (·.2) := by
          rw [← hnewz z h'.1 h'.2]; exact hf
        obtain ⟨p, hp, rfl⟩ := List.mem_map.1 hf'
        have := List.mem_filter.1 hp
        rw [a4 p this.1]; simpa using this.2
  have hal2 : ZonesAlloc g2 := by
    intro z hz
    show z < g.zNext + names.length
    rcases List.mem_append.1 hz with h | h
    · have := hal z h; omega
    · exact (List.mem_range'_1.1 h).2
  obtain ⟨zn', ze', zi', f1, f2⟩ := finish g2 (hm.congr hsame) hzok hal2
  refine ⟨_, f1, ⟨hsame.trans f2.same, f2.zones, f2.lists, f2.alloc, f2.ids⟩, rfl, rfl, ?_, p3, hnewz, a4⟩
  intro z hz
  exact ⟨hkeepz z hz, (p2 z (hal z hz)).1⟩


theorem foldlM_congr_inv {α β : Type _} (I : β → Prop) (f h : β → α → Res β) (l : List α) (s : β) (hI : I s)
    (he : ∀ s, ∀ a ∈ l, I s → f s a = h s a) (hs : ∀ s a s', I s → h s a = .ok s' → I s') :
    l.foldlM f s = l.foldlM h s := by
  induction l generalizing s with
  | nil => rfl
  | cons a l ih =>
    rw [List.foldlM_cons, List.foldlM_cons, he s a (by simp) hI]
    cases hh : h s a with
    | error e => rfl
    | ok s' => exact ih s' (hs s a s' hI hh) (fun s a ha => he s a (by simp [ha]))

theorem zoneAddFace_frame {g g' : Grid F R} {z f : Nat} (h : g.zoneAddFace z f = .ok g') :
    ∃ zf fz, g' = { g with zFaces := zf, fZone := fz } := by
  unfold Grid.zoneAddFace Grid.unlinkFromZone at h
  cases hz : g.fZone f with
  | none => simp [hz] at h; exact ⟨_, _, h.symm⟩
  | some z0 =>
    simp only [hz, ne_eq, reduceCtorEq, not_false_eq_true, if_true] at h
    by_cases hm : f ∈ g.zFaces z0
    · simp [Py.remove, hm] at h
      exact ⟨_, _, h.symm⟩
    · simp [Py.remove, hm] at h

theorem addPair_frame {g g' : Grid F R} {p : Nat × Nat} (h : g.addPair p = .ok g') :
    ∃ zf fz, g' = { g with zFaces := zf, fZone := fz } := zoneAddFace_frame h

/-- State of the grid after removing all zones and unlinking the faces. -/
def cleared (g : Grid F R) (nm : Option Str) (fz : Nat → Option Nat) : Grid F R :=
  { g with name := nm.getD g.name, zones := [], fZone := fz }

theorem Wf.loose {g : Grid F R} (hw : Wf g) : Loose g := by
  refine ⟨hw.mesh, fun f hf => ?_⟩
  obtain ⟨z, hz, hfz⟩ := hw.zones.pointsIn f hf
  exact ⟨z, hfz, hw.alloc z hz, fun _ => (hw.zones.mem_iff hz f).2 ⟨hf, hfz⟩⟩

instance {g : Grid F R} : Coe (Wf g) (Loose g) := ⟨Wf.loose⟩

theorem cleared_spec (g : Grid F R) (hw : Loose g) (nm : Option Str) :
    ∃ fz, Grid.unlinkFacesFromZones (cleared g nm g.fZone) = .ok (cleared g nm fz) ∧
      ∀ f ∈ g.faces, ∀ z, fz f = some z → f ∈ g.zFaces z ∧ z < g.zNext := by
  refine ⟨_, Grid.unlink_spec _ hw.mesh.faces_nodup ?_, ?_⟩
  · show ∀ f ∈ g.faces, g.fZone f ≠ none
    intro f hf
    obtain ⟨z, hz, _⟩ := hw.points f hf
    rw [hz]; simp
  · intro f hf z hz
    split at hz
    · simp at hz
    · rename_i hc
      replace hz : g.fZone f = some z := hz
      replace hc : ¬ (f ∈ g.faces ∧ ∃ z, g.fZone f = some z ∧ g.zFixed z = false) := hc
      obtain ⟨z', hfz', hlt, hin⟩ := hw.points f hf
      rw [hz] at hfz'
      cases hfz'
      refine ⟨hin ?_, hlt⟩
      cases hx : g.zFixed z with
      | true => rfl
      | false => exact absurd ⟨hf, z, hz, hx⟩ hc

theorem zipIdx_map_fst {α : Type _} (l : List α) (k : Nat) : (l.zipIdx k).map (·.1) = l := by
  induction l generalizing k with
  | nil => rfl
  | cons a l ih => rw [List.zipIdx_cons, List.map_cons, ih]

/-- Decomposition of a well-formed grid into new zones only. -/
theorem renew_spec (g : Grid F R) (hw : Loose g) (nm : Option Str) (fz : Nat → Option Nat)
    (hold : ∀ f ∈ g.faces, ∀ z, fz f = some z → f ∈ g.zFaces z ∧ z < g.zNext)
    (names : List Str) (pairs : List (Nat × Nat))
    (hnew : ∀ p ∈ pairs, g.zNext ≤ p.1 ∧ p.1 < g.zNext + names.length)
    (hperm : (pairs.map (·.2)).Perm g.faces) :
    ∃ g2, pairs.foldlM Grid.addPair
        (Grid.pushZones (cleared g nm fz) names) = .ok g2 ∧
      ∃ g', g2.postDecompose = .ok g' ∧
      DecompOk g g' ∧ g'.name = nm.getD g.name ∧ g'.zones = List.range' g.zNext names.length ∧
      (∀ i nm, names[i]? = some nm → g'.zName (g.zNext + i) = nm) ∧
      (∀ z, g.zNext ≤ z → z < g.zNext + names.length →
        g'.zFaces z = (pairs.filter (fun p => p.1 = z)).map (·.2)) ∧
      (∀ p ∈ pairs, g'.fZone p.2 = some p.1) := by
  obtain ⟨g2, h1, g', h2, h3, h4, h5, _, h7, h8, h9⟩ := assign_spec (cleared g nm fz)
    (hw.mesh.congr (by constructor <;> rfl)) names pairs (by simp [cleared]) (by intro z hz; simp [cleared] at hz)
    (by intro z hz; simp [cleared] at hz) hnew (by simpa [cleared] using hperm)
    (fun p hp z hz => hold p.2 (hperm.mem_iff.1 (List.mem_map_of_mem hp)) z hz)
  refine ⟨g2, h1, g', h2, ⟨?_, h3.zones, h3.lists, h3.alloc, h3.ids⟩, h4, ?_, h7, h8, h9⟩
  · exact SameMesh.trans (by constructor <;> rfl) h3.same
  · simpa [cleared] using h5

theorem mono_spec (g : Grid F R) (hw : Loose g) (nm : Option Str) :
    ∃ g', g.decomposeMono nm = .ok g' ∧ DecompOk g g' ∧ g'.name = nm.getD g.name ∧
      g'.zones = [g.zNext] ∧ g'.zName g.zNext = "mono".toList ∧ g'.zFaces g.zNext = g.faces := by
  obtain ⟨fz, u1, u2⟩ := cleared_spec g hw nm
  obtain ⟨g2, h1, g', h2, h3, h4, h5, h6, h7, h8⟩ := renew_spec g hw nm fz u2 ["mono".toList]
    (g.faces.map (fun f => (g.zNext, f))) (by simp) (by simp [Function.comp_def])
  refine ⟨g', ?_, h3, h4, by simpa using h5, by simpa using h6 0 _ rfl, ?_⟩
  · unfold Grid.decomposeMono
    show (Grid.unlinkFacesFromZones (cleared g nm g.fZone) >>= _) = _
    rw [u1, res_bind_ok]
    rw [List.foldlM_map] at h1
    show (List.foldlM (fun g' f => Grid.addPair g' (g.zNext, f)) (Grid.pushZones (cleared g nm fz) ["mono".toList])
      g.faces >>= _) = _
    rw [h1, res_bind_ok, h2]
  · rw [h7 g.zNext (Nat.le_refl _) (by simp)]
    simp [List.filter_map, Function.comp_def]

theorem numbered_length (pre : Str) (n : Nat) : (Grid.numbered pre n).length = n := by simp [Grid.numbered]

theorem numbered_get (pre : Str) (n i : Nat) (h : i < n) :
    (Grid.numbered pre n)[i]? = some (pre ++ Py.natStr i) := by simp [Grid.numbered, h]

theorem random_spec (g : Grid F R) (hw : Loose g) (rand : Nat → Nat) (count : Nat) (nm : Option Str)
    (hr : ∀ i, i < g.faces.length → rand i < count) :
    ∃ g', g.decomposeRandom rand count nm = .ok g' ∧ DecompOk g g' ∧ g'.name = nm.getD g.name ∧
      g'.zones = List.range' g.zNext count ∧
      (∀ i < count, g'.zName (g.zNext + i) = "random ".toList ++ Py.natStr i) ∧
      (∀ i f, g.faces[i]? = some f → g'.fZone f = some (g.zNext + rand i)) ∧
      (∀ i < count, g'.zFaces (g.zNext + i) = (g.faces.zipIdx.filter (fun p => rand p.2 = i)).map (·.1)) := by
  obtain ⟨fz, u1, u2⟩ := cleared_spec g hw nm
  have hlt : ∀ p ∈ g.faces.zipIdx, p.2 < g.faces.length := by
    intro p hp
    obtain ⟨f, i⟩ := p
    have := List.mem_zipIdx hp
    omega
  obtain ⟨g2, h1, g', h2, h3, h4, h5, h6, h7, h8⟩ := renew_spec g hw nm fz u2 (Grid.numbered "random ".toList count)
    (g.faces.zipIdx.map (fun p => (g.zNext + rand p.2, p.1))) (by
      rw [numbered_length]
      intro p hp
      obtain ⟨q, hq, rfl⟩ := List.mem_map.1 hp
      have := hr q.2 (hlt q hq)
      simp only; omega) (by
      rw [List.map_map]
      have : (fun (p : Nat × Nat) => p.2) ∘ (fun (p : Nat × Nat) => (g.zNext + rand p.2, p.1)) = (·.1) := rfl
      rw [this, zipIdx_map_fst])
  rw [numbered_length] at h5
  refine ⟨g', ?_, h3, h4, h5, fun i hi => h6 i _ (numbered_get _ _ _ hi), ?_, ?_⟩
  · unfold Grid.decomposeRandom
    show (Grid.unlinkFacesFromZones (cleared g nm g.fZone) >>= _) = _
    rw [u1, res_bind_ok]
    rw [List.foldlM_map] at h1
    let gp := Grid.pushZones (cleared g nm fz) (Grid.numbered "random ".toList count)
    obtain ⟨_, _, _, _, _, _, p1, _⟩ := Grid.pushZones_spec (Grid.numbered "random ".toList count)
      (cleared g nm fz)
    have hgz : gp.zones = List.range' g.zNext count := by
      show (Grid.pushZones _ _).zones = _
      rw [p1]
      simp [numbered_length, cleared]
    have hgf : gp.faces = g.faces := by
      show (Grid.pushZones _ _).faces = _
      rw [p1]; rfl
    show (List.foldlM _ gp gp.faces.zipIdx >>= _) = _
    rw [hgf, foldlM_congr_inv (fun s => s.zones = List.range' g.zNext count) _
      (fun (s : Grid F R) (p : Nat × Nat) => Grid.addPair s (g.zNext + rand p.2, p.1)) _ gp hgz ?_ ?_, h1, res_bind_ok, h2]
    · intro s p hp hs
      have := hr p.2 (hlt p hp)
      have h0 : count ≠ 0 := by omega
      rw [if_neg h0, get_ofNat, hs]
      simp [this, Grid.addPair]
    · intro s p s' hs hst
      obtain ⟨_, _, rfl⟩ := addPair_frame hst
      exact hs
  · intro i f hf
    exact h8 (g.zNext + rand i, f) (List.mem_map.2 ⟨(f, i), List.mem_zipIdx_iff_getElem?.2 hf, rfl⟩)
  · intro i hi
    rw [h7 (g.zNext + i) (by omega) (by rw [numbered_length]; omega), List.filter_map, List.map_map]
    have : (fun (p : Nat × Nat) => p.2) ∘ (fun (p : Nat × Nat) => (g.zNext + rand p.2, p.1)) = (·.1) := rfl
    rw [this]
    congr 1
    refine List.filter_congr (fun p _ => ?_)
    simp only [Function.comp_apply, decide_eq_decide]
    omega

/-! ### Linear decomposition -/

/-- The pairs (zone, face) of the linear decomposition. -/
def linPairs (faces : List Nat) (q r : Nat) : List Nat → Nat → Nat → List (Nat × Nat)
  | [], _, _ => []
  | z :: zs, k, cur =>
    let size := if k < r then q + 1 else q
    ((faces.drop cur).take size).map (fun f => (z, f)) ++ linPairs faces q r zs (k + 1) (cur + size)

/-- Total size of the zones number `k, k+1, ..., k+m-1`. -/
def linTotal (q r : Nat) : Nat → Nat → Nat
  | 0, _ => 0
  | m + 1, k => (if k < r then q + 1 else q) + linTotal q r m (k + 1)

theorem linTotal_eq (q r m k : Nat) : linTotal q r m k = m * q + (min r (k + m) - min r k) := by
  induction m generalizing k with
  | zero => simp [linTotal]
  | succ m ih =>
    rw [linTotal, ih, Nat.succ_mul]
    have : k + 1 + m = k + (m + 1) := by omega
    rw [this]
    split <;> omega

theorem segment_fold (g : Grid F R) (faces : List Nat) (hf : g.faces = faces) (z cur size : Nat)
    (h : cur + size ≤ faces.length) :
    (List.range' cur size).foldlM (fun (g : Grid F R) (j : Nat) => do
        let f ← Py.get g.faces (j : Int)
        g.zoneAddFace z f) g =
      (((faces.drop cur).take size).map (fun f => (z, f))).foldlM Grid.addPair g := by
  induction size generalizing g cur with
  | zero => simp
  | succ size ih =>
    have hlt : cur < faces.length := by omega
    rw [List.range'_succ, List.foldlM_cons, List.drop_eq_getElem_cons hlt, List.take_succ_cons, List.map_cons,
      List.foldlM_cons, get_ofNat, hf, List.getElem?_eq_getElem hlt]
    show (Grid.zoneAddFace g z faces[cur] >>= _) = (Grid.zoneAddFace g z faces[cur] >>= _)
    cases hz : Grid.zoneAddFace g z faces[cur] with
    | error e => rfl
    | ok g1 =>
      have hf1 : g1.faces = faces := by obtain ⟨_, _, rfl⟩ := zoneAddFace_frame hz; exact hf
      rw [res_bind_ok, res_bind_ok]
      exact ih g1 hf1 (cur + 1) (by omega)

theorem addPairs_frame (l : List (Nat × Nat)) {g g' : Grid F R} (h : l.foldlM Grid.addPair g = .ok g') :
    ∃ zf fz, g' = { g with zFaces := zf, fZone := fz } := by
  induction l generalizing g with
  | nil => simp at h; exact ⟨g.zFaces, g.fZone, h.symm⟩
  | cons p l ih =>
    rw [List.foldlM_cons, res_bind_eq_ok] at h
    obtain ⟨g1, h1, h2⟩ := h
    obtain ⟨_, _, rfl⟩ := addPair_frame h1
    obtain ⟨zf, fz, rfl⟩ := ih h2
    exact ⟨zf, fz, rfl⟩

theorem linear_fold (faces : List Nat) (q r : Nat) (zs : List Nat) (k cur : Nat) (g : Grid F R)
    (hf : g.faces = faces) (h : cur + linTotal q r zs.length k ≤ faces.length) :
    (zs.zipIdx k).foldlM (Grid.linearStep q r) (g, cur) =
      ((linPairs faces q r zs k cur).foldlM Grid.addPair g).map
        (fun g' => (g', cur + linTotal q r zs.length k)) := by
  induction zs generalizing k cur g with
  | nil => rfl
  | cons z zs ih =>
    rw [List.zipIdx_cons, List.foldlM_cons, linPairs, List.foldlM_append]
    simp only [List.length_cons, linTotal] at h ⊢
    have e1 : Grid.linearStep q r (g, cur) (z, k) = ((((faces.drop cur).take (if k < r then q + 1 else q)).map
        (fun f => (z, f))).foldlM Grid.addPair g).map (fun g' => (g', cur + (if k < r then q + 1 else q))) := by
      rw [← segment_fold g faces hf z cur _ (by omega)]
      unfold Grid.linearStep
      simp only
      cases List.foldlM (fun (g : Grid F R) (j : Nat) => do
        let f ← Py.get g.faces (j : Int)
        g.zoneAddFace z f) g (List.range' cur (if k < r then q + 1 else q)) <;> rfl
    rw [e1]
    cases hh : List.foldlM Grid.addPair g
      (((faces.drop cur).take (if k < r then q + 1 else q)).map (fun f => (z, f))) with
    | error e => rfl
    | ok g1 =>
      have hf1 : g1.faces = faces := by obtain ⟨_, _, rfl⟩ := addPairs_frame _ hh; exact hf
      rw [res_bind_ok]
      show List.foldlM _ (g1, _) _ = _
      rw [ih (k + 1) (cur + (if k < r then q + 1 else q)) g1 hf1 (by omega), Nat.add_assoc]

theorem filter_const_map (z : Nat) (l : List Nat) :
    ((l.map (fun f => (z, f))).filter (fun p => p.1 = z)).map (·.2) = l := by
  induction l with
  | nil => rfl
  | cons a l ih => simp only [List.map_cons, List.filter_cons, decide_true, if_true, ih]

theorem linPairs_zone (faces : List Nat) (q r : Nat) (zs : List Nat) (k cur : Nat) :
    ∀ p ∈ linPairs faces q r zs k cur, p.1 ∈ zs := by
  induction zs generalizing k cur with
  | nil => simp [linPairs]
  | cons z zs ih =>
    intro p hp
    rw [linPairs] at hp
    rcases List.mem_append.1 hp with h | h
    · obtain ⟨f, _, rfl⟩ := List.mem_map.1 h
      simp
    · exact List.mem_cons_of_mem _ (ih _ _ p h)

theorem linPairs_faces (faces : List Nat) (q r : Nat) (zs : List Nat) (k cur : Nat) :
    (linPairs faces q r zs k cur).map (·.2) = (faces.drop cur).take (linTotal q r zs.length k) := by
  induction zs generalizing k cur with
  | nil => simp [linPairs, linTotal]
  | cons z zs ih =>
    simp only [linPairs, List.map_append, ih, List.length_cons, linTotal, List.map_map]
    rw [List.take_add, List.drop_drop]
    congr 1
    exact List.map_id _

/-- Faces of the zone at position `i`. -/
theorem linPairs_filter (faces : List Nat) (q r : Nat) (zs : List Nat) (hnd : zs.Nodup) (k cur i z : Nat)
    (hz : zs[i]? = some z) :
    ((linPairs faces q r zs k cur).filter (fun p => p.1 = z)).map (·.2) =
      (faces.drop (cur + linTotal q r i k)).take (if k + i < r then q + 1 else q) := by
  induction zs generalizing k cur i with
  | nil => simp at hz
  | cons z0 zs ih =>
    rw [List.nodup_cons] at hnd
    rw [linPairs, List.filter_append, List.map_append]
    cases i with
    | zero =>
      simp at hz; subst hz
      have h2 : (linPairs faces q r zs (k + 1) (cur + (if k < r then q + 1 else q))).filter (fun p => p.1 = z0) = [] := by
        rw [List.filter_eq_nil_iff]
        intro p hp
        have := linPairs_zone faces q r zs _ _ p hp
        simp only [decide_eq_true_eq]
        rintro rfl; exact hnd.1 this
      rw [h2]
      rw [filter_const_map]
      simp [linTotal]
    | succ i =>
      have hz' : zs[i]? = some z := by simpa using hz
      have hne : z0 ≠ z := by
        rintro rfl; exact hnd.1 (List.mem_of_getElem? hz')
      rw [ih hnd.2 _ _ i hz']
      simp only [List.filter_map, Function.comp_def, hne, linTotal]
      simp only [decide_false, List.filter_false, List.map_nil, List.nil_append]
      have e : k + 1 + i = k + (i + 1) := by omega
      rw [e, Nat.add_assoc]

theorem linear_spec (g : Grid F R) (hw : Loose g) (n : Nat) (hn : 0 < n) (nm : Option Str) :
    ∃ g', g.decomposeLinear n nm = .ok g' ∧ DecompOk g g' ∧ g'.name = nm.getD g.name ∧
      g'.zones = List.range' g.zNext n ∧
      (∀ i < n, g'.zName (g.zNext + i) = "linear ".toList ++ Py.natStr i) ∧
      (∀ i < n, g'.zFaces (g.zNext + i) = (g.faces.drop (linTotal (g.faces.length / n) (g.faces.length % n) i 0)).take
        (if i < g.faces.length % n then g.faces.length / n + 1 else g.faces.length / n)) ∧
      (g'.zones.flatMap g'.zFaces) = g.faces := by
  obtain ⟨fz, u1, u2⟩ := cleared_spec g hw nm
  have hmod : g.faces.length % n < n := Nat.mod_lt _ hn
  have htot : linTotal (g.faces.length / n) (g.faces.length % n) n 0 = g.faces.length := by
    rw [linTotal_eq]
    have h1 := Nat.div_add_mod g.faces.length n
    have : min (g.faces.length % n) (0 + n) - min (g.faces.length % n) 0 = g.faces.length % n := by omega
    rw [this]; exact h1
  let zs := List.range' g.zNext n
  let pairs := linPairs g.faces (g.faces.length / n) (g.faces.length % n) zs 0 0
  have hzl : zs.length = n := by simp [zs]
  have hpf : pairs.map (·.2) = g.faces := by
    show (linPairs _ _ _ _ _ _).map _ = _
    rw [linPairs_faces, hzl, htot]; simp
  obtain ⟨g2, h1, g', h2, h3, h4, h5, h6, h7, h8⟩ := renew_spec g hw nm fz u2 (Grid.numbered "linear ".toList n)
    pairs (by
      rw [numbered_length]
      intro p hp
      exact List.mem_range'_1.1 (linPairs_zone _ _ _ _ _ _ p hp)) (by rw [hpf])
  rw [numbered_length] at h5 h7
  have hlists : ∀ i < n, g'.zFaces (g.zNext + i) = (g.faces.drop (linTotal (g.faces.length / n) (g.faces.length % n) i 0)).take
        (if i < g.faces.length % n then g.faces.length / n + 1 else g.faces.length / n) := by
    intro i hi
    rw [h7 (g.zNext + i) (by omega) (by omega), linPairs_filter _ _ _ _ List.nodup_range' 0 0 i _ (by simp [hi])]
    simp
  refine ⟨g', ?_, h3, h4, h5, fun i hi => h6 i _ (numbered_get _ _ _ hi), hlists, ?_⟩
  · unfold Grid.decomposeLinear
    have h0 : ((n : Nat) : Int) ≠ 0 := by omega
    simp only [h0, if_false, Int.toNat_natCast]
    show (Grid.unlinkFacesFromZones (cleared g nm g.fZone) >>= _) = _
    rw [u1, res_bind_ok]
    let gp := Grid.pushZones (cleared g nm fz) (Grid.numbered "linear ".toList n)
    obtain ⟨_, _, _, _, _, _, p1, _⟩ := Grid.pushZones_spec (Grid.numbered "linear ".toList n) (cleared g nm fz)
    have hgz : gp.zones = zs := by
      show (Grid.pushZones _ _).zones = _
      rw [p1]
      simp [numbered_length, cleared, zs]
    have hgf : gp.faces = g.faces := by
      show (Grid.pushZones _ _).faces = _
      rw [p1]; rfl
    show (List.foldlM (Grid.linearStep (g.faces.length / n) (g.faces.length % n)) (gp, 0) gp.zones.zipIdx >>= _) = _
    rw [hgz, linear_fold g.faces _ _ zs 0 0 gp hgf (by rw [hzl, htot]; omega), h1]
    show (if 0 + linTotal _ _ zs.length 0 ≠ g.faces.length then _ else _) = _
    rw [hzl, htot]
    simpa using h2
  · rw [h5]
    have : ∀ z ∈ zs, g'.zFaces z = (pairs.filter (fun p => p.1 = z)).map (·.2) := fun z hz => by
      have := List.mem_range'_1.1 hz
      exact h7 z this.1 this.2
    rw [List.flatMap_congr this, ← hpf]
    suffices H : ∀ (zs : List Nat) (k cur : Nat), zs.Nodup → zs.flatMap (fun z =>
        ((linPairs g.faces (g.faces.length / n) (g.faces.length % n) zs k cur).filter (fun p => p.1 = z)).map (·.2)) =
        (linPairs g.faces (g.faces.length / n) (g.faces.length % n) zs k cur).map (·.2) from
      H zs 0 0 List.nodup_range'
    intro zs
    induction zs with
    | nil => intros; rfl
    | cons z zs ih =>
      intro k cur hnd
      rw [List.nodup_cons] at hnd
      rw [List.flatMap_cons]
      simp only [linPairs, List.filter_append, List.map_append]
      rw [← ih (k + 1) _ hnd.2]
      have e1 : (linPairs g.faces (g.faces.length / n) (g.faces.length % n) zs (k + 1)
          (cur + (if k < g.faces.length % n then g.faces.length / n + 1 else g.faces.length / n))).filter
          (fun p => p.1 = z) = [] := by
        rw [List.filter_eq_nil_iff]
        intro p hp
        have := linPairs_zone _ _ _ zs _ _ p hp
        simp only [decide_eq_true_eq]
        rintro rfl; exact hnd.1 this
      rw [e1]
      have e2 : ∀ z' ∈ zs, (List.filter (fun p => decide (p.1 = z')) (((g.faces.drop cur).take
          (if k < g.faces.length % n then g.faces.length / n + 1 else g.faces.length / n)).map (fun f => (z, f)))) = [] := by
        intro z' hz'
        rw [List.filter_eq_nil_iff]
        intro p hp
        obtain ⟨f, _, rfl⟩ := List.mem_map.1 hp
        simp only [decide_eq_true_eq]
        rintro rfl; exact hnd.1 hz'
      rw [List.flatMap_congr (fun z' hz' => by rw [e2 z' hz', List.map_nil, List.nil_append]), filter_const_map]
      simp [Function.comp_def]

end Verif
