import Verif.Spec.Crys
import Verif.Proofs.Mpi

/-! Lemmas on the exchange between processes. -/

namespace Verif
open Crys
variable {F R : Type} {g : Grid F R}

/-- The face of the edge that is in the zone. -/
def faceIn (g : Grid F R) (z e : Nat) : Nat := ((g.eFaces e).find? (fun f => decide (g.fZone f = some z))).getD 0

theorem faceIn_between {zi zj e a b : Nat} (hz : zi ≠ zj) (h : g.eFaces e = [a, b] ∨ g.eFaces e = [b, a]) (ha : g.fZone a = some zi)
    (hb : g.fZone b = some zj) : faceIn g zi e = a ∧ faceIn g zj e = b := by
  have h1 : ¬ zj = zi := fun h => hz h.symm
  rcases h with h | h <;> simp [faceIn, h, ha, hb, hz, h1]

theorem marked_eq (hw : Wf g) {z f : Nat} (hz : z ∈ g.zones) (hf : f ∈ g.faces) :
    marked g z f = .num (g.zId z) ↔ g.fZone f = some z := by
  unfold marked
  constructor
  · intro h
    split_ifs at h with h1
    · exact hw.zones.points z hz f h1
    · unfold zoneVal at h
      split at h <;> cases h
  · intro h
    rw [if_pos (hw.zone_faces hz hf h)]

theorem realFace_ok (hw : Wf g) (hl : ZoneLists g) {zi zj e : Nat} (hz : zi ∈ g.zones) (hne : zi ≠ zj) (he : e ∈ g.edges)
    (hb : Between g zi zj e) :
    realFace g (marked g zi) zi ((g.zEdges zi).idxOf e : Int) = .ok (faceIn g zi e) ∧
    ghostFace g (marked g zi) zi ((g.zEdges zi).idxOf e : Int) = .ok (faceIn g zj e) := by
  obtain ⟨a, b, hab, h1, h2⟩ := hb
  have ha : a ∈ g.eFaces e := by rcases hab with h | h <;> simp [h]
  have hb : b ∈ g.eFaces e := by rcases hab with h | h <;> simp [h]
  obtain ⟨ha1, ha2⟩ := (hw.mesh.edge_face e he a).1 ha
  obtain ⟨hb1, hb2⟩ := (hw.mesh.edge_face e he b).1 hb
  have hm : e ∈ g.zEdges zi := (hl.mem_edges hz e).2 ⟨he, a, hw.zone_faces hz ha1 h1, ha2⟩
  obtain ⟨f1, f2⟩ := faceIn_between hne hab h1 h2
  have m1 : marked g zi a = .num (g.zId zi) := (marked_eq hw hz ha1).2 h1
  have m2 : marked g zi b ≠ .num (g.zId zi) := fun h => by
    rw [marked_eq hw hz hb1, h2] at h
    exact hne (Option.some.inj h).symm
  have hg : Py.get (g.zEdges zi) ((g.zEdges zi).idxOf e : Int) = .ok e := by
    rw [get_ofNat, List.getElem?_idxOf hm]
  unfold realFace ghostFace
  rw [hg]
  simp only [res_bind_ok]
  rcases hab with h | h <;> simp [h, m1, m2, f1, f2]

theorem isConnect_mem {zi zj e : Nat} (h : e ∈ g.edges.filter (fun e => g.isConnectZones e zi zj)) : e ∈ g.edges ∧ Between g zi zj e := by
  rw [List.mem_filter, connect_iff] at h
  exact h

/-- Edges between two zones. -/
def common (g : Grid F R) (zi zj : Nat) : List Nat := g.edges.filter (fun e => g.isConnectZones e zi zj)

theorem common_symm (zi zj : Nat) : common g zi zj = common g zj zi := by
  unfold common
  congr 1
  funext e
  exact connect_symm e zi zj

/-- The borders of a process. -/
def bordersOf (g : Grid F R) (i : Nat) : List (Nat × List Int) :=
  (neighbours g i).map (fun j => (j, borderIds g ((g.zones[i]?).getD 0) ((g.zones[j]?).getD 0)))

theorem mpiBorders_ok (hw : Wf g) (hl : ZoneLists g) (hg : GloPerm g) {i z : Nat} (hi : g.zones[i]? = some z) :
    mpiBorders g ⟨g.zones.length, tab g.zones.length (edgesBetween g)⟩ i z = .ok (bordersOf g i) := by
  have hz : z ∈ g.zones := List.mem_of_getElem? hi
  have hil := (List.getElem?_eq_some_iff.1 hi).1
  have ze : ∀ n ∈ g.zEdges z, n ∈ g.edges := fun n h => ((hl.mem_edges hz n).1 h).1
  obtain ⟨eids, k1, k2, k3⟩ := number_spec g.eGlo (List.replicate g.edges.length (-1)) (g.zEdges z)
    (by rw [hl.edges z hz]; exact hw.mesh.edges_nodup.filter _)
    (fun a ha b hb h => hg.edge_inj (ze a ha) (ze b hb) h)
    (fun a ha => by rw [List.length_replicate]; exact hg.edge_lt (ze a ha))
  have hpos := crossArray_pos g.zones.length (edgesBetween g) i hil
  unfold mpiBorders
  rw [k1, res_bind_ok, mapM_ok (g.borderList eids z) (fun p => (p.2, borderIds g z ((g.zones[p.2]?).getD 0))), hpos, List.map_map]
  · unfold bordersOf
    rw [hi]; rfl
  · intro p hp
    rw [hpos] at hp
    obtain ⟨j, hj, rfl⟩ := List.mem_map.1 hp
    rw [List.mem_filter, List.mem_range] at hj
    obtain ⟨zj, hzj⟩ : ∃ zj, g.zones[j]? = some zj := ⟨_, List.getElem?_eq_getElem hj.1⟩
    unfold Grid.borderList
    simp only [get_ofNat, hzj, res_bind_ok, Option.getD_some]
    rw [localIds_ok g.eGlo eids (g.zEdges z) _ k3 (fun o ho => (List.mem_filter.1 ho).1), res_bind_ok, connect_edges hw hl hz]
    rfl

theorem startProc_ok (hw : Wf g) (hl : ZoneLists g) (hg : GloPerm g) {i z : Nat} (hi : g.zones[i]? = some z) (vars : List Str) :
    startProc g vars i = if bordersOf g i = [] then .error .value else .ok ⟨g, marked g z, z, bordersOf g i, [], [], vars, none⟩ := by
  unfold startProc
  rw [make_spec g g.edges g.zones hw.edgesIn, res_bind_ok, get_ofNat, hi]
  show (mpiBorders g ⟨g.zones.length, tab g.zones.length (edgesBetween g)⟩ i z >>= _) = _
  rw [mpiBorders_ok hw hl hg hi, res_bind_ok]

theorem neighbours_symm (hw : Wf g) {i j : Nat} (hi : i < g.zones.length) (h : j ∈ neighbours g i) : i ∈ neighbours g j ∧ j < g.zones.length ∧ j ≠ i := by
  have hj : j < g.zones.length := by
    unfold neighbours at h
    exact List.mem_range.1 (List.mem_filter.1 h).1
  have h1 := List.getElem?_eq_getElem hi
  have h2 := List.getElem?_eq_getElem hj
  rw [mem_neighbours hw h1 h2] at h
  rw [mem_neighbours hw h2 h1]
  obtain ⟨h3, e, he, a, b, hab, ha, hb⟩ := h
  exact ⟨⟨h3.symm, e, he, b, a, hab.symm, hb, ha⟩, hj, h3⟩

theorem neighbours_nodup (i : Nat) : (neighbours g i).Nodup := List.nodup_range.filter _

end Verif
