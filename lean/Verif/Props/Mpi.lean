import Verif.Proofs.Mpi
import Verif.Proofs.PyLemmas
import Verif.Proofs.Sample

/-! Properties C18 - C21: the files written by `store_mpi`.  The hypotheses `Wf`, `ZoneLists`, `GloPerm` are those
established for every loaded grid after any sequence of decompositions by `C04_frame`, `C05_history`, `C06_history`. -/

namespace Verif.Props
open Verif Grid
variable {F R : Type}

/-! ## C18 Border lists match -/

/-- Zone `i` lists a border with zone `j` exactly when the zones are different and there is an edge between them;
in particular the relation is symmetric.  No neighbour is listed twice. -/
theorem C18_border_iff (g : Grid F R) (hw : Wf g) (hl : ZoneLists g) (hg : GloPerm g) (dflt : F) (files : List (MpiFile F))
    (h : g.storeMpi dflt = .ok files) (i j zi zj : Nat) (hi : g.zones[i]? = some zi) (hj : g.zones[j]? = some zj) :
    ∃ fi, files[i]? = some fi ∧ ((∃ l, (j, l) ∈ fi.borders) ↔ i ≠ j ∧ ∃ e ∈ g.edges, Between g zi zj e) ∧
      (fi.borders.map Prod.fst).Nodup := by
  refine ⟨_, file_get hw hl hg h hi, ?_, ?_⟩
  · constructor
    · rintro ⟨l, hm⟩
      have := (mem_borders hw hi hj).1 hm
      exact ⟨fun h => this.1.1 h.symm, this.1.2⟩
    · rintro ⟨h1, h2⟩
      exact ⟨_, (mem_borders hw hi hj).2 ⟨⟨fun h => h1 h.symm, h2⟩, rfl⟩⟩
  · unfold mpiFileOf
    rw [List.map_map]
    have : (Prod.fst ∘ fun (j : Nat) => (j, borderIds g zi ((g.zones[j]?).getD 0))) = id := rfl
    rw [this, List.map_id]
    exact List.nodup_range.filter _

/-- Two border lists of a pair of zones have the same length, the number of edges between the zones, and the numbers
at the same place denote the same edge, which is between the two zones. -/
theorem C18_lists_match (g : Grid F R) (hw : Wf g) (hl : ZoneLists g) (hg : GloPerm g) (dflt : F) (files : List (MpiFile F))
    (h : g.storeMpi dflt = .ok files) (i j zi zj : Nat) (hi : g.zones[i]? = some zi) (hj : g.zones[j]? = some zj)
    (fi fj : MpiFile F) (hfi : files[i]? = some fi) (hfj : files[j]? = some fj) :
    ((∃ l, (j, l) ∈ fi.borders) ↔ ∃ l, (i, l) ∈ fj.borders) ∧
    ∀ li lj, (j, li) ∈ fi.borders → (i, lj) ∈ fj.borders →
      li.length = howMany (Between g zi zj) g.edges ∧ lj.length = howMany (Between g zi zj) g.edges ∧
      ∀ (k : Nat) (x y : Int), li[k]? = some x → lj[k]? = some y →
        ∃ e ∈ g.edges, Between g zi zj e ∧ Denotes (g.zEdges zi) x e ∧ Denotes (g.zEdges zj) y e := by
  have hzi := List.mem_of_getElem? hi
  have hzj := List.mem_of_getElem? hj
  rw [file_get hw hl hg h hi] at hfi
  rw [file_get hw hl hg h hj] at hfj
  obtain rfl := Option.some.inj hfi
  obtain rfl := Option.some.inj hfj
  have hs : ∀ e, Between g zi zj e ↔ Between g zj zi e := fun e => by
    rw [← connect_iff, ← connect_iff, connect_symm]
  constructor
  · simp only [mem_borders hw hi hj, mem_borders hw hj hi, hs]
    constructor
    · rintro ⟨l, ⟨h1, h2⟩, _⟩; exact ⟨_, ⟨h1.symm, h2⟩, rfl⟩
    · rintro ⟨l, ⟨h1, h2⟩, _⟩; exact ⟨_, ⟨h1.symm, h2⟩, rfl⟩
  · intro li lj h1 h2
    rw [mem_borders hw hi hj] at h1
    rw [mem_borders hw hj hi] at h2
    obtain ⟨_, rfl⟩ := h1
    obtain ⟨_, rfl⟩ := h2
    refine ⟨by rw [borderIds_length hw hi hj, edgesBetween_howMany hw hi hj], ?_, ?_⟩
    · rw [borderIds_length hw hj hi, edgesBetween_howMany hw hj hi]
      exact congrArg (fun p => howMany p g.edges) (funext fun e => propext (hs e).symm)
    · intro k x y hx hy
      have d1 := borderIds_denotes hw hl (zj := zj) hzi
      have d2 := borderIds_denotes hw hl (zj := zi) hzj
      have hc : (fun e => g.isConnectZones e zj zi) = fun e => g.isConnectZones e zi zj :=
        funext fun e => connect_symm e zj zi
      rw [hc] at d2
      obtain ⟨k1, k2⟩ := List.getElem?_eq_some_iff.1 hx
      obtain ⟨m1, m2⟩ := List.getElem?_eq_some_iff.1 hy
      have n1 : k < (g.edges.filter (fun e => g.isConnectZones e zi zj)).length := by rw [← d1.length_eq]; exact k1
      have e1 := d1.get k1 n1
      have e2 := d2.get m1 n1
      simp only [List.get_eq_getElem] at e1 e2
      have hm := List.getElem_mem n1
      rw [List.mem_filter, connect_iff] at hm
      exact ⟨_, hm.1, hm.2, by rw [← k2]; exact e1, by rw [← m2]; exact e2⟩

/-- `store_mpi` never fails on such a grid and writes one file for each zone, with its name and number. -/
theorem C18_written (g : Grid F R) (hw : Wf g) (hl : ZoneLists g) (hg : GloPerm g) (dflt : F) :
    ∃ files, g.storeMpi dflt = .ok files ∧ files.length = g.zones.length ∧
      ∀ (i z : Nat) (m : MpiFile F), g.zones[i]? = some z → files[i]? = some m → m.title = g.zName z ∧ m.mpi = i := by
  refine ⟨_, storeMpi_spec hw hl hg dflt, by simp, ?_⟩
  intro i z m hi hm
  rw [file_get hw hl hg (storeMpi_spec hw hl hg dflt) hi] at hm
  obtain rfl := Option.some.inj hm
  exact ⟨rfl, rfl⟩

/-- The sample grid meets the hypotheses and its two zones have a common edge. -/
example : Wf Sample.grid ∧ ZoneLists Sample.grid ∧ GloPerm Sample.grid ∧
    (Sample.grid.zones[0]? = some 0 ∧ Sample.grid.zones[1]? = some 1) ∧ Between Sample.grid 0 1 3 :=
  ⟨Sample.wf, Sample.loaded.2.lists, Sample.loaded.2.glo.perm, by rw [Sample.zones]; exact ⟨rfl, rfl⟩,
    (connect_iff _ _ _ _).1 (by decide +kernel)⟩

/-! ## C19 Headers -/

/-- In every file `CROSS-EDGES` is the total length of the border lists, `MPI-BORDERS` their number, and no list is
empty. -/
theorem C19_headers (g : Grid F R) (hw : Wf g) (hl : ZoneLists g) (hg : GloPerm g) (dflt : F) (files : List (MpiFile F))
    (h : g.storeMpi dflt = .ok files) (m : MpiFile F) (hm : m ∈ files) :
    m.crossEdges = (m.borders.map (fun b => b.2.length)).sum ∧ m.mpiBorders = m.borders.length ∧
    ∀ b ∈ m.borders, b.2 ≠ [] := by
  rw [storeMpi_spec hw hl hg] at h
  obtain rfl := Except.ok.inj h
  obtain ⟨⟨z, i⟩, hzi, rfl⟩ := List.mem_map.1 hm
  rw [List.mem_zipIdx_iff_getElem?] at hzi
  have key : ∀ j ∈ neighbours g i, (borderIds g z ((g.zones[j]?).getD 0)).length = edgesBetween g i j ∧ 0 < edgesBetween g i j := by
    intro j hj
    have hj' := List.mem_filter.1 hj
    rw [List.mem_range] at hj'
    have hzj : g.zones[j]? = some (g.zones[j]'hj'.1) := List.getElem?_eq_getElem hj'.1
    rw [hzj, Option.getD_some, borderIds_length hw hzi hzj]
    exact ⟨rfl, (of_decide_eq_true hj'.2).2⟩
  unfold mpiFileOf
  refine ⟨?_, by simp, ?_⟩
  · simp only [List.map_map]
    congr 1
    apply List.map_congr_left
    intro j hj
    exact (key j hj).1.symm
  · intro b hb
    obtain ⟨j, hj, rfl⟩ := List.mem_map.1 hb
    have := key j hj
    intro h0
    simp only at h0
    rw [h0] at this
    simp only [List.length_nil] at this
    omega

/-! ## C20 Local numbering -/

/-- The three connectivity lists describe the faces and edges of the zone in order: each number denotes the node
(edge) of the face (edge) at that place.  The sizes in the header are the lengths of the lists numbers refer to,
and the coordinate and data lines follow the same order. -/
theorem C20_denotes (g : Grid F R) (hw : Wf g) (hl : ZoneLists g) (hg : GloPerm g) (dflt : F) (files : List (MpiFile F))
    (h : g.storeMpi dflt = .ok files) (i z : Nat) (hi : g.zones[i]? = some z) :
    ∃ m, files[i]? = some m ∧
      List.Forall₂ (fun l f => List.Forall₂ (Denotes (g.zNodes z)) l (g.fNodes f)) m.faceNode (g.zFaces z) ∧
      List.Forall₂ (fun l f => List.Forall₂ (Denotes (g.zEdges z)) l (g.fEdges f)) m.faceEdge (g.zFaces z) ∧
      List.Forall₂ (fun l e => List.Forall₂ (Denotes (g.zNodes z)) l (g.eNodes e)) m.edgeNode (g.zEdges z) ∧
      m.nodesCount = (g.zNodes z).length ∧ m.edgesCount = (g.zEdges z).length ∧ m.facesCount = (g.zFaces z).length ∧
      m.coords = [(g.zNodes z).map (fun n => (g.nP n).x), (g.zNodes z).map (fun n => (g.nP n).y),
        (g.zNodes z).map (fun n => (g.nP n).z)] ∧
      m.gloIds = (g.zFaces z).map g.fGlo ∧
      m.data = mpiVars.map (fun v => (g.zFaces z).map (fun f => g.getData dflt f v)) := by
  have hz := List.mem_of_getElem? hi
  refine ⟨_, file_get hw hl hg h hi, ?_, ?_, ?_, rfl, rfl, rfl, rfl, rfl, rfl⟩
  · unfold mpiFileOf
    simp only [List.forall₂_map_left_iff, List.forall₂_same]
    exact fun f hf n hn => denotes_idxOf (face_nodes_sub hw hl hz hf n hn)
  · unfold mpiFileOf
    simp only [List.forall₂_map_left_iff, List.forall₂_same]
    exact fun f hf n hn => denotes_idxOf (face_edges_sub hw hl hz hf n hn)
  · unfold mpiFileOf
    simp only [List.forall₂_map_left_iff, List.forall₂_same]
    exact fun f hf n hn => denotes_idxOf (edge_nodes_sub hw hl hz hf n hn)

/-- Seen from the file alone: every number is within the sizes of the header, and the ends of an edge of a face are
among the corners of the face. -/
theorem C20_file (g : Grid F R) (hw : Wf g) (hl : ZoneLists g) (hg : GloPerm g) (dflt : F) (files : List (MpiFile F))
    (h : g.storeMpi dflt = .ok files) (m : MpiFile F) (hm : m ∈ files) :
    (∀ l ∈ m.faceNode, l.length = 3 ∧ l.Nodup ∧ ∀ x ∈ l, 0 ≤ x ∧ x < m.nodesCount) ∧
    (∀ l ∈ m.faceEdge, l.length = 3 ∧ l.Nodup ∧ ∀ x ∈ l, 0 ≤ x ∧ x < m.edgesCount) ∧
    (∀ l ∈ m.edgeNode, l.length = 2 ∧ l.Nodup ∧ ∀ x ∈ l, 0 ≤ x ∧ x < m.nodesCount) ∧
    m.edgeNode.length = m.edgesCount ∧ m.faceNode.length = m.facesCount ∧ m.faceEdge.length = m.facesCount ∧
    ∀ (k : Nat) (ns es : List Int), m.faceNode[k]? = some ns → m.faceEdge[k]? = some es →
      ∀ x ∈ es, ∃ ends, m.edgeNode[x.toNat]? = some ends ∧ ∀ y ∈ ends, y ∈ ns := by
  rw [storeMpi_spec hw hl hg] at h
  obtain rfl := Except.ok.inj h
  obtain ⟨⟨z, i⟩, hzi, rfl⟩ := List.mem_map.1 hm
  rw [List.mem_zipIdx_iff_getElem?] at hzi
  have hz : z ∈ g.zones := List.mem_of_getElem? hzi
  have inj : ∀ (l os : List Nat), (∀ o ∈ os, o ∈ l) → os.Nodup → (os.map (fun o => (l.idxOf o : Int))).Nodup := by
    intro l os hs hnd
    apply List.Nodup.map_on _ hnd
    intro a ha b hb hab
    have h1 := List.getElem?_idxOf (hs a ha)
    have h2 := List.getElem?_idxOf (hs b hb)
    rw [show l.idxOf a = l.idxOf b by exact_mod_cast hab, h2] at h1
    exact (Option.some.inj h1).symm
  have rng : ∀ (l os : List Nat), (∀ o ∈ os, o ∈ l) → ∀ x ∈ os.map (fun o => (l.idxOf o : Int)), 0 ≤ x ∧ x < l.length := by
    intro l os hs x hx
    obtain ⟨o, ho, rfl⟩ := List.mem_map.1 hx
    have := List.idxOf_lt_length_iff.2 (hs o ho)
    constructor <;> omega
  unfold mpiFileOf
  refine ⟨?_, ?_, ?_, by simp, by simp, by simp, ?_⟩
  · intro l hl'
    obtain ⟨f, hf, rfl⟩ := List.mem_map.1 hl'
    obtain ⟨h1, h2, _⟩ := hw.mesh.face_nodes f (hw.face_mem hz hf)
    have hs := face_nodes_sub hw hl hz hf
    exact ⟨by simpa using h1, inj _ _ hs h2, rng _ _ hs⟩
  · intro l hl'
    obtain ⟨f, hf, rfl⟩ := List.mem_map.1 hl'
    obtain ⟨h1, h2, _⟩ := hw.mesh.face_edges f (hw.face_mem hz hf)
    have hs := face_edges_sub hw hl hz hf
    exact ⟨by simpa using h1, inj _ _ hs h2, rng _ _ hs⟩
  · intro l hl'
    obtain ⟨f, hf, rfl⟩ := List.mem_map.1 hl'
    obtain ⟨h1, h2, _⟩ := hw.mesh.edge_nodes f ((hl.mem_edges hz f).1 hf).1
    have hs := edge_nodes_sub hw hl hz hf
    exact ⟨by simpa using h1, inj _ _ hs h2, rng _ _ hs⟩
  · intro k ns es hn he x hx
    simp only [List.getElem?_map, Option.map_eq_some_iff] at hn he
    obtain ⟨f, hf, rfl⟩ := hn
    obtain ⟨f', hf', rfl⟩ := he
    rw [hf] at hf'
    obtain rfl := Option.some.inj hf'
    have hf := List.mem_of_getElem? hf
    obtain ⟨e, he, rfl⟩ := List.mem_map.1 hx
    have hee := face_edges_sub hw hl hz hf e he
    rw [Int.toNat_natCast]
    refine ⟨_, by rw [List.getElem?_map, List.getElem?_idxOf hee]; rfl, ?_⟩
    intro y hy
    obtain ⟨n, hn, rfl⟩ := List.mem_map.1 hy
    exact List.mem_map.2 ⟨n, hw.mesh.edge_in_face f (hw.face_mem hz hf) e he n hn, rfl⟩

/-! ## C21 Faces are partitioned among files -/

/-- The `GloId` lines of all files together are exactly the numbers 0 .. (number of faces - 1), each once. -/
theorem C21_partition (g : Grid F R) (hw : Wf g) (hl : ZoneLists g) (hg : GloPerm g) (dflt : F) (files : List (MpiFile F))
    (h : g.storeMpi dflt = .ok files) :
    (files.flatMap MpiFile.gloIds).Perm (g.faces.map g.fGlo) ∧
    (files.flatMap MpiFile.gloIds).Perm (List.range g.faces.length) := by
  have h1 : (files.flatMap MpiFile.gloIds).Perm (g.faces.map g.fGlo) := by
    rw [storeMpi_spec hw hl hg] at h
    obtain rfl := Except.ok.inj h
    rw [List.flatMap_map]
    have : g.zones.zipIdx.flatMap (fun p => (mpiFileOf g dflt p.1 p.2).gloIds) =
        (g.zones.zipIdx.map Prod.fst).flatMap (fun z => (g.zFaces z).map g.fGlo) := by
      rw [List.flatMap_map]; rfl
    rw [this, zipIdx_fst]
    have h2 := hw.zones.partition.map g.fGlo
    rwa [List.map_flatMap] at h2
  exact ⟨h1, h1.trans hg.faces⟩

/-- The files have different names, so none overwrites another. -/
theorem C21_file_names (base ts sf : Str) (i j : Nat) (h : mpiFileName base ts sf i = mpiFileName base ts sf j) : i = j := by
  unfold mpiFileName at h
  have h1 : Py.natStrPad 5 i = Py.natStrPad 5 j := by simpa using h
  have h2 := Py.int_natStrPad 5 i
  rw [h1, Py.int_natStrPad] at h2
  have := Except.ok.inj h2
  omega

/-- Both files of the sample grid. -/
example : ∃ files, Sample.grid.storeMpi 0 = .ok files ∧ files.length = 2 ∧
    files.map MpiFile.gloIds = [[0, 1], [2]] ∧ files.map MpiFile.borders = [[(1, [3])], [(0, [0])]] := by
  have h := storeMpi_spec Sample.wf Sample.loaded.2.lists Sample.loaded.2.glo.perm (0 : Int)
  exact ⟨_, h, by decide +kernel, by decide +kernel, by decide +kernel⟩

end Verif.Props
