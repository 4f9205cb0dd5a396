import Verif.Proofs.Zam
import Verif.Spec.Mpi
import Mathlib.Data.List.Forall2

/-! Files of `store_mpi`. -/

namespace Verif
variable {F R : Type}

theorem mapM_ok {α β : Type _} (f : α → Res β) (h : α → β) (l : List α) (hl : ∀ a ∈ l, f a = .ok (h a)) :
    l.mapM f = .ok (l.map h) := by
  induction l with
  | nil => rfl
  | cons a l ih =>
    rw [List.mapM_cons, hl a (by simp), res_bind_ok, ih (fun b hb => hl b (by simp [hb])), res_bind_ok]
    rfl

theorem zipIdx_fst {α : Type _} (l : List α) (k : Nat) : (l.zipIdx k).map Prod.fst = l := by simp

/-- After numbering every listed object has its position. -/
theorem number_spec (glo : Nat → Nat) (ids : List Int) (objs : List Nat) (hnd : objs.Nodup)
    (hinj : ∀ a ∈ objs, ∀ b ∈ objs, glo a = glo b → a = b) (hlt : ∀ a ∈ objs, glo a < ids.length) :
    ∃ ids', number glo ids objs = .ok ids' ∧ ids'.length = ids.length ∧
      ∀ o ∈ objs, ids'[glo o]? = some (objs.idxOf o : Int) := by
  obtain ⟨ids', h1, h2, h3⟩ := foldlM_total (numberStep glo) objs.zipIdx
    (fun pre s => s.length = ids.length ∧ ∀ p ∈ pre, s[glo p.1]? = some (p.2 : Int)) ids ⟨rfl, by simp⟩ (by
      rintro pre ⟨o, i⟩ post s hs ⟨h1, h2⟩
      have hm : ∀ p ∈ objs.zipIdx, p.1 ∈ objs := fun p hp => by
        have := List.mem_map_of_mem (f := Prod.fst) hp
        rwa [zipIdx_fst] at this
      have ho : o ∈ objs := hm (o, i) (by rw [hs]; simp)
      have hl : glo o < s.length := by rw [h1]; exact hlt o ho
      refine ⟨s.set (glo o) i, ?_, by simp [h1], ?_⟩
      · unfold numberStep setAt; rw [if_pos hl]
      · intro p hp
        rcases List.mem_append.1 hp with hp | hp
        · have hne : p.1 ≠ o := by
            have : (objs.zipIdx.map Prod.fst).Nodup := by rw [zipIdx_fst]; exact hnd
            rw [hs, List.map_append, List.map_cons] at this
            have h4 := (List.nodup_append.1 this).2.2
            exact h4 _ (List.mem_map_of_mem (f := Prod.fst) hp) _ (by simp)
          have hne2 : glo o ≠ glo p.1 := fun h =>
            hne (hinj _ (hm p (by rw [hs]; simp [hp])) _ ho h.symm)
          rw [List.getElem?_set_ne hne2]
          exact h2 p hp
        · rw [List.mem_singleton] at hp; subst hp
          rw [List.getElem?_set_self hl])
  refine ⟨ids', h1, h2, ?_⟩
  intro o ho
  exact h3 (o, objs.idxOf o) (by rw [List.mem_zipIdx_iff_getElem?]; exact List.getElem?_idxOf ho)

theorem localIds_ok (glo : Nat → Nat) (ids : List Int) (objs os : List Nat)
    (h : ∀ o ∈ objs, ids[glo o]? = some (objs.idxOf o : Int)) (hs : ∀ o ∈ os, o ∈ objs) :
    localIds glo ids os = .ok (os.map (fun o => (objs.idxOf o : Int))) := by
  unfold localIds
  apply mapM_ok
  intro o ho
  rw [get_ofNat, h o (hs o ho)]

theorem denotes_idxOf {l : List Nat} {o : Nat} (h : o ∈ l) : Denotes l (l.idxOf o : Int) o :=
  ⟨by omega, by rw [Int.toNat_natCast]; exact List.getElem?_idxOf h⟩

theorem denotes_map {l os : List Nat} (h : ∀ o ∈ os, o ∈ l) :
    List.Forall₂ (Denotes l) (os.map (fun o => (l.idxOf o : Int))) os := by
  rw [List.forall₂_map_left_iff, List.forall₂_same]
  exact fun o ho => denotes_idxOf (h o ho)

/-- Row of the matrix without own and border columns. -/
theorem crossArray_tab (n : Nat) (A : Nat → Nat → Nat) (i : Nat) (hi : i < n) :
    Zam.crossArray ⟨n, tab n A⟩ i = (List.range (n + 1)).map (fun j => if j = i ∨ j = n then 0 else A i j) := by
  unfold Zam.crossArray Zam.row
  rw [tab_get n A i (by omega), Option.getD_some]
  apply List.ext_getElem
  · simp
  · intro j h1 h2
    simp only [List.getElem_set, List.getElem_map, List.getElem_range]
    by_cases hn : j = n
    · simp [hn]
    · by_cases hj : j = i
      · subst hj; simp
      · rw [if_neg (Ne.symm hn), if_neg (Ne.symm hj), if_neg (by omega)]

theorem zipIdx_map_range (m : Nat) (B : Nat → Nat) :
    ((List.range m).map B).zipIdx = (List.range m).map (fun j => (B j, j)) := by
  apply List.ext_getElem
  · simp
  · intro j h1 h2; simp

/-- The indexes of neighbour zones together with numbers of edges. -/
theorem crossArray_pos (n : Nat) (A : Nat → Nat → Nat) (i : Nat) (hi : i < n) :
    ((Zam.crossArray ⟨n, tab n A⟩ i).zipIdx.filter (fun q => decide (0 < q.1))) =
      ((List.range n).filter (fun j => decide (j ≠ i ∧ 0 < A i j))).map (fun j => (A i j, j)) := by
  rw [crossArray_tab n A i hi, zipIdx_map_range, List.filter_map, List.range_succ, List.filter_append, List.map_append]
  have h1 : [n].filter ((fun q : Nat × Nat => decide (0 < q.1)) ∘ fun j => (if j = i ∨ j = n then 0 else A i j, j)) = [] := by
    simp
  rw [h1, List.map_nil, List.append_nil]
  have h2 : (List.range n).filter ((fun q : Nat × Nat => decide (0 < q.1)) ∘ fun j => (if j = i ∨ j = n then 0 else A i j, j)) =
      (List.range n).filter (fun j => decide (j ≠ i ∧ 0 < A i j)) := by
    apply List.filter_congr
    intro j hj
    rw [List.mem_range] at hj
    simp only [Function.comp, decide_eq_decide]
    by_cases h : j = i
    · simp [h]
    · rw [if_neg (by omega)]; simp [h]
  rw [h2]
  apply List.map_congr_left
  intro j hj
  rw [List.mem_filter, List.mem_range, decide_eq_true_eq] at hj
  rw [if_neg (by omega)]

theorem sum_filter_pos (l : List Nat) : (l.filter (fun x => decide (0 < x))).sum = l.sum := by
  induction l with
  | nil => rfl
  | cons a l ih =>
    rw [List.filter_cons]
    by_cases h : 0 < a
    · simp [h, ih]
    · have : a = 0 := by omega
      subst this; simp [ih]

theorem filter_zipIdx_fst (l : List Nat) (k : Nat) (p : Nat → Bool) :
    ((l.zipIdx k).filter (fun q => p q.1)).map Prod.fst = l.filter p := by
  have : (fun q : Nat × Nat => p q.1) = p ∘ Prod.fst := rfl
  rw [this, ← List.filter_map, zipIdx_fst]

theorem crossBorders_eq (a : Zam) (i : Nat) :
    a.crossBorders i = ((a.crossArray i).zipIdx.filter (fun q => decide (0 < q.1))).length := by
  unfold Zam.crossBorders
  rw [← filter_zipIdx_fst (a.crossArray i) 0 (fun x => decide (0 < x)), List.length_map]

theorem crossCount_eq (a : Zam) (i : Nat) :
    a.crossCount i = (((a.crossArray i).zipIdx.filter (fun q => decide (0 < q.1))).map Prod.fst).sum := by
  unfold Zam.crossCount
  rw [filter_zipIdx_fst (a.crossArray i) 0 (fun x => decide (0 < x)), sum_filter_pos]

/-! ### Zone lists -/

variable {g : Grid F R}

theorem Wf.face_mem (hw : Wf g) {z f : Nat} (hz : z ∈ g.zones) (hf : f ∈ g.zFaces z) : f ∈ g.faces :=
  hw.zones.partition.mem_iff.1 (List.mem_flatMap.2 ⟨z, hz, hf⟩)

theorem Wf.zone_faces (hw : Wf g) {z f : Nat} (hz : z ∈ g.zones) (hf : f ∈ g.faces) (h : g.fZone f = some z) :
    f ∈ g.zFaces z := by
  obtain ⟨z', hz', h'⟩ := List.mem_flatMap.1 (hw.zones.partition.mem_iff.2 hf)
  have := hw.zones.points z' hz' f h'
  rw [h] at this
  rwa [Option.some.inj this]

theorem ZoneLists.mem_nodes (hl : ZoneLists g) {z : Nat} (hz : z ∈ g.zones) (n : Nat) :
    n ∈ g.zNodes z ↔ n ∈ g.nodes ∧ ∃ f ∈ g.zFaces z, n ∈ g.fNodes f := by
  rw [hl.nodes z hz, List.mem_filter]; simp

theorem ZoneLists.mem_edges (hl : ZoneLists g) {z : Nat} (hz : z ∈ g.zones) (e : Nat) :
    e ∈ g.zEdges z ↔ e ∈ g.edges ∧ ∃ f ∈ g.zFaces z, e ∈ g.fEdges f := by
  rw [hl.edges z hz, List.mem_filter]; simp

theorem face_nodes_sub (hw : Wf g) (hl : ZoneLists g) {z f : Nat} (hz : z ∈ g.zones) (hf : f ∈ g.zFaces z) :
    ∀ n ∈ g.fNodes f, n ∈ g.zNodes z := fun n hn =>
  (hl.mem_nodes hz n).2 ⟨(hw.mesh.face_nodes f (hw.face_mem hz hf)).2.2 n hn, f, hf, hn⟩

theorem face_edges_sub (hw : Wf g) (hl : ZoneLists g) {z f : Nat} (hz : z ∈ g.zones) (hf : f ∈ g.zFaces z) :
    ∀ e ∈ g.fEdges f, e ∈ g.zEdges z := fun e he =>
  (hl.mem_edges hz e).2 ⟨(hw.mesh.face_edges f (hw.face_mem hz hf)).2.2 e he, f, hf, he⟩

theorem edge_nodes_sub (hw : Wf g) (hl : ZoneLists g) {z e : Nat} (hz : z ∈ g.zones) (he : e ∈ g.zEdges z) :
    ∀ n ∈ g.eNodes e, n ∈ g.zNodes z := fun n hn => by
  obtain ⟨h1, f, hf, h2⟩ := (hl.mem_edges hz e).1 he
  exact face_nodes_sub hw hl hz hf n (hw.mesh.edge_in_face f (hw.face_mem hz hf) e h2 n hn)

/-- The edges of a zone leading to another zone are all edges of the grid between the two zones. -/
theorem connect_edges (hw : Wf g) (hl : ZoneLists g) {z z' : Nat} (hz : z ∈ g.zones) :
    (g.zEdges z).filter (fun e => g.isConnectZones e z z') = g.edges.filter (fun e => g.isConnectZones e z z') := by
  rw [hl.edges z hz, List.filter_filter]
  apply List.filter_congr
  intro e he
  rw [Bool.and_eq_left_iff_imp]
  intro hc
  obtain ⟨a, b, hab, h1, h2⟩ := (connect_iff g e z z').1 hc
  have ha : a ∈ g.eFaces e := by rcases hab with h | h <;> simp [h]
  obtain ⟨h3, h4⟩ := (hw.mesh.edge_face e he a).1 ha
  rw [List.any_eq_true]
  exact ⟨a, hw.zone_faces hz h3 h1, by simpa using h4⟩

theorem connect_symm (e z z' : Nat) : g.isConnectZones e z z' = g.isConnectZones e z' z := by
  rw [Bool.eq_iff_iff, connect_iff, connect_iff]
  constructor <;> rintro ⟨a, b, h, h1, h2⟩ <;> exact ⟨b, a, h.symm, h2, h1⟩

/-! ### The files -/

/-- Number of edges between zones number `i` and `j`. -/
def edgesBetween (g : Grid F R) (i j : Nat) : Nat := (g.edges.map (zonePair g g.zones)).countP (cell i j)

theorem edgesBetween_eq (hw : Wf g) {i j zi zj : Nat} (hi : g.zones[i]? = some zi) (hj : g.zones[j]? = some zj) :
    edgesBetween g i j = (g.edges.filter (fun e => g.isConnectZones e zi zj)).length := by
  unfold edgesBetween
  rw [List.countP_map, List.countP_eq_length_filter]
  congr 1
  apply List.filter_congr
  intro e he
  rw [Bool.eq_iff_iff, connect_iff]
  exact (cell_between hw.zones.zones_nodup hw.edgesIn hi hj he).symm

theorem edgesBetween_howMany (hw : Wf g) {i j zi zj : Nat} (hi : g.zones[i]? = some zi) (hj : g.zones[j]? = some zj) :
    edgesBetween g i j = howMany (Between g zi zj) g.edges := by
  unfold edgesBetween
  rw [List.countP_map]
  exact (howMany_eq (fun e he => cell_between hw.zones.zones_nodup hw.edgesIn hi hj he)).symm

/-- Edges of the border list of zones `z` and `z'` with local numbers of `z`. -/
def borderIds (g : Grid F R) (z z' : Nat) : List Int :=
  (g.edges.filter (fun e => g.isConnectZones e z z')).map (fun e => ((g.zEdges z).idxOf e : Int))

/-- Neighbour zones of zone number `i`. -/
def neighbours (g : Grid F R) (i : Nat) : List Nat :=
  (List.range g.zones.length).filter (fun j => decide (j ≠ i ∧ 0 < edgesBetween g i j))

/-- The file of zone `z` with number `i`. -/
def mpiFileOf (g : Grid F R) (dflt : F) (z i : Nat) : MpiFile F where
  title := g.zName z
  mpi := i
  nodesCount := (g.zNodes z).length
  edgesCount := (g.zEdges z).length
  crossEdges := ((neighbours g i).map (edgesBetween g i)).sum
  facesCount := (g.zFaces z).length
  coords := [g.coordSlice z Vec.x, g.coordSlice z Vec.y, g.coordSlice z Vec.z]
  gloIds := (g.zFaces z).map g.fGlo
  data := Grid.mpiVars.map (g.dataSlice dflt z)
  faceNode := (g.zFaces z).map (fun f => (g.fNodes f).map (fun n => ((g.zNodes z).idxOf n : Int)))
  faceEdge := (g.zFaces z).map (fun f => (g.fEdges f).map (fun e => ((g.zEdges z).idxOf e : Int)))
  edgeNode := (g.zEdges z).map (fun e => (g.eNodes e).map (fun n => ((g.zNodes z).idxOf n : Int)))
  mpiBorders := (neighbours g i).length
  borders := (neighbours g i).map (fun j => (j, borderIds g z ((g.zones[j]?).getD 0)))

theorem glo_perm {l : List Nat} {k : Nat → Nat} (h : ∀ i n : Nat, l[i]? = some n → k n = i) :
    (l.map k).Perm (List.range l.length) := by
  have : l.map k = List.range l.length := by
    apply List.ext_getElem?
    intro i
    rw [List.getElem?_map]
    by_cases hi : i < l.length
    · rw [List.getElem?_range hi, List.getElem?_eq_getElem hi, Option.map_some, h i _ (List.getElem?_eq_getElem hi)]
    · rw [List.getElem?_eq_none (by omega), List.getElem?_eq_none (by simp; omega)]; rfl
  rw [this]

theorem GloIds.perm (h : GloIds g) : GloPerm g := ⟨glo_perm h.nodes, glo_perm h.edges, glo_perm h.faces⟩

theorem perm_lt {l : List Nat} {k : Nat → Nat} (h : (l.map k).Perm (List.range l.length)) {n : Nat} (hn : n ∈ l) : k n < l.length :=
  List.mem_range.1 (h.mem_iff.1 (List.mem_map.2 ⟨n, hn, rfl⟩))

theorem perm_inj {l : List Nat} {k : Nat → Nat} (h : (l.map k).Perm (List.range l.length)) {a b : Nat} (ha : a ∈ l) (hb : b ∈ l)
    (hab : k a = k b) : a = b :=
  List.inj_on_of_nodup_map (h.nodup_iff.2 List.nodup_range) ha hb hab

theorem GloPerm.node_lt (hg : GloPerm g) {n : Nat} (h : n ∈ g.nodes) : g.nGlo n < g.nodes.length := perm_lt hg.nodes h

theorem GloPerm.edge_lt (hg : GloPerm g) {n : Nat} (h : n ∈ g.edges) : g.eGlo n < g.edges.length := perm_lt hg.edges h

theorem GloPerm.node_inj (hg : GloPerm g) {a b : Nat} (ha : a ∈ g.nodes) (hb : b ∈ g.nodes) (h : g.nGlo a = g.nGlo b) : a = b :=
  perm_inj hg.nodes ha hb h

theorem GloPerm.edge_inj (hg : GloPerm g) {a b : Nat} (ha : a ∈ g.edges) (hb : b ∈ g.edges) (h : g.eGlo a = g.eGlo b) : a = b :=
  perm_inj hg.edges ha hb h

theorem mpiZone_ok (hw : Wf g) (hl : ZoneLists g) (hg : GloPerm g) (dflt : F) (z i : Nat) (hi : g.zones[i]? = some z)
    (s : Grid.MpiState F) (hn : s.nids.length = g.nodes.length) (he : s.eids.length = g.edges.length) :
    ∃ s', g.mpiZone dflt ⟨g.zones.length, tab g.zones.length (edgesBetween g)⟩ s (z, i) = .ok s' ∧
      s'.nids.length = g.nodes.length ∧ s'.eids.length = g.edges.length ∧
      s'.files = s.files ++ [mpiFileOf g dflt z i] := by
  have hz : z ∈ g.zones := List.mem_of_getElem? hi
  have hil := (List.getElem?_eq_some_iff.1 hi).1
  have zn : ∀ n ∈ g.zNodes z, n ∈ g.nodes := fun n h => ((hl.mem_nodes hz n).1 h).1
  have ze : ∀ n ∈ g.zEdges z, n ∈ g.edges := fun n h => ((hl.mem_edges hz n).1 h).1
  obtain ⟨nids, h1, h2, h3⟩ := number_spec g.nGlo s.nids (g.zNodes z)
    (by rw [hl.nodes z hz]; exact hw.mesh.nodes_nodup.filter _)
    (fun a ha b hb h => hg.node_inj (zn a ha) (zn b hb) h)
    (fun a ha => by rw [hn]; exact hg.node_lt (zn a ha))
  obtain ⟨eids, k1, k2, k3⟩ := number_spec g.eGlo s.eids (g.zEdges z)
    (by rw [hl.edges z hz]; exact hw.mesh.edges_nodup.filter _)
    (fun a ha b hb h => hg.edge_inj (ze a ha) (ze b hb) h)
    (fun a ha => by rw [he]; exact hg.edge_lt (ze a ha))
  have l1 := mapM_ok (fun f => localIds g.nGlo nids (g.fNodes f)) _ (g.zFaces z)
    (fun f hf => localIds_ok g.nGlo nids (g.zNodes z) (g.fNodes f) h3 (face_nodes_sub hw hl hz hf))
  have l2 := mapM_ok (fun f => localIds g.eGlo eids (g.fEdges f)) _ (g.zFaces z)
    (fun f hf => localIds_ok g.eGlo eids (g.zEdges z) (g.fEdges f) k3 (face_edges_sub hw hl hz hf))
  have l3 := mapM_ok (fun e => localIds g.nGlo nids (g.eNodes e)) _ (g.zEdges z)
    (fun e he => localIds_ok g.nGlo nids (g.zNodes z) (g.eNodes e) h3 (edge_nodes_sub hw hl hz he))
  have hpos := crossArray_pos g.zones.length (edgesBetween g) i hil
  have l4 : ((Zam.crossArray ⟨g.zones.length, tab g.zones.length (edgesBetween g)⟩ i).zipIdx.filter
      (fun q => decide (0 < q.1))).mapM (g.borderList eids z) =
      .ok ((neighbours g i).map (fun j => (j, borderIds g z ((g.zones[j]?).getD 0)))) := by
    rw [mapM_ok (g.borderList eids z) (fun p => (p.2, borderIds g z ((g.zones[p.2]?).getD 0))), hpos, List.map_map]
    · rfl
    · intro p hp
      rw [hpos] at hp
      obtain ⟨j, hj, rfl⟩ := List.mem_map.1 hp
      rw [List.mem_filter, List.mem_range] at hj
      obtain ⟨zj, hzj⟩ : ∃ zj, g.zones[j]? = some zj := ⟨_, List.getElem?_eq_getElem hj.1⟩
      unfold Grid.borderList
      simp only [get_ofNat, hzj, res_bind_ok, Option.getD_some]
      rw [localIds_ok g.eGlo eids (g.zEdges z) _ k3 (fun o ho => (List.mem_filter.1 ho).1), res_bind_ok, connect_edges hw hl hz]
      rfl
  have l5 : Zam.crossCount ⟨g.zones.length, tab g.zones.length (edgesBetween g)⟩ i =
      ((neighbours g i).map (edgesBetween g i)).sum := by
    rw [crossCount_eq, hpos, List.map_map]; rfl
  have l6 : Zam.crossBorders ⟨g.zones.length, tab g.zones.length (edgesBetween g)⟩ i = (neighbours g i).length := by
    rw [crossBorders_eq, hpos, List.length_map]; rfl
  refine ⟨{ nids := nids, eids := eids, files := s.files ++ [mpiFileOf g dflt z i] }, ?_, by rw [h2, hn], by rw [k2, he], rfl⟩
  unfold Grid.mpiZone
  simp only [h1, k1, res_bind_ok, l1, l2, l3, l4, l5, l6, res_pure]
  rfl

/-- `store_mpi` on a well-formed grid. -/
theorem storeMpi_spec (hw : Wf g) (hl : ZoneLists g) (hg : GloPerm g) (dflt : F) :
    g.storeMpi dflt = .ok (g.zones.zipIdx.map (fun p => mpiFileOf g dflt p.1 p.2)) := by
  unfold Grid.storeMpi
  rw [make_spec g g.edges g.zones hw.edgesIn, res_bind_ok]
  obtain ⟨s', h1, h2⟩ := foldlM_total (g.mpiZone dflt ⟨g.zones.length, tab g.zones.length (edgesBetween g)⟩) g.zones.zipIdx
    (fun pre s => s.nids.length = g.nodes.length ∧ s.eids.length = g.edges.length ∧
      s.files = pre.map (fun p => mpiFileOf g dflt p.1 p.2))
    ⟨List.replicate g.nodes.length (-1), List.replicate g.edges.length (-1), []⟩ (by simp) (by
      rintro pre ⟨z, i⟩ post s hs ⟨a1, a2, a3⟩
      have hm : (z, i) ∈ g.zones.zipIdx := by rw [hs]; simp
      rw [List.mem_zipIdx_iff_getElem?] at hm
      obtain ⟨s', b1, b2, b3, b4⟩ := mpiZone_ok hw hl hg dflt z i hm s a1 a2
      exact ⟨s', b1, b2, b3, by rw [b4, a3]; simp⟩)
  show (g.zones.zipIdx.foldlM (g.mpiZone dflt ⟨g.zones.length, tab g.zones.length (edgesBetween g)⟩) _ >>= _) = _
  rw [h1, res_bind_ok, h2.2.2]
  rfl

theorem file_get (hw : Wf g) (hl : ZoneLists g) (hg : GloPerm g) {dflt : F} {files : List (MpiFile F)}
    (h : g.storeMpi dflt = .ok files) {i z : Nat} (hi : g.zones[i]? = some z) : files[i]? = some (mpiFileOf g dflt z i) := by
  rw [storeMpi_spec hw hl hg] at h
  obtain rfl := Except.ok.inj h
  rw [List.getElem?_map, List.getElem?_zipIdx, hi]
  simp

theorem mem_neighbours (hw : Wf g) {i j zi zj : Nat} (hi : g.zones[i]? = some zi) (hj : g.zones[j]? = some zj) :
    j ∈ neighbours g i ↔ j ≠ i ∧ ∃ e ∈ g.edges, Between g zi zj e := by
  unfold neighbours
  rw [List.mem_filter, List.mem_range, decide_eq_true_eq, edgesBetween_eq hw hi hj, List.length_pos_iff_exists_mem]
  have := (List.getElem?_eq_some_iff.1 hj).1
  simp only [List.mem_filter, connect_iff]
  tauto

theorem mem_borders (hw : Wf g) {dflt : F} {i j zi zj : Nat} {l : List Int} (hi : g.zones[i]? = some zi)
    (hj : g.zones[j]? = some zj) : (j, l) ∈ (mpiFileOf g dflt zi i).borders ↔
      (j ≠ i ∧ ∃ e ∈ g.edges, Between g zi zj e) ∧ l = borderIds g zi zj := by
  rw [← mem_neighbours hw hi hj]
  unfold mpiFileOf
  simp only [List.mem_map, Prod.mk.injEq]
  constructor
  · rintro ⟨k, h1, rfl, h2⟩
    rw [hj] at h2
    exact ⟨h1, h2.symm⟩
  · rintro ⟨h1, rfl⟩
    exact ⟨j, h1, rfl, by rw [hj]; rfl⟩

theorem borderIds_length (hw : Wf g) {i j zi zj : Nat} (hi : g.zones[i]? = some zi) (hj : g.zones[j]? = some zj) :
    (borderIds g zi zj).length = edgesBetween g i j := by
  rw [edgesBetween_eq hw hi hj]; simp [borderIds]

theorem borderIds_denotes (hw : Wf g) (hl : ZoneLists g) {zi zj : Nat} (hz : zi ∈ g.zones) :
    List.Forall₂ (Denotes (g.zEdges zi)) (borderIds g zi zj) (g.edges.filter (fun e => g.isConnectZones e zi zj)) := by
  apply denotes_map
  intro e he
  rw [← connect_edges hw hl hz] at he
  exact (List.mem_filter.1 he).1

end Verif
