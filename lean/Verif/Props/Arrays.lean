import Verif.Model.Arrays
import Verif.Proofs.Mpi
import Verif.Proofs.Merge
import Verif.Proofs.Sample

/-! Property C98: the arrays and counts of a zone. -/

namespace Verif.Props
open Verif Grid
variable {F R : Type} {v : Str}

/-- The coordinates of a node as a row of a matrix. -/
def coordRow (g : Grid F R) (n : Nat) : List F := [(g.nP n).x, (g.nP n).y, (g.nP n).z]

/-- The numbers in the connectivity of a zone are rows of its coordinates: face by face and corner by corner the row is that of the corner. -/
def ConnFits [Inhabited F] (g : Grid F R) (z : Nat) : Prop :=
  ∃ rows, connArray true g z = .ok rows ∧ rows.length = (g.zFaces z).length ∧
    ∀ i f j n : Nat, (g.zFaces z)[i]? = some f → (g.fNodes f)[j]? = some n →
      ∃ (r : List Nat) (k : Nat), rows[i]? = some r ∧ r[j]? = some k ∧ (coordsArray g z)[k]? = some (coordRow g n)

/-- One row for each node of the zone, with its coordinates. -/
theorem C98_coords [Inhabited F] (g : Grid F R) (z : Nat) : coordsArray g z = (g.zNodes z).map (coordRow g) := by
  unfold coordsArray transposed coordSlice
  apply List.ext_getElem
  · simp
  · intro i h1 h2
    simp only [List.length_map, List.length_range] at h1
    simp [coordRow, h1]

theorem connRow_ok {g : Grid F R} (hm : Mesh g) (hg : GloPerm g) {f : Nat} (hf : f ∈ g.faces) : connRow g f = .ok ((g.fNodes f).map g.nGlo) := by
  obtain ⟨h1, h2, h3⟩ := hm.face_nodes f hf
  obtain ⟨a, b, c, e⟩ : ∃ a b c, g.fNodes f = [a, b, c] := by
    match h : g.fNodes f, h1 with
    | [a, b, c], _ => exact ⟨a, b, c, rfl⟩
  unfold connRow
  rw [e] at h2 h3 ⊢
  have hne : ¬ (g.nGlo a = g.nGlo b ∧ g.nGlo b = g.nGlo c) := by
    rintro ⟨h, -⟩
    have := hg.node_inj (h3 a (by simp)) (h3 b (by simp)) h
    subst this
    simp at h2
  show (if _ then _ else _) = _
  rw [if_neg hne]; rfl

/-- One row for each face of the zone, with the global numbers of its corners; the assertion in the code never fails. -/
theorem C98_connectivity {g : Grid F R} (hw : Wf g) (hg : GloPerm g) {z : Nat} (hz : z ∈ g.zones) :
    connArray true g z = .ok ((g.zFaces z).map (fun f => (g.fNodes f).map g.nGlo)) := by
  unfold connArray
  have : (g.zFaces z).mapM (connRow g) = .ok ((g.zFaces z).map (fun f => (g.fNodes f).map g.nGlo)) :=
    mapM_ok _ _ _ fun f hf => connRow_ok hw.mesh hg (((hw.zones.mem_iff hz f).1 hf).1)
  rw [this, res_bind_ok]; rfl

/-- Missing for the full property (the connectivity of a zone always refers to the rows of its coordinates): the numbers are those of the grid. They
are rows of the coordinates of the zone if and only if the nodes of the zone are the first nodes of the grid. -/
theorem C98_fits_partial [Inhabited F] {g : Grid F R} (hw : Wf g) (hl : ZoneLists g) (hg : GloIds g)
    (ha : ∀ n ∈ g.nodes, ∀ m ∈ g.nodes, g.nP n = g.nP m → n = m) {z : Nat} (hz : z ∈ g.zones) : ConnFits g z ↔ g.zNodes z <+: g.nodes := by
  have hzn : ∀ n, n ∈ g.zNodes z ↔ ∃ f ∈ g.zFaces z, n ∈ g.fNodes f := by
    intro n
    rw [hl.nodes z hz]
    simp only [List.mem_filter, List.any_eq_true, List.contains_iff_mem]
    refine ⟨fun h => h.2, fun ⟨f, h1, h2⟩ => ⟨?_, f, h1, h2⟩⟩
    exact (hw.mesh.face_nodes f ((hw.zones.mem_iff hz f).1 h1).1).2.2 n h2
  have hsub : ∀ n ∈ g.zNodes z, n ∈ g.nodes := by
    intro n hn
    rw [hl.nodes z hz] at hn
    exact (List.mem_filter.1 hn).1
  have hnd : (g.zNodes z).Nodup := by
    rw [hl.nodes z hz]; exact hw.mesh.nodes_nodup.filter _
  have key : ConnFits g z ↔ ∀ n ∈ g.zNodes z, (g.zNodes z)[g.nGlo n]? = some n := by
    unfold ConnFits
    rw [C98_connectivity hw hg.perm hz, C98_coords]
    constructor
    · rintro ⟨rows, h1, -, h2⟩ n hn
      obtain rfl := Except.ok.inj h1
      obtain ⟨f, hf, hnf⟩ := (hzn n).1 hn
      obtain ⟨i, hi⟩ := List.getElem?_of_mem hf
      obtain ⟨j, hj⟩ := List.getElem?_of_mem hnf
      obtain ⟨r, k, e1, e2, e3⟩ := h2 i f j n hi hj
      rw [List.getElem?_map, hi] at e1
      obtain rfl := Option.some.inj e1
      rw [List.getElem?_map, hj] at e2
      obtain rfl := Option.some.inj e2
      rw [List.getElem?_map] at e3
      obtain ⟨m, hm, he⟩ := Option.map_eq_some_iff.1 e3
      simp only [coordRow, List.cons.injEq, and_true] at he
      have hmn : m = n := ha m (hsub m (List.mem_of_getElem? hm)) n (hsub n hn) (by
        obtain ⟨a, b, c⟩ := he
        cases h1 : g.nP m; cases h2 : g.nP n
        simp_all)
      rw [hm, hmn]
    · intro h
      refine ⟨_, rfl, by simp, fun i f j n hi hj => ?_⟩
      have hn : n ∈ g.zNodes z := (hzn n).2 ⟨f, List.mem_of_getElem? hi, List.mem_of_getElem? hj⟩
      refine ⟨(g.fNodes f).map g.nGlo, g.nGlo n, by rw [List.getElem?_map, hi]; rfl, by rw [List.getElem?_map, hj]; rfl, ?_⟩
      rw [List.getElem?_map, h n hn]; rfl
  rw [key]
  constructor
  · intro h
    rw [List.prefix_iff_eq_take]
    apply List.ext_getElem?
    intro i
    rw [List.getElem?_take]
    split_ifs with hi
    · have hn := List.getElem_mem hi
      have e := h _ hn
      have : g.nGlo (g.zNodes z)[i] = i := by
        obtain ⟨q1, q2⟩ := List.getElem?_eq_some_iff.1 e
        exact (hnd.getElem_inj_iff).1 q2
      obtain ⟨j, hj⟩ := List.getElem?_of_mem (hsub _ hn)
      have := hg.nodes j _ hj
      rw [List.getElem?_eq_getElem hi, ← hj]
      congr 1
      omega
    · exact List.getElem?_eq_none (by omega)
  · intro h n hn
    obtain ⟨i, hi⟩ := List.getElem?_of_mem hn
    have : g.nodes[i]? = some n := by
      rw [List.prefix_iff_eq_take] at h
      rw [h, List.getElem?_take] at hi
      split_ifs at hi
      exact hi
    rw [hg.nodes i n this, hi]

/-- So it holds in a grid of one zone whose nodes all have faces. -/
theorem C98_one_zone [Inhabited F] {g : Grid F R} (hw : Wf g) (hl : ZoneLists g) (hg : GloIds g)
    (ha : ∀ n ∈ g.nodes, ∀ m ∈ g.nodes, g.nP n = g.nP m → n = m) {z : Nat} (hz : g.zones = [z]) (hu : ∀ n ∈ g.nodes, g.nFaces n ≠ []) : ConnFits g z := by
  have hz' : z ∈ g.zones := by rw [hz]; simp
  rw [C98_fits_partial hw hl hg ha hz', hl.nodes z hz', List.filter_eq_self.2]
  intro n hn
  obtain ⟨f, hf⟩ := List.exists_mem_of_ne_nil _ (hu n hn)
  have hf' := (hw.mesh.node_face n hn f).1 hf
  have hp := (hw.zones.partition.mem_iff).2 hf'.1
  rw [hz] at hp
  simp only [List.flatMap_cons, List.flatMap_nil, List.append_nil] at hp
  exact List.any_eq_true.2 ⟨f, hp, List.contains_iff_mem.2 hf'.2⟩

/-- One row for each face of the zone. -/
theorem C98_variables [Inhabited F] [NatCast F] [Zero F] (g : Grid F R) (z : Nat) :
    variablesArray true g z = .ok ((g.zFaces z).map (fun f => [(g.fGlo f : F), g.getData 0 f "T".toList, g.getData 0 f "Hw".toList,
      g.getData 0 f "Hi".toList, g.getData 0 f "HTC".toList, g.getData 0 f "Beta".toList, 0, 0, g.getData 0 f "TauX".toList, g.getData 0 f "TauY".toList,
      g.getData 0 f "TauZ".toList, 0])) := by
  unfold variablesArray
  rw [if_neg (by simp)]
  simp only [Except.ok.injEq]
  unfold transposed dataSlice
  apply List.ext_getElem
  · simp
  · intro i h1 h2
    simp only [List.length_map, List.length_range] at h1
    simp [h1]

/-- Missing for the full property (the columns are the number of the face and the variables of `store_mpi`, in the same order): three of the variables are
always given as zero, so that it holds only for zones where they are zero. -/
theorem C98_variables_partial [Inhabited F] [NatCast F] [Zero F] (g : Grid F R) (z : Nat) :
    variablesArray true g z = .ok ((g.zFaces z).map (fun f => (g.fGlo f : F) :: mpiVars.map (g.getData 0 f))) ↔
      ∀ f ∈ g.zFaces z, g.getData 0 f "MImp2".toList = 0 ∧ g.getData 0 f "Vd2".toList = 0 ∧ g.getData 0 f "RecoveryFactor".toList = 0 := by
  rw [C98_variables, Except.ok.injEq, List.map_inj_left]
  refine forall₂_congr fun f hf => ?_
  simp only [mpiVars, List.map_cons, List.map_nil, List.cons.injEq, true_and, and_true]
  tauto

/-- The values of one variable and the text with the numbers of the faces follow the order of the faces in the zone: the words of the text, read by `int`,
are the global identifiers. -/
theorem C98_slices [Zero F] (g : Grid F R) (z : Nat) : (getVariable g z v).length = (g.zFaces z).length ∧
    (∀ i f : Nat, (g.zFaces z)[i]? = some f → (getVariable g z v)[i]? = some (g.getData 0 f v)) ∧
    (Py.splitWs (gloSlice g z)).mapM Py.int = .ok ((g.zFaces z).map (fun f => (g.fGlo f : Int))) := by
  refine ⟨by simp [getVariable, dataSlice], fun i f h => by simp [getVariable, dataSlice, h], ?_⟩
  unfold gloSlice
  have h := Py.splitWs_join (ts := (g.zFaces z).map (fun f => Py.natStr (g.fGlo f))) (w := []) (by simp [Py.natStr_ne_nil])
    (by intro t ht; obtain ⟨f, -, rfl⟩ := List.mem_map.1 ht; exact (Py.natStr_facts _).1) (by simp)
  rw [List.append_nil] at h
  rw [h, List.mapM_map]
  exact mapM_ok _ _ _ (fun f _ => Py.int_natStr _)

/-- Without `np.float` there are no arrays of variables and no connectivity. -/
theorem C98_no_float [Inhabited F] [NatCast F] [Zero F] {g : Grid F R} (hw : Wf g) (hg : GloPerm g) {z : Nat} (hz : z ∈ g.zones) :
    variablesArray false g z = .error .attr ∧ connArray false g z = .error .attr := by
  refine ⟨rfl, ?_⟩
  have h := C98_connectivity hw hg hz
  unfold connArray at h ⊢
  rw [res_bind_eq_ok] at h
  obtain ⟨rows, h1, -⟩ := h
  rw [h1]; rfl

/-- The edges of a zone that have just one face in the zone. -/
def rim (g : Grid F R) (z : Nat) : List Nat := (g.zEdges z).filter (fun e => decide (((g.eFaces e).filter (fun f => (g.zFaces z).contains f)).length = 1))

theorem outerCount_rim {g : Grid F R} (hw : Wf g) (hl : ZoneLists g) {z : Nat} (hz : z ∈ g.zones) : outerCount g z = .ok (rim g z).length := by
  have h1 : ∀ e ∈ g.zEdges z, g.isOuter e = .ok (decide (((g.eFaces e).filter (fun f => (g.zFaces z).contains f)).length = 1)) := by
    intro e he
    rw [hl.edges z hz] at he
    obtain ⟨he1, he2⟩ := List.mem_filter.1 he
    obtain ⟨f, hf, hfe⟩ := List.any_eq_true.1 he2
    have hfe := List.contains_iff_mem.1 hfe
    have hf' := (hw.zones.mem_iff hz f).1 hf
    have hin := (hw.mesh.edge_face e he1 f).2 ⟨hf'.1, hfe⟩
    have hfaces : ∀ x ∈ g.eFaces e, x ∈ g.faces := fun x hx => ((hw.mesh.edge_face e he1 x).1 hx).1
    have hcont : ∀ x ∈ g.eFaces e, (g.zFaces z).contains x = decide (g.fZone x = some z) := by
      intro x hx
      rw [Bool.eq_iff_iff, List.contains_iff_mem, hw.zones.mem_iff hz]
      simp [hfaces x hx]
    rw [List.filter_congr hcont]
    obtain ⟨h3, h4⟩ := hw.mesh.edge_faces e he1
    unfold isOuter isInner
    match h : g.eFaces e with
    | [] => rw [h] at h3; simp at h3
    | [a] =>
      rw [h] at hin
      obtain rfl := List.mem_singleton.1 hin
      simp [hf'.2]
    | [a, b] =>
      rw [h] at hin
      simp only [res_bind_ok]
      show Except.ok _ = _
      simp only [List.mem_cons, List.not_mem_nil, or_false] at hin
      rcases hin with rfl | rfl
      · by_cases hb : g.fZone b = some z
        · simp [hf'.2, hb]
        · have : ¬ (some z = g.fZone b) := fun h => hb h.symm
          simp [hf'.2, hb, this]
      · by_cases hb : g.fZone a = some z
        · simp [hf'.2, hb]
        · simp [hf'.2, hb]
    | a :: b :: c :: t => rw [h] at h3; simp at h3
  unfold outerCount rim
  rw [mapM_ok _ _ _ h1, res_bind_ok, List.filter_map, List.length_map]
  rfl

/-- The outer edges of a zone are its edges with just one face in the zone, and the quality factor is the root of the number of faces divided by their
number, unless the zone is closed. -/
theorem C98_quality [NatCast F] [Div F] (sqrt : F → F) {g : Grid F R} (hw : Wf g) (hl : ZoneLists g) {z : Nat} (hz : z ∈ g.zones) :
    outerCount g z = .ok (rim g z).length ∧
      qualityFactor sqrt g z = .ok (if rim g z = [] then none else some (sqrt ((g.zFaces z).length : F) / ((rim g z).length : F))) := by
  have h2 := outerCount_rim hw hl hz
  refine ⟨h2, ?_⟩
  unfold qualityFactor
  rw [h2, res_bind_ok]
  simp only [List.length_eq_zero_iff]

/-! ### Samples -/

instance [DecidableEq F] : DecidableRel (α := List F) (· <+: ·) := fun a b => decidable_of_iff (a.isPrefixOf b = true) List.isPrefixOf_iff_prefix

theorem sample_places : ∀ n ∈ Sample.grid.nodes, ∀ m ∈ Sample.grid.nodes, Sample.grid.nP n = Sample.grid.nP m → n = m := by decide +kernel

/-- The first zone of the sample file fits, the second does not. -/
theorem C98_second_zone_violation : loadBlocks Sample.rc true Sample.new Sample.blocks = .ok Sample.grid ∧ Sample.grid.zones = [0, 1] ∧
    ConnFits Sample.grid 0 ∧ ¬ ConnFits Sample.grid 1 := by
  have h := Sample.loaded.2
  refine ⟨Sample.blocks_load, Sample.zones, ?_, ?_⟩
  · rw [C98_fits_partial Sample.wf h.lists h.glo sample_places (by rw [Sample.zones]; simp)]
    decide +kernel
  · rw [C98_fits_partial Sample.wf h.lists h.glo sample_places (by rw [Sample.zones]; simp)]
    decide +kernel

/-- A face with `MImp2 = 3` is given with zero. -/
theorem C98_zero_violation : ∃ g : Grid Int (Int × Int × Int), Wf g ∧ 0 ∈ g.zones ∧
    ∃ f ∈ g.zFaces 0, g.getData 0 f "MImp2".toList = 3 ∧
      variablesArray true g 0 ≠ .ok ((g.zFaces 0).map (fun f => (g.fGlo f : Int) :: mpiVars.map (g.getData 0 f))) := by
  refine ⟨Sample.grid.setData 0 "MImp2".toList 3, Sample.wf.withData _, by show 0 ∈ Sample.grid.zones; rw [Sample.zones]; simp, 0, by decide +kernel,
    by decide +kernel, ?_⟩
  rw [Ne, C98_variables_partial]
  intro h
  have := (h 0 (by decide +kernel)).1
  revert this
  decide +kernel

/-- The second zone of the sample has one face, with the number 2. -/
example : gloSlice Sample.grid 1 = "2".toList ∧ gloSlice Sample.grid 0 = "0 1".toList := by decide +kernel

/-- The zones of the sample have outer edges. -/
example : (rim Sample.grid 0).length = 4 ∧ (rim Sample.grid 1).length = 3 ∧ GloPerm Sample.grid ∧ ZoneLists Sample.grid :=
  ⟨by decide +kernel, by decide +kernel, Sample.loaded.2.glo.perm, Sample.loaded.2.lists⟩

end Verif.Props
