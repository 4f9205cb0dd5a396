import Verif.Proofs.History
import Verif.Proofs.Connected
import Verif.Proofs.Sample
import Mathlib.Algebra.Order.Ring.Rat

/-! Properties C04 - C14: decompositions.  All theorems are about grids satisfying `Wf`, i.e. loaded grids
(`Sample.wf`, C01, C05) and everything reached from them by decompositions (`C05_history`). -/

namespace Verif.Props
open Verif Grid
variable {F R : Type}

/-! ## C04 - C06 Any sequence of decompositions -/

/-- A grid loaded from any file without degenerate faces and then decomposed any number of times, in any order,
with any arguments: nodes, edges, faces, coordinates, data, identifiers and links are those of the
loaded grid, and global identifiers are positions. -/
theorem C04_frame {S : Type} [LinearOrder S] [DecidableEq R] (rc : Vec F → R) (g0 g g' : Grid F R)
    (blocks : List (ZoneBlock F)) (hd : NonDegenerate rc true blocks) (h0 : loadBlocks rc true g0 blocks = .ok g)
    (cs : List (DecompCall S)) (hp : ∀ c ∈ cs, c.Possible) (h : cs.foldlM DecompCall.run g = .ok g') :
    SameMesh g g' ∧ GloIds g' := by
  rcases load_spec rc true g0 blocks (load_valid rc true g0 g blocks h0) hd (by intro h; cases h) with ⟨_, h2⟩ | ⟨_, g2, h2, h3⟩
  · rw [h0] at h2; cases h2
  · rw [h0] at h2; obtain rfl := Except.ok.inj h2
    have k := (calls_ok cs hp g g' ⟨h3.mesh, h3.zones, h3.alloc⟩ h3.lists h).1
    exact ⟨k, k.gloIds h3.glo⟩

/-- In the same situation each face is in the list of exactly one zone, the one it points to. -/
theorem C05_history {S : Type} [LinearOrder S] [DecidableEq R] (rc : Vec F → R) (g0 g g' : Grid F R)
    (blocks : List (ZoneBlock F)) (hd : NonDegenerate rc true blocks) (h0 : loadBlocks rc true g0 blocks = .ok g)
    (cs : List (DecompCall S)) (hp : ∀ c ∈ cs, c.Possible) (h : cs.foldlM DecompCall.run g = .ok g') :
    g'.zones.Nodup ∧ (g'.zones.flatMap g'.zFaces).Perm g'.faces ∧ g'.faces.Nodup ∧
    ∀ z ∈ g'.zones, ∀ f ∈ g'.zFaces z, g'.fZone f = some z := by
  rcases load_spec rc true g0 blocks (load_valid rc true g0 g blocks h0) hd (by intro h; cases h) with ⟨_, h2⟩ | ⟨_, g2, h2, h3⟩
  · rw [h0] at h2; cases h2
  · rw [h0] at h2; obtain rfl := Except.ok.inj h2
    have k := (calls_ok cs hp g g' ⟨h3.mesh, h3.zones, h3.alloc⟩ h3.lists h).2.1
    exact ⟨k.zones.zones_nodup, k.zones.partition, k.mesh.faces_nodup, k.zones.points⟩

/-- In the same situation the node (edge) list of each zone is the grid node (edge) list restricted to the nodes
(edges) of the faces of the zone. -/
theorem C06_history {S : Type} [LinearOrder S] [DecidableEq R] (rc : Vec F → R) (g0 g g' : Grid F R)
    (blocks : List (ZoneBlock F)) (hd : NonDegenerate rc true blocks) (h0 : loadBlocks rc true g0 blocks = .ok g)
    (cs : List (DecompCall S)) (hp : ∀ c ∈ cs, c.Possible) (h : cs.foldlM DecompCall.run g = .ok g') :
    ZoneLists g' ∧ g'.nodes.Nodup ∧ g'.edges.Nodup := by
  rcases load_spec rc true g0 blocks (load_valid rc true g0 g blocks h0) hd (by intro h; cases h) with ⟨_, h2⟩ | ⟨_, g2, h2, h3⟩
  · rw [h0] at h2; cases h2
  · rw [h0] at h2; obtain rfl := Except.ok.inj h2
    have k := calls_ok cs hp g g' ⟨h3.mesh, h3.zones, h3.alloc⟩ h3.lists h
    exact ⟨k.2.2, k.2.1.mesh.nodes_nodup, k.2.1.mesh.edges_nodup⟩

/-- One decomposition of a well-formed grid, including the zone identifiers. -/
theorem C05_single {S : Type} [LinearOrder S] (g g' : Grid F R) (hw : Wf g) (c : DecompCall S) (hp : c.Possible)
    (h : c.run g = .ok g') : DecompOk g g' := call_ok g g' hw c hp h

/-- A history of four different decompositions of the sample grid that succeeds. -/
example : ∃ g', ([.linear 2 none, .random (fun i => i % 2) 2 none, .farhat 2 none ["random 0".toList],
    .mono (some "x".toList)] : List (DecompCall Int)).foldlM DecompCall.run Sample.grid = .ok g' := by
  have h : (([.linear 2 none, .random (fun i => i % 2) 2 none, .farhat 2 none ["random 0".toList],
    .mono (some "x".toList)] : List (DecompCall Int)).foldlM DecompCall.run Sample.grid).isOk = true := by decide +kernel
  cases hc : ([.linear 2 none, .random (fun i => i % 2) 2 none, .farhat 2 none ["random 0".toList],
    .mono (some "x".toList)] : List (DecompCall Int)).foldlM DecompCall.run Sample.grid with
  | ok g => exact ⟨g, rfl⟩
  | error e => rw [hc] at h; cases h

/-- The sample grid is well formed and has three faces in two zones. -/
example : Wf Sample.grid ∧ Sample.grid.faces = [0, 1, 2] ∧ Sample.grid.zones = [0, 1] :=
  ⟨Sample.wf, Sample.faces, Sample.zones⟩

/-! ## C07 decompose_mono -/

theorem C07_mono (g : Grid F R) (hw : Wf g) (nm : Option Str) :
    ∃ g' z, g.decomposeMono nm = .ok g' ∧ g'.zones = [z] ∧ g'.zName z = "mono".toList ∧ g'.zFaces z = g.faces := by
  obtain ⟨g', h1, _, _, h2, h3, h4⟩ := mono_spec g hw nm
  exact ⟨g', g.zNext, h1, h2, h3, h4⟩

/-! ## C08 decompose_random -/

/-- For every sequence of random numbers in range there are exactly `count` zones named `random i` and the `i`-th
face is in the zone drawn for it.  The faces of a zone stand in the order of the grid. -/
theorem C08_random (g : Grid F R) (hw : Wf g) (rand : Nat → Nat) (count : Nat) (nm : Option Str)
    (hr : ∀ i, i < g.faces.length → rand i < count) :
    ∃ g', g.decomposeRandom rand count nm = .ok g' ∧ DecompOk g g' ∧ g'.zones.length = count ∧
      (∀ i z, g'.zones[i]? = some z → g'.zName z = "random ".toList ++ Py.natStr i) ∧
      (∀ i f, g.faces[i]? = some f → ∃ z, g'.zones[rand i]? = some z ∧ g'.fZone f = some z ∧ f ∈ g'.zFaces z) ∧
      (∀ i z, g'.zones[i]? = some z → g'.zFaces z = (g.faces.zipIdx.filter (fun p => rand p.2 = i)).map (·.1)) := by
  obtain ⟨g', h1, h2, _, h3, h4, h5, h6⟩ := random_spec g hw rand count nm hr
  refine ⟨g', h1, h2, by rw [h3]; simp, ?_, ?_, ?_⟩
  · intro i z hz
    rw [h3] at hz
    obtain ⟨q1, q2⟩ := List.getElem?_eq_some_iff.1 hz
    rw [List.getElem_range'] at q2
    rw [List.length_range'] at q1
    rw [← q2, Nat.one_mul]
    exact h4 i q1
  · intro i f hf
    have hi := (List.getElem?_eq_some_iff.1 hf).1
    have hz : g'.zones[rand i]? = some (g.zNext + rand i) := by
      rw [h3, List.getElem?_range' (hr i hi)]; simp
    refine ⟨_, hz, h5 i f hf, (h2.zones.mem_iff (List.mem_of_getElem? hz) f).2 ⟨?_, h5 i f hf⟩⟩
    rw [h2.same.faces]; exact List.mem_of_getElem? hf
  · intro i z hz
    rw [h3] at hz
    obtain ⟨q1, q2⟩ := List.getElem?_eq_some_iff.1 hz
    rw [List.getElem_range'] at q2
    rw [List.length_range'] at q1
    rw [← q2, Nat.one_mul]
    exact h6 i q1

/-- Drawing the numbers 1, 0, 1 for the three faces of the sample. -/
example : Wf Sample.grid ∧ ∀ i, i < Sample.grid.faces.length → (fun i : Nat => (i + 1) % 2) i < 2 :=
  ⟨Sample.wf, fun i _ => Nat.mod_lt _ (by decide)⟩

/-! ## C09 decompose_linear -/

/-- Never raises for `count ≥ 1`; the zones cut the face list of the grid into consecutive parts; sizes differ
by at most one, larger ones first. -/
theorem C09_linear (g : Grid F R) (hw : Wf g) (count : Nat) (hc : 1 ≤ count) (nm : Option Str) :
    ∃ g', g.decomposeLinear count nm = .ok g' ∧ DecompOk g g' ∧ g'.zones.length = count ∧
      (∀ i z, g'.zones[i]? = some z → g'.zName z = "linear ".toList ++ Py.natStr i) ∧
      (g'.zones.flatMap g'.zFaces) = g.faces ∧
      (∀ i j zi zj : Nat, i ≤ j → g'.zones[i]? = some zi → g'.zones[j]? = some zj →
        (g'.zFaces zj).length ≤ (g'.zFaces zi).length ∧ (g'.zFaces zi).length ≤ (g'.zFaces zj).length + 1) := by
  obtain ⟨g', h1, h2, _, h3, h4, h5, h6⟩ := linear_spec g hw count hc nm
  have hz : ∀ i z : Nat, g'.zones[i]? = some z → i < count ∧ z = g.zNext + i := by
    intro i z hz
    rw [h3] at hz
    obtain ⟨q1, q2⟩ := List.getElem?_eq_some_iff.1 hz
    rw [List.getElem_range'] at q2
    rw [List.length_range'] at q1
    exact ⟨q1, by omega⟩
  have hlen : ∀ i : Nat, i < count → (g'.zFaces (g.zNext + i)).length =
      (if i < g.faces.length % count then g.faces.length / count + 1 else g.faces.length / count) := by
    intro i hi
    rw [h5 i hi, List.length_take, List.length_drop, linTotal_eq]
    have e1 := Nat.div_add_mod g.faces.length count
    have e2 : (i + 1) * (g.faces.length / count) ≤ count * (g.faces.length / count) :=
      Nat.mul_le_mul_right _ (by omega)
    have e3 : (i + 1) * (g.faces.length / count) = i * (g.faces.length / count) + g.faces.length / count := Nat.succ_mul _ _
    have e4 := Nat.mod_lt g.faces.length (show count > 0 by omega)
    split <;> omega
  refine ⟨g', h1, h2, by rw [h3]; simp, ?_, h6, ?_⟩
  · intro i z h
    obtain ⟨q1, rfl⟩ := hz i z h
    exact h4 i q1
  · intro i j zi zj hij hi hj
    obtain ⟨q1, rfl⟩ := hz i zi hi
    obtain ⟨q2, rfl⟩ := hz j zj hj
    rw [hlen i q1, hlen j q2]
    split <;> split <;> omega

/-- For `count = 0` a division by zero is raised. -/
theorem C09_linear_zero (g : Grid F R) (nm : Option Str) : g.decomposeLinear 0 nm = .error .zeroDiv := rfl

/-! ## C10 Breadth-first path -/

/-- Terminates without error and lists exactly the faces satisfying the predicate, each once, group by group:
every group is a maximal connected set and each face of it but the first is adjacent to an earlier
one. Nothing but the marks changes. -/
theorem C10_bfs {g : Grid F R} (hm : Mesh g) (pred : Nat → Bool) (start : Nat) (hs : start ∈ g.faces) :
    ∃ mk p, g.bfsPath start pred = .ok ({ g with fMark := mk }, p) ∧ p.Nodup ∧
      (∀ f, f ∈ p ↔ f ∈ g.faces ∧ pred f = true) ∧
      (∃ gs : List (List Nat), p = gs.flatten ∧ ∀ c ∈ gs, IsGroup (Adj g) (fun f => f ∈ g.faces ∧ pred f = true) c) ∧
      (pred start = true → p[0]? = some start) := bfsPath_spec hm pred start hs

example : Mesh Sample.grid ∧ 1 ∈ Sample.grid.faces := ⟨Sample.wf.mesh, by rw [Sample.faces]; simp⟩

/-! ## C11, C12 decompose_farhat -/

/-- Never raises for `count ≥ 1` on a non-empty grid; fixed zones keep their faces and come first; `count` new
zones follow, their sizes differ by at most one, larger first; every face is in exactly one zone. -/
theorem C11_farhat (g : Grid F R) (hw : Wf g) (count : Nat) (hc : 1 ≤ count) (hne : g.faces ≠ []) (nm : Option Str)
    (names : List Str) :
    ∃ g' new, g.decomposeFarhat count nm names = .ok g' ∧ DecompOk g g' ∧
      g'.zones = g.zones.filter (fun z => g.zName z ∈ names) ++ new ∧ new.length = count ∧
      (∀ z ∈ g.zones, g.zName z ∈ names → g'.zFaces z = g.zFaces z ∧ g'.zName z = g.zName z) ∧
      (∀ i z, new[i]? = some z → g'.zName z = "farhat ".toList ++ Py.natStr i) ∧
      (∀ i j zi zj : Nat, i ≤ j → new[i]? = some zi → new[j]? = some zj →
        (g'.zFaces zj).length ≤ (g'.zFaces zi).length ∧ (g'.zFaces zi).length ≤ (g'.zFaces zj).length + 1) := by
  obtain ⟨g', h1, h2, _, h3, h4, h5, h6⟩ := farhat_spec g hw count hc hne nm names
  have hz : ∀ i z : Nat, (List.range' g.zNext count)[i]? = some z → i < count ∧ z = g.zNext + i := by
    intro i z hz
    obtain ⟨q1, q2⟩ := List.getElem?_eq_some_iff.1 hz
    rw [List.getElem_range'] at q2
    rw [List.length_range'] at q1
    exact ⟨q1, by omega⟩
  refine ⟨g', _, h1, h2, h3, by simp, fun z hz hn => h4 z (mem_kept.2 ⟨hz, hn⟩), ?_, ?_⟩
  · intro i z h
    obtain ⟨q1, rfl⟩ := hz i z h
    exact h5 i q1
  · intro i j zi zj hij hi hj
    obtain ⟨q1, rfl⟩ := hz i zi hi
    obtain ⟨q2, rfl⟩ := hz j zj hj
    obtain ⟨_, _, e1, _⟩ := h6 i q1
    obtain ⟨_, _, e2, _⟩ := h6 j q2
    rw [e1, e2]
    unfold farhatSize
    split <;> split <;> omega

/-- Each new zone is a prefix of a breadth-first path over the faces that were not assigned before it (those that
end up in this or a later new zone); if these faces are connected, the zone is connected. -/
theorem C12_connected (g : Grid F R) (hw : Wf g) (count : Nat) (hc : 1 ≤ count) (hne : g.faces ≠ []) (nm : Option Str)
    (names : List Str) :
    ∃ g' new, g.decomposeFarhat count nm names = .ok g' ∧
      g'.zones = g.zones.filter (fun z => g.zName z ∈ names) ++ new ∧ new.length = count ∧
      ∀ i z : Nat, new[i]? = some z → ∃ path : List Nat,
        PathOf g (fun f => ∃ j z' : Nat, i ≤ j ∧ new[j]? = some z' ∧ g'.fZone f = some z') path ∧
        g'.zFaces z <+: path ∧
        (Connected (Adj g) path → Connected (Adj g) (g'.zFaces z)) := by
  obtain ⟨g', h1, h2, _, h3, h4, h5, h6⟩ := farhat_spec g hw count hc hne nm names
  refine ⟨g', _, h1, h3, by simp, ?_⟩
  intro i z hz
  obtain ⟨q1, q2⟩ := List.getElem?_eq_some_iff.1 hz
  rw [List.getElem_range'] at q2
  rw [List.length_range'] at q1
  obtain rfl : z = g.zNext + i := by omega
  obtain ⟨path, k1, _, k3⟩ := h6 i q1
  refine ⟨path, k3.of_iff ?_, by rw [k1]; exact List.take_prefix _ _, fun hcn => by rw [k1]; exact k3.take_connected hcn _⟩
  intro f _
  constructor
  · rintro ⟨j, hj1, hj2, hj3⟩
    exact ⟨j, _, hj1, by rw [List.getElem?_range' hj2], by rw [hj3]; simp⟩
  · rintro ⟨j, z', hj1, hj2, hj3⟩
    obtain ⟨r1, r2⟩ := List.getElem?_eq_some_iff.1 hj2
    rw [List.getElem_range'] at r2
    rw [List.length_range'] at r1
    exact ⟨j, hj1, r1, by rw [hj3, ← r2]; simp⟩

example : Wf Sample.grid ∧ Sample.grid.faces ≠ [] := ⟨Sample.wf, by rw [Sample.faces]; simp⟩

/-! ## C13, C14 decompose_hierarchical -/

/-- Whenever it returns, every face is in exactly one zone, zones with fixed names keep exactly their faces, there
are at most `2^(levels-1)` other zones, and none of these is empty if there are faces outside of the
fixed zones. -/
theorem C13_hierarchical {S : Type} [LinearOrder S] (g g' : Grid F R) (hw : Wf g) (fns : List (Nat → S)) (levels : Nat)
    (nm : Option Str) (names : List Str) (hr : g.decomposeHierarchical fns levels nm names = .ok g') :
    DecompOk g g' ∧
      (∀ z ∈ g.zones, g.zName z ∈ names → z ∈ g'.zones ∧ g'.zFaces z = g.zFaces z ∧ g'.zName z = g.zName z) ∧
      (g'.zones.filter (fun z => z ∉ g.zones.filter (fun z => g.zName z ∈ names))).length ≤ 2 ^ (levels - 1) ∧
      (freeFaces g names ≠ [] → ∀ z ∈ g'.zones, g'.zFaces z = [] → z ∈ g.zones ∧ g.zName z ∈ names) := by
  obtain ⟨h1, _, h2, h3, h4⟩ := hier_spec g g' hw fns levels nm names hr
  exact ⟨h1, fun z hz hn => h2 z (mem_kept.2 ⟨hz, hn⟩), h3, fun hf z hz he => mem_kept.1 (h4 hf z hz he)⟩

/-- One split of a zone that is not fixed and has at least two faces. If it returns, the zone is replaced by two
new ones: for one of the sign functions and the median of its values, the first contains the faces
strictly below the median and the second the others, in order; none is empty; other zones do not
change. -/
theorem C13_split {S : Type} [LinearOrder S] (g g' : Grid F R) (hw : Wf g) (zone : Nat) (hz : zone ∈ g.zones)
    (hf : g.zFixed zone = false) (hl : 2 ≤ (g.zFaces zone).length) (fns : List (Nat → S))
    (hr : g.splitZone zone fns = .ok g') :
    ∃ l r, g'.zones = g.zones.erase zone ++ [l, r] ∧ l ∉ g.zones ∧ r ∉ g.zones ∧ l ≠ r ∧
      g'.zName l = g.zName zone ++ ['l'] ∧ g'.zName r = g.zName zone ++ ['r'] ∧
      g'.zFaces l ≠ [] ∧ g'.zFaces r ≠ [] ∧
      (∃ fn ∈ fns, ∃ b, IsMedian ((g.zFaces zone).map fn) b ∧
        g'.zFaces l = (g.zFaces zone).filter (fun f => fn f < b) ∧
        g'.zFaces r = (g.zFaces zone).filter (fun f => ¬ fn f < b)) ∧
      (∀ z ∈ g.zones, z ≠ zone → g'.zFaces z = g.zFaces z ∧ g'.zName z = g.zName z) := by
  have hnd : (g.zFaces zone).Nodup :=
    List.Sublist.nodup (List.sublist_flatten_of_mem (List.mem_map_of_mem hz))
      (hw.zones.partition.nodup_iff.2 hw.mesh.faces_nodup)
  rcases splitZone_main g zone fns hz hw.zones.zones_nodup hw.alloc hnd (hw.zones.points zone hz) hf hl with
    ⟨_, h⟩ | ⟨fl, _, _, g2, h1, h2⟩
  · rw [hr] at h; cases h
  · rw [hr] at h1
    cases h1
    obtain ⟨fn, hfn, b, hb, e1, e2, n1, n2⟩ := h2.split
    refine ⟨g.zNext, g.zNext + 1, h2.zones, fun hc => ?_, fun hc => ?_, by omega, h2.names.1, h2.names.2, n1, n2,
      ⟨fn, hfn, b, hb, e1, ?_⟩, fun z hz hne => ⟨(h2.others z hz hne).1, (h2.others z hz hne).2.1⟩⟩
    · have := hw.alloc _ hc; omega
    · have := hw.alloc _ hc; omega
    · rw [e2]; apply List.filter_congr; intro f _; simp

/-- Zone 0 of the sample has two faces and is split by the numbers of its faces. -/
example : Wf Sample.grid ∧ 0 ∈ Sample.grid.zones ∧ Sample.grid.zFixed 0 = false ∧ 2 ≤ (Sample.grid.zFaces 0).length ∧
    ∃ g', Sample.grid.splitZone 0 [fun f => f] = .ok g' := by
  have hz : 0 ∈ Sample.grid.zones := by decide +kernel
  have hf : Sample.grid.zFixed 0 = false := by decide +kernel
  have hl : 2 ≤ (Sample.grid.zFaces 0).length := by decide +kernel
  have hnd : (Sample.grid.zFaces 0).Nodup := by decide +kernel
  refine ⟨Sample.wf, hz, hf, hl, ?_⟩
  rcases splitZone_main Sample.grid 0 [fun f => f] hz Sample.wf.zones.zones_nodup Sample.wf.alloc hnd
    (Sample.wf.zones.points 0 hz) hf hl with ⟨h, _⟩ | ⟨_, _, _, g2, h1, _⟩
  · exact absurd (splits_of_injective _ _ hnd hl (fun _ _ _ _ e => e)) (h _ rfl)
  · exact ⟨g2, h1⟩

/-- `decompose_hierarchical` returns on a well-formed grid when the last sign function takes different values on
different faces. (Missing for C14: grids where it does not; there the code raises, see
`C14_planar_violation`.) -/
theorem C14_returns_partial {S : Type} [LinearOrder S] (g : Grid F R) (hw : Wf g) (fns : List (Nat → S)) (levels : Nat)
    (nm : Option Str) (names : List Str) (hl : 1 ≤ levels) (fl : Nat → S) (hfl : fns.getLast? = some fl)
    (hinj : ∀ a ∈ g.faces, ∀ b ∈ g.faces, fl a = fl b → a = b) :
    ∃ g', g.decomposeHierarchical fns levels nm names = .ok g' :=
  hier_total g hw fns levels nm names hl fl hfl fun fs hnd hlen hsub =>
    splits_of_injective fs fl hnd hlen fun a ha b hb e => hinj a (hsub a ha) b (hsub b hb) e

/-- One level always works. -/
theorem C14_one_level_partial {S : Type} [LinearOrder S] (g : Grid F R) (hw : Wf g) (fns : List (Nat → S))
    (nm : Option Str) (names : List Str) : ∃ g', g.decomposeHierarchical fns 1 nm names = .ok g' :=
  hier_one g hw fns nm names

example : Wf Sample.grid ∧ ∀ a ∈ Sample.grid.faces, ∀ b ∈ Sample.grid.faces, (fun f : Nat => f) a = (fun f : Nat => f) b → a = b :=
  ⟨Sample.wf, fun _ _ _ _ h => h⟩

/-- Exactly when `decompose_hierarchical` returns. One level always works (`C14_one_level_partial`). With one more
level it returns if and only if it returned before and the last sign function splits every zone of that result
which is not a fixed zone and has two or more faces; it does not matter whether the other sign functions split the
zone. Otherwise `ValueError` is raised. -/
theorem C14_exact_partial {S : Type} [LinearOrder S] (g : Grid F R) (hw : Wf g) (fns : List (Nat → S)) (k : Nat)
    (nm : Option Str) (names : List Str) :
    ((∃ g', g.decomposeHierarchical fns (k + 2) nm names = .ok g') ↔
      ∃ gk, g.decomposeHierarchical fns (k + 1) nm names = .ok gk ∧
        ∀ z ∈ gk.zones, z ∉ keptZones g names → 2 ≤ (gk.zFaces z).length →
          ∃ fl, fns.getLast? = some fl ∧ Splits (gk.zFaces z) fl) ∧
    ((∃ g', g.decomposeHierarchical fns (k + 2) nm names = .ok g') ∨
      g.decomposeHierarchical fns (k + 2) nm names = .error .value) := by
  have h := hier_succ g hw fns k nm names
  cases hk : g.decomposeHierarchical fns (k + 1) nm names with
  | error e =>
    rw [hk] at h
    refine ⟨⟨fun ⟨g', hg⟩ => ?_, fun ⟨gk, hg, _⟩ => nomatch hg⟩, Or.inr h.2⟩
    rw [h.2] at hg; cases hg
  | ok gk =>
    rw [hk] at h
    have hp : ∀ g2 : Grid F R, (∀ z ∈ g2.zones, z ∉ keptZones g names → 2 ≤ (g2.zFaces z).length →
          ∃ fl, fns.getLast? = some fl ∧ Splits (g2.zFaces z) fl) ↔
        ∀ z ∈ g2.zones, Passable fns (keptZones g names) g2 z := by
      intro g2
      refine forall₂_congr fun z _ => ?_
      unfold Passable
      constructor
      · intro q
        by_cases h1 : z ∈ keptZones g names
        · exact Or.inl h1
        · by_cases h2 : (g2.zFaces z).length < 2
          · exact Or.inr (Or.inl h2)
          · exact Or.inr (Or.inr (q h1 (by omega)))
      · rintro (q | q | q) h1 h2
        · exact absurd q h1
        · omega
        · exact q
    rcases h with ⟨q, g', hg⟩ | ⟨q, hg⟩
    · exact ⟨⟨fun _ => ⟨gk, rfl, (hp gk).2 q⟩, fun _ => ⟨g', hg⟩⟩, Or.inl ⟨g', hg⟩⟩
    · refine ⟨⟨fun ⟨g', h1⟩ => ?_, fun ⟨g2, h1, h2⟩ => ?_⟩, Or.inr hg⟩
      · rw [hg] at h1; cases h1
      · cases h1; exact absurd ((hp gk).1 h2) q

/-- C14 is false: with the default sign functions every well-formed grid whose nodes all have the same `z`
coordinate and with at least two faces outside the fixed zones makes `decompose_hierarchical` raise
`ValueError` for two or more levels. -/
theorem C14_planar_violation (g : Grid ℚ R) (hw : Wf g) (c : ℚ) (hz : ∀ n ∈ g.nodes, (g.nP n).z = c) (levels : Nat)
    (nm : Option Str) (names : List Str) (hl : 2 ≤ levels) (hf : 2 ≤ (freeFaces g names).length) :
    g.decomposeHierarchical g.centerSigns levels nm names = .error .value := by
  refine hier_fail g hw _ levels nm names hl hf ?_
  intro fl hfl
  have : fl = fun f => (g.getCenter f).z := by
    unfold centerSigns at hfl
    simpa using hfl.symm
  subst this
  refine not_splits_of_const _ _ ((c + c + c) / 3) ?_
  intro f hff
  have hfm : f ∈ g.faces := (List.mem_filter.1 hff).1
  obtain ⟨h1, _, h3⟩ := hw.mesh.face_nodes f hfm
  unfold getCenter
  match hfn : g.fNodes f, h1, h3 with
  | [a, b, d], _, h3 =>
    show ((g.nP a).z + (g.nP b).z + (g.nP d).z) / 3 = _
    rw [hz a (h3 a (by simp)), hz b (h3 b (by simp)), hz d (h3 d (by simp))]

/-- Such a grid exists: a square of two triangles in the plane `z = 0`. -/
example : Wf Sample.flatGrid ∧ (∀ n ∈ Sample.flatGrid.nodes, (Sample.flatGrid.nP n).z = 0) ∧
    2 ≤ (freeFaces Sample.flatGrid []).length :=
  ⟨Sample.flat_wf, by decide +kernel, by decide +kernel⟩

end Verif.Props
