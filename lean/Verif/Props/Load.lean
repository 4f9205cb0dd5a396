import Verif.Proofs.LoadAny
import Verif.Proofs.Sample

/-! Properties C01 - C03 and the loading part of C04 - C06. -/

namespace Verif.Props
open Verif Grid
variable {F R : Type} [DecidableEq R]

/-! ## C01 Links of a loaded mesh -/

/-- After a successful load with node merging of a file without degenerate faces (into a grid object in any
state) all links are mutually consistent: see `Mesh`. -/
theorem C01_incidence (rc : Vec F → R) (g g' : Grid F R) (blocks : List (ZoneBlock F))
    (hd : NonDegenerate rc true blocks) (h : loadBlocks rc true g blocks = .ok g') : Mesh g' := by
  rcases load_spec rc true g blocks (load_valid rc true g g' blocks h) hd (by intro h; cases h) with ⟨_, h2⟩ | ⟨_, g2, h2, h3⟩
  · rw [h] at h2; cases h2
  · rw [h] at h2; obtain rfl := Except.ok.inj h2; exact h3.mesh

/-- The same without merging, when the points of each zone are at different places. -/
theorem C01_incidence_unmerged (rc : Vec F → R) (g g' : Grid F R) (blocks : List (ZoneBlock F))
    (hd : NonDegenerate rc false blocks) (hp : ∀ b ∈ blocks, (b.pts.map rc).Nodup)
    (h : loadBlocks rc false g blocks = .ok g') : Mesh g' := by
  rcases load_spec rc false g blocks (load_valid rc false g g' blocks h) hd (fun _ => hp) with ⟨_, h2⟩ | ⟨_, g2, h2, h3⟩
  · rw [h] at h2; cases h2
  · rw [h] at h2; obtain rfl := Except.ok.inj h2; exact h3.mesh

/-- Without merging the condition on points is needed: a file of two triangles in which the second one uses a
copy of a corner of the first loads without error, but the second face gets an edge whose end is not
its corner. -/
theorem C01_unmerged_violation : ∃ g', loadBlocks Sample.rc false Sample.new Sample.twins = .ok g' ∧
    (∀ b ∈ Sample.twins, b.Valid) ∧ NonDegenerate Sample.rc false Sample.twins ∧
    ∃ f ∈ g'.faces, ∃ e ∈ g'.fEdges f, ∃ n ∈ g'.eNodes e, n ∉ g'.fNodes f := by
  have h : ∃ f ∈ (Sample.twinsGrid).faces, ∃ e ∈ (Sample.twinsGrid).fEdges f, ∃ n ∈ (Sample.twinsGrid).eNodes e,
      n ∉ (Sample.twinsGrid).fNodes f := by decide +kernel
  exact ⟨_, Sample.twins_load, by decide +kernel, by decide +kernel, h⟩

/-- The hypotheses of `C01_incidence` hold for a two-zone file. -/
example : ∃ g', loadBlocks Sample.rc true Sample.new Sample.blocks = .ok g' ∧ NonDegenerate Sample.rc true Sample.blocks ∧
    g'.faces.length = 3 :=
  ⟨Sample.grid, Sample.blocks_load, Sample.blocks_nondegenerate, by decide +kernel⟩

/-- The hypotheses of `C01_incidence_unmerged` hold for the same file. -/
example : (∃ g', loadBlocks Sample.rc false Sample.new Sample.blocks = .ok g') ∧ NonDegenerate Sample.rc false Sample.blocks ∧
    ∀ b ∈ Sample.blocks, (b.pts.map Sample.rc).Nodup := by
  refine ⟨?_, by decide +kernel, by decide +kernel⟩
  have h : (loadBlocks Sample.rc false Sample.new Sample.blocks).isOk = true := by decide +kernel
  cases hc : loadBlocks Sample.rc false Sample.new Sample.blocks with
  | ok g => exact ⟨g, rfl⟩
  | error e => rw [hc] at h; cases h

/-! ## C02 Rejection of non-manifold files -/

/-- A correct file without degenerate faces is rejected with the 'Too many faces' exception exactly when three
faces have two corners in common, and loads otherwise. -/
theorem C02_reject_iff (rc : Vec F → R) (g : Grid F R) (blocks : List (ZoneBlock F)) (hv : ∀ b ∈ blocks, b.Valid)
    (hd : NonDegenerate rc true blocks) :
    (loadBlocks rc true g blocks = .error (.exc "Too many faces linking with this edge") ↔ OverShared rc true blocks) ∧
    ((∃ g', loadBlocks rc true g blocks = .ok g') ↔ ¬ OverShared rc true blocks) := by
  rcases load_spec rc true g blocks hv hd (by intro h; cases h) with ⟨h1, h2⟩ | ⟨h1, g', h2, _⟩
  · refine ⟨⟨fun _ => h1, fun _ => h2⟩, ⟨?_, fun h => absurd h1 h⟩⟩
    rintro ⟨g', h⟩; rw [h2] at h; cases h
  · refine ⟨⟨fun h => ?_, fun h => absurd h h1⟩, ⟨fun _ => h1, fun _ => ⟨g', h2⟩⟩⟩
    rw [h2] at h; cases h

/-- The same without merging, when the points of each zone are at different places. -/
theorem C02_reject_iff_unmerged (rc : Vec F → R) (g : Grid F R) (blocks : List (ZoneBlock F))
    (hv : ∀ b ∈ blocks, b.Valid) (hd : NonDegenerate rc false blocks) (hp : ∀ b ∈ blocks, (b.pts.map rc).Nodup) :
    (loadBlocks rc false g blocks = .error (.exc "Too many faces linking with this edge") ↔ OverShared rc false blocks) ∧
    ((∃ g', loadBlocks rc false g blocks = .ok g') ↔ ¬ OverShared rc false blocks) := by
  rcases load_spec rc false g blocks hv hd (fun _ => hp) with ⟨h1, h2⟩ | ⟨h1, g', h2, _⟩
  · refine ⟨⟨fun _ => h1, fun _ => h2⟩, ⟨?_, fun h => absurd h1 h⟩⟩
    rintro ⟨g', h⟩; rw [h2] at h; cases h
  · refine ⟨⟨fun h => ?_, fun h => absurd h h1⟩, ⟨fun _ => h1, fun _ => ⟨g', h2⟩⟩⟩
    rw [h2] at h; cases h

/-- Three triangles on one side are rejected; the file is correct and not degenerate. -/
example : (∀ b ∈ Sample.fan, b.Valid) ∧ NonDegenerate Sample.rc true Sample.fan ∧ OverShared Sample.rc true Sample.fan :=
  ⟨by decide +kernel, by decide +kernel, (0, some (0, 0, 0)), (0, some (1, 0, 0)), by decide +kernel, by decide +kernel⟩

/-- A file that is not rejected. -/
example : (∀ b ∈ Sample.blocks, b.Valid) ∧ NonDegenerate Sample.rc true Sample.blocks ∧ ¬ OverShared Sample.rc true Sample.blocks :=
  ⟨Sample.blocks_valid, Sample.blocks_nondegenerate, Sample.loaded.1⟩

/-! ## C03 Merging of nodes -/

/-- After a successful load with merging (degenerate faces allowed) different nodes have different rounded
coordinates. -/
theorem C03_merged_keys (rc : Vec F → R) (g g' : Grid F R) (blocks : List (ZoneBlock F))
    (h : loadBlocks rc true g blocks = .ok g') : (g'.nodes.map (fun n => rc (g'.nP n))).Nodup := by
  have k := load_any rc true g g' blocks h
  refine List.Nodup.map_on ?_ k.nodup
  intro n hn m hm e
  rw [← k.keys n hn, ← k.keys m hm] at e
  exact k.merged rfl n hn m hm e

/-- Zone by zone and face by face the corners written in the file are the nodes of the faces of the grid, up to
rounding; every point of the file is a node and every node comes from a point of the file. -/
theorem C03_corners (rc : Vec F → R) (merge : Bool) (g g' : Grid F R) (blocks : List (ZoneBlock F))
    (h : loadBlocks rc merge g blocks = .ok g') :
    List.Forall₂ (fun b z => g'.zName z = b.name ∧ List.Forall₂ (fun fc f => g'.fData f = fc.1 ∧
      List.Forall₂ (fun s n => n ∈ g'.nodes ∧ ∃ p, b.point? s = some p ∧ rc (g'.nP n) = rc p) fc.2 (g'.fNodes f))
      b.faces (g'.zFaces z)) blocks g'.zones ∧
    (∀ b ∈ blocks, ∀ p ∈ b.pts, ∃ n ∈ g'.nodes, rc (g'.nP n) = rc p) ∧
    (∀ n ∈ g'.nodes, ∃ b ∈ blocks, ∃ p ∈ b.pts, rc (g'.nP n) = rc p) := by
  have k := load_any rc merge g g' blocks h
  refine ⟨?_, ?_, ?_⟩
  · refine k.rep.imp ?_
    intro b z hb
    refine ⟨hb.name, hb.faces.imp ?_⟩
    intro fc f hf
    refine ⟨hf.1, hf.2.imp ?_⟩
    rintro s n ⟨hn, p, hp, hk, _⟩
    exact ⟨hn, p, hp, by rw [← k.keys n hn]; exact hk⟩
  · intro b hb p hp
    obtain ⟨n, hn, hk, _⟩ := k.points b hb p hp
    exact ⟨n, hn, by rw [← k.keys n hn]; exact hk⟩
  · intro n hn
    obtain ⟨b, hb, p, hp, hk⟩ := k.used n hn
    exact ⟨b, hb, p, hp, by rw [← k.keys n hn]; exact hk⟩

/-- 'We expect to find node' is never raised, whatever the file. -/
theorem C03_no_lost_node (rc : Vec F → R) (merge : Bool) (g : Grid F R) (blocks : List (ZoneBlock F)) :
    loadBlocks rc merge g blocks ≠ .error (.exc "We expect to find node") := by
  intro h
  rcases load_error rc merge g blocks _ h with h | h | h | h <;> simp at h

/-- Without merging the nodes are all the points of all the zones, in file order. -/
theorem C03_unmerged (rc : Vec F → R) (g g' : Grid F R) (blocks : List (ZoneBlock F))
    (h : loadBlocks rc false g blocks = .ok g') :
    g'.nodes.map g'.nP = blocks.flatMap (·.pts) ∧ g'.nodes.Nodup ∧
      g'.nodes.length = (blocks.map (fun b => b.pts.length)).sum := by
  have k := load_any rc false g g' blocks h
  refine ⟨k.unmerged rfl, k.nodup, ?_⟩
  rw [← List.length_map (f := g'.nP), k.unmerged rfl, List.length_flatMap]

/-- With merging the nodes are, in file order and with their exact coordinates, the points whose rounded coordinates
did not occur earlier in the file. -/
theorem C03_first_points (rc : Vec F → R) (g g' : Grid F R) (blocks : List (ZoneBlock F))
    (h : loadBlocks rc true g blocks = .ok g') :
    g'.nodes.map g'.nP = registered rc true (blocks.flatMap (·.pts)) := (load_any rc true g g' blocks h).registered

/-- The sample file has seven points, two of them twice; five nodes are left after merging. -/
example : loadBlocks Sample.rc true Sample.new Sample.blocks = .ok Sample.grid ∧ Sample.grid.nodes.length = 5 :=
  ⟨Sample.blocks_load, by decide +kernel⟩

/-! ## C04 - C06, loading -/

/-- The position of a node, edge or face is its global identifier. -/
theorem C04_load_ids (rc : Vec F → R) (g g' : Grid F R) (blocks : List (ZoneBlock F))
    (hd : NonDegenerate rc true blocks) (h : loadBlocks rc true g blocks = .ok g') :
    (∀ i n, g'.nodes[i]? = some n → g'.nGlo n = i) ∧ (∀ i e, g'.edges[i]? = some e → g'.eGlo e = i) ∧
    (∀ i f, g'.faces[i]? = some f → g'.fGlo f = i) := by
  rcases load_spec rc true g blocks (load_valid rc true g g' blocks h) hd (by intro h; cases h) with ⟨_, h2⟩ | ⟨_, g2, h2, h3⟩
  · rw [h] at h2; cases h2
  · rw [h] at h2; obtain rfl := Except.ok.inj h2; exact ⟨h3.glo.nodes, h3.glo.edges, h3.glo.faces⟩

/-- Each face is in the list of exactly one zone (for every file that loads). -/
theorem C05_load_partition (rc : Vec F → R) (merge : Bool) (g g' : Grid F R) (blocks : List (ZoneBlock F))
    (h : loadBlocks rc merge g blocks = .ok g') : ZonesOk g' := (load_any rc merge g g' blocks h).zones

/-- Zone node and edge lists are exact. -/
theorem C06_load_lists (rc : Vec F → R) (g g' : Grid F R) (blocks : List (ZoneBlock F))
    (hd : NonDegenerate rc true blocks) (h : loadBlocks rc true g blocks = .ok g') : ZoneLists g' := by
  rcases load_spec rc true g blocks (load_valid rc true g g' blocks h) hd (by intro h; cases h) with ⟨_, h2⟩ | ⟨_, g2, h2, h3⟩
  · rw [h] at h2; cases h2
  · rw [h] at h2; obtain rfl := Except.ok.inj h2; exact h3.lists

end Verif.Props
