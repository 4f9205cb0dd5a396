import Verif.Proofs.Cases2
import Verif.Proofs.Explode

/-! Helper lemmas for `case_005_explode_bunny`. -/

namespace Verif
variable {F R S : Type}
open Grid

theorem mesh_moved {g : Grid F R} (h : Mesh g) (P : Nat → Vec F) : Mesh { g with nP := P } := by
  cases h; constructor <;> assumption

theorem wf_moved {g : Grid F R} (h : Wf g) (P : Nat → Vec F) : Wf { g with nP := P } := by
  obtain ⟨m, z, a⟩ := h
  refine ⟨mesh_moved m P, ?_, ?_⟩
  · cases z; constructor <;> assumption
  · exact a

theorem storable_moved {g : Grid F R} (h : Storable g) (P : Nat → Vec F) : Storable { g with nP := P } := by
  refine ⟨wf_moved h.wf P, ?_, ?_, h.faces, h.name, h.zoneNames, h.vars, h.dict⟩
  · have := h.lists; cases this; constructor <;> assumption
  · have := h.ids; cases this; constructor <;> assumption

theorem isMean_points [Field F] {P : Nat → Vec F} {ns : List Nat} {m : Vec F} (h : IsMean P ns m) : MeanPoint (ns.map P) m := by
  obtain ⟨h1, h2, h3, h4⟩ := h
  refine ⟨by simpa using h1, ?_, ?_, ?_⟩ <;> rw [List.map_map, List.length_map] <;> assumption

theorem faces_nonempty_nodes {g : Grid F R} (hw : Wf g) (hl : ZoneLists g) {z : Nat} (hz : z ∈ g.zones) (h : g.zFaces z ≠ []) : g.zNodes z ≠ [] := by
  obtain ⟨f, hf⟩ := List.exists_mem_of_ne_nil _ h
  have hff : f ∈ g.faces := hw.face_mem hz hf
  obtain ⟨n, hn⟩ := List.exists_mem_of_length_pos (l := g.fNodes f) (by rw [(hw.mesh.face_nodes f hff).1]; omega)
  refine List.ne_nil_of_mem (a := n) ?_
  rw [hl.nodes z hz, List.mem_filter, List.any_eq_true]
  exact ⟨(hw.mesh.face_nodes f hff).2.2 n hn, f, hf, by simpa using hn⟩

theorem GridFile.load_either [DecidableEq R] {c : Codec F} {text title : Str} {blocks : List (ZoneBlock F)} (h : GridFile c text title blocks)
    (rc : Vec F → R) (merge : Bool) (g : Grid F R) : loadText rc c merge g text = loadBlocks rc merge { g with name := title } blocks := by
  unfold loadText
  obtain ⟨vs, h1⟩ := h g.name
  show (parseFile c (Py.readlines text).length ⟨g.name, [], []⟩ (Py.readlines text) >>= _) = _
  rw [h1, res_bind_ok]

variable [DecidableEq R] [Field F] [DecidableEq F] [CharZero F]

/-- A stored grid, loaded without merging, moved and stored. -/
theorem explode_file {rc : Vec F → R} {c : Codec F} (hc : c.Lawful) (dflt k : F) {g : Grid F R} (hs : Storable g) (hv : SameVars g)
    (hk : KeysApart rc true g) (hne : ∀ z ∈ g.zones, g.zFaces z ≠ []) {text : Str} (ht : GridFile c text g.name (g.zones.map (zoneBlock g dflt)))
    (g0 : Grid F R) :
    ∃ g1 g2 t gm be, loadText rc c false g0 text = .ok g1 ∧ g1.moveFromMeanPoint k = .ok g2 ∧ g2.storeText c dflt = .ok t ∧
      GridFile c t g.name be ∧ MeanPoint ((g.zones.map (zoneBlock g dflt)).flatMap (·.pts)) gm ∧
      Exploded k gm (g.zones.map (zoneBlock g dflt)) be := by
  have hkf : KeysApart rc false g := by
    simp only [KeysApart]
    intro z hz n hn m hm e
    exact hk.zone hs.lists hz n hn m hm e
  obtain ⟨g1, a1, L⟩ : ∃ g1, loadBlocks rc false { g0 with name := g.name } (g.zones.map (zoneBlock g dflt)) = .ok g1 ∧
      Loaded rc false (g.zones.map (zoneBlock g dflt)) { g0 with name := g.name } g1 := by
    rcases load_spec rc false { g0 with name := g.name } (g.zones.map (zoneBlock g dflt)) (by
      intro b hb
      obtain ⟨z, hz, rfl⟩ := List.mem_map.1 hb
      exact zoneBlock_valid dflt hs.wf hs.lists hz) (store_nonDegenerate rc false dflt hs.wf hs.lists hkf)
      (store_zonePoints rc false dflt hs.wf hs.lists hkf) with ⟨h1, -⟩ | ⟨-, h1⟩
    · exact absurd h1 (store_notOverShared rc false dflt hs.wf hs.lists hkf)
    · exact h1
  have w1 := L.wf
  have hsame := sameZone_unmerged hs.wf hs.lists L
  have hrs := reload_same hs.wf hs.lists hkf L
  obtain ⟨h0, hvars, hdata⟩ := reload_vars hs.wf hs.lists hs.faces hkf L
  have hall : List.Forall₂ (fun z z' => (SameZone g g1 z z') ∧ _) g.zones g1.zones := forall₂_and hsame hrs
  have hne1 : ∀ z ∈ g1.zones, g1.zFaces z ≠ [] := by
    intro z' hz'
    obtain ⟨z, hz, -, -, h⟩ := forall₂_right hall hz'
    intro e
    have := h.length_eq
    rw [e, List.length_nil] at this
    exact hne z hz (List.length_eq_zero_iff.1 this)
  have hnn : ∀ z ∈ g1.zones, g1.zNodes z ≠ [] := fun z hz => faces_nonempty_nodes w1 L.lists hz (hne1 z hz)
  have hnodes : g1.nodes ≠ [] := by
    obtain ⟨f, hf⟩ := List.exists_mem_of_ne_nil _ h0
    obtain ⟨n, hn⟩ := List.exists_mem_of_length_pos (l := g1.fNodes f) (by rw [(w1.mesh.face_nodes f hf).1]; omega)
    exact List.ne_nil_of_mem ((w1.mesh.face_nodes f hf).2.2 n hn)
  have hnd : ∀ z ∈ g1.zones, (g1.zNodes z).Nodup := by
    intro z hz
    rw [L.lists.nodes z hz]
    exact L.mesh.nodes_nodup.filter _
  obtain ⟨P, gm, b1, b2, b3, -⟩ := explode_spec k g1 L.zones.zones_nodup hnd hnn hnodes (loaded_apart L)
  have hs1 : Storable g1 := by
    refine ⟨w1, L.lists, L.glo.perm, h0, by rw [L.name]; exact hs.name, ?_, by rw [hvars]; exact hs.vars, by rw [hvars]; exact hs.dict⟩
    intro z' hz'
    obtain ⟨z, hz, -, h, -⟩ := forall₂_right hall hz'
    rw [h]; exact hs.zoneNames z hz
  have hs2 : Storable { g1 with nP := P } := storable_moved hs1 P
  have hv2 : SameVars { g1 with nP := P } := by
    intro f hf
    exact (hdata f hf).trans hvars.symm
  obtain ⟨t, c1, c2, -, -⟩ := store_file (rc := rc) hc dflt hs2 hv2
  refine ⟨g1, _, t, gm, g1.zones.map (zoneBlock { g1 with nP := P } dflt), ?_, b1, c1, ?_, ?_, ?_⟩
  · rw [ht.load_either, a1]
  · have : ({ g1 with nP := P } : Grid F R).name = g.name := L.name
    rw [← this]; exact c2
  · have := isMean_points b2
    rw [L.unmerged rfl] at this
    exact this
  · unfold Exploded
    rw [List.forall₂_map_left_iff, List.forall₂_map_right_iff]
    refine forall₂_mem hall ?_
    rintro z hz z' hz' ⟨⟨e1, e2⟩, e3, e4⟩
    refine ⟨e3, ?_, ?_⟩
    · show (g1.zFaces z').map (fun f => (g1.vars.map (fun v => (v, g1.getData dflt f v)),
        (g1.fNodes f).map (fun n => ((g1.zNodes z').idxOf n : Int) + 1))) = _
      refine forall₂_eq_map (forall₂_mem (forall₂_and e2 e4) ?_)
      rintro f _ f' _ ⟨i1, i2, -⟩
      refine Prod.ext ?_ ?_
      · show g1.vars.map (fun v => (v, g1.getData dflt f' v)) = g.vars.map (fun v => (v, g.getData dflt f v))
        rw [hvars]
        apply List.map_congr_left
        intro v hvm
        refine Prod.ext rfl ?_
        show g1.getData dflt f' v = _
        conv_lhs => unfold getData
        rw [i2, Py.dictGet?_of_nodup (k := v) (v := g.getData dflt f v)]
        · rfl
        · rw [List.map_map]; simpa [Function.comp_def] using hs.dict
        · exact List.mem_map.2 ⟨v, hvm, rfl⟩
      · refine forall₂_eq_map (forall₂_mem i1 ?_)
        intro n _ n' _ e
        simp only [e]
    · obtain ⟨m, m1, m2⟩ := b3 z' hz'
      refine ⟨m, ?_, ?_⟩
      · have := isMean_points m1
        rw [e1] at this
        exact this
      · show (g1.zNodes z').map P = ((g.zNodes z).map g.nP).map _
        rw [← e1, List.map_map]
        exact List.map_congr_left fun n hn => m2 n hn

end Verif
