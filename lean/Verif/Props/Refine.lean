import Verif.Proofs.Steps2
import Verif.Proofs.LoadGood
import Verif.Props.Text
import Verif.Props.Calc
import Verif.Props.Transform

/-! Properties C77 and C78: files and calculation results of refined grids. -/

namespace Verif.Props
open Verif Grid
variable {F R : Type}

/-! ## C77 Refined grids can be stored -/

/-- After any sequence of applicable transformations within zones the grid is consistent and can be stored; it has the same name,
zones and variables, and every face has the data and the zone of a face of the grid before. -/
theorem C77_refined_grid [DecidableEq R] {rc : Vec F → R} {mid : Vec F → Vec F → Vec F} {dist : Vec F → Vec F → F} {gt : F → F → Bool}
    {g g' : Grid F R} (G : Good rc g) (hg : Storable g) (hv : SameVars g) (h : ZoneSteps rc mid dist gt g g') :
    Good rc g' ∧ Storable g' ∧ SameVars g' ∧ g'.vars = g.vars ∧ g'.name = g.name ∧ g'.zones.map g'.zName = g.zones.map g.zName ∧
      ∀ k ∈ g'.faces, ∃ f ∈ g.faces, g'.fData k = g.fData f ∧ g'.fZone k = g.fZone f := by
  obtain ⟨G', k, -⟩ := zoneSteps_ok G h
  obtain ⟨h1, h2⟩ := k.sameVars hv hg.faces
  exact ⟨G', k.storable G' hv hg, h1, h2, k.name, by rw [k.zones.1, k.zones.2], k.faces⟩

/-- The refined grid is written to a file and read back, with and without merging, with the same zones, triangles and data. -/
theorem C77_roundtrip [DecidableEq R] (c : Codec F) (hc : c.Lawful) (dflt : F) {rc : Vec F → R} {mid : Vec F → Vec F → Vec F}
    {dist : Vec F → Vec F → F} {gt : F → F → Bool} {g g' : Grid F R} (G : Good rc g) (hg : Storable g) (hv : SameVars g)
    (h : ZoneSteps rc mid dist gt g g') (merge : Bool) :
    ∃ text, g'.storeText c dflt = .ok text ∧ ∀ g1 : Grid F R, ∃ g2, loadText rc c merge g1 text = .ok g2 ∧ g2.name = g.name ∧
      g2.zones.map g2.zName = g.zones.map g.zName ∧
      List.Forall₂ (fun z z' => List.Forall₂ (fun f f' => g2.fData f' = g'.fData f ∧
        (g2.fNodes f').map g2.nP = (g'.fNodes f).map g'.nP) (g'.zFaces z) (g2.zFaces z')) g.zones g2.zones := by
  obtain ⟨G', k, -⟩ := zoneSteps_ok G h
  have hg' := k.storable G' hv hg
  obtain ⟨text, h1, h2⟩ := C22_roundtrip c hc dflt rc merge g' hg' (k.sameVars hv hg.faces).1 (keysApart_of_good G' hg'.lists merge)
  refine ⟨text, h1, fun g1 => ?_⟩
  obtain ⟨g2, h3, h4, h5⟩ := h2 g1
  rw [k.zones.1] at h5
  refine ⟨g2, h3, h4.trans k.name, ?_, h5.imp fun _ _ h => h.2⟩
  have h6 : List.Forall₂ (fun z z' => g2.zName z' = g.zName z) g.zones g2.zones := h5.imp fun z z' h => by rw [h.1, k.zones.2]
  exact forall₂_eq_map h6

/-- When an edge between two zones is cut the grid cannot be relied on any more: the list of nodes of a zone is not that of the
nodes of its faces. -/
theorem C77_cross_zone_violation : Good Sample.rc Sample.grid ∧ Storable Sample.grid ∧ SameVars Sample.grid ∧
    ∃ g', Steps Sample.rc Sample.mid Sample.dist (fun x y => decide (y < x)) Sample.grid g' ∧ ¬ Storable g' := by
  refine ⟨Sample.good, sample_storable, by unfold SameVars; decide +kernel, ?_⟩
  obtain ⟨g', z, h1, _, _, _, _, h2⟩ := C35_sample_violation
  refine ⟨g', .step (.cut 3 ⟨9, 9, 9⟩) .refl ⟨by decide +kernel, ?_⟩ ?_, fun s => h2 s.lists⟩
  · unfold NewPlace; decide +kernel
  · show ((fun r => r.1) <$> Sample.grid.cutEdge Sample.rc 3 ⟨9, 9, 9⟩ : Res _) = _
    rw [h1]; rfl

/-- The two-zone sample is refined within zones: face 0 is divided, then an edge of it is cut. -/
example : ∃ g', ZoneSteps Sample.rc Sample.mid Sample.dist (fun x y => decide (y < x)) Sample.grid g' ∧ g'.faces.length = 7 := by
  have a1 : (Op.divide 0 ⟨9, 9, 9⟩ : Op Int).Applicable Sample.rc Sample.mid Sample.dist (fun x y => decide (y < x)) Sample.grid := by
    refine ⟨by decide +kernel, ?_⟩
    unfold NewPlace; decide +kernel
  obtain ⟨g1, r1, G1, -, -⟩ := C37_step Sample.mid Sample.dist (fun x y => decide (y < x)) Sample.good _ a1
  have k1 : (match (Op.divide 0 ⟨9, 9, 9⟩ : Op Int).run Sample.rc Sample.mid Sample.dist (fun x y => decide (y < x)) Sample.grid with
    | .ok g => decide (g.faces.length = 5 ∧ 2 ∈ g.edges ∧ (g.eFaces 2).length = 2 ∧ (∀ f ∈ g.eFaces 2, g.fZone f = some 0) ∧
        ∀ n ∈ g.nodes, Sample.rc (g.nP n) ≠ Sample.rc ⟨8, 8, 8⟩)
    | .error _ => false) = true := by decide +kernel
  rw [r1] at k1
  obtain ⟨k2, k3, k4, kz, k5⟩ := of_decide_eq_true k1
  have a2 : (Op.cut 2 ⟨8, 8, 8⟩ : Op Int).Applicable Sample.rc Sample.mid Sample.dist (fun x y => decide (y < x)) g1 := ⟨k3, k5⟩
  obtain ⟨g2, r2, G2, -, -⟩ := C37_step Sample.mid Sample.dist (fun x y => decide (y < x)) G1 _ a2
  refine ⟨g2, .step _ (.step _ .refl a1 trivial r1) a2 ⟨0, kz⟩ r2, ?_⟩
  have hc : g1.cutEdge Sample.rc 2 ⟨8, 8, 8⟩ = .ok (g2, true) := by
    have : ((fun r => r.1) <$> g1.cutEdge Sample.rc 2 ⟨8, 8, 8⟩ : Res (Grid Int (Int × Int × Int))) = .ok g2 := r2
    unfold cutEdge at this ⊢
    rw [if_pos k4] at this ⊢
    cases hr : g1.cutInner Sample.rc 2 ⟨8, 8, 8⟩ with
    | ok g =>
      rw [hr] at this
      have : g = g2 := Except.ok.inj this
      rw [this]; rfl
    | error _ => rw [hr] at this; cases this
  have := (C38_cut_edge G1 k3 k5 hc).1
  unfold counts at this
  simp only [Prod.mk.injEq] at this
  omega

/-! ## C78 Calculation results of refined grids -/

/-- `load_faces_calc_data` puts the results `store_faces_calc_data` has written for a face with identifier `i` on the face at position
`i` of the list of faces, whatever its identifier. -/
theorem C78_positions (c : Codec F) (hc : c.Lawful) (g : Grid F R) (hn : g.faces.Nodup) (hg : GloPerm g) (val : Nat → Str → F) :
    ∃ d, g.loadCalc c (g.storeCalc c val) = .ok { g with fData := d } ∧
      ∀ f ∈ g.faces, ∀ k, g.faces[g.fGlo f]? = some k → d k = ["T".toList, "Hw".toList, "Hi".toList].map (fun v => (v, val f v)) := by
  obtain ⟨vars, hvars⟩ : ∃ vars, vars = ["T".toList, "Hw".toList, "Hi".toList] := ⟨_, rfl⟩
  have hplain : ∀ v ∈ vars, PlainVar v := by rw [hvars]; decide
  have hnd : vars.Nodup := by rw [hvars]; decide
  obtain ⟨res, hres⟩ : ∃ res : Nat → List F, res = fun i => match g.faces.find? (fun f => g.fGlo f == i) with
    | some f => vars.map (val f) | none => [] := ⟨_, rfl⟩
  have hr : ∀ f ∈ g.faces, res (g.fGlo f) = vars.map (val f) := by
    intro f hf
    rw [hres]
    dsimp only
    cases hq : g.faces.find? (fun k => g.fGlo k == g.fGlo f) with
    | none =>
      rw [List.find?_eq_none] at hq
      exact absurd (by simp) (hq f hf)
    | some k =>
      have h1 := List.find?_some hq
      rw [beq_iff_eq] at h1
      rw [perm_inj hg.faces (List.mem_of_find?_eq_some hq) hf h1]
  have htext : g.storeCalc c val = calcText c vars ((g.faces.map g.fGlo).map (fun i => (i, res i))) := by
    unfold storeCalc
    rw [← hvars, List.map_map]
    congr 1
    apply List.map_congr_left
    intro f hf
    simp only [Function.comp, hr f hf]
    simp only [hvars, List.map_cons, List.map_nil]
  obtain ⟨d, h1, -, h2⟩ := calc_fold hc vars hplain hnd res g hn [()]
    (fun g' _ => g'.loadCalc c (calcText c vars ((g.faces.map g.fGlo).map (fun i => (i, res i))))) (fun _ => g.faces.map g.fGlo) (by
      intro _ _ k hk
      obtain ⟨f, hf, rfl⟩ := List.mem_map.1 hk
      exact perm_lt hg.faces hf) (fun _ _ _ => rfl)
  refine ⟨d, ?_, ?_⟩
  · rw [htext, ← h1, List.foldlM_cons]
    simp only [List.foldlM_nil]
    cases g.loadCalc c _ <;> rfl
  · intro f hf k hk
    rw [h2 _ k hk, if_pos (by
      rw [List.flatMap_singleton]
      exact List.mem_map.2 ⟨f, hf, rfl⟩), hr f hf, zip_map_self, hvars]

/-- Every face gets its own results back, whatever they are, exactly if the identifier of every face is its position. -/
theorem C78_own_iff [Nontrivial F] (c : Codec F) (hc : c.Lawful) (g : Grid F R) (hn : g.faces.Nodup) (hg : GloPerm g) :
    (∀ val : Nat → Str → F, ∃ d, g.loadCalc c (g.storeCalc c val) = .ok { g with fData := d } ∧
      ∀ f ∈ g.faces, d f = ["T".toList, "Hw".toList, "Hi".toList].map (fun v => (v, val f v))) ↔
    ∀ i f, g.faces[i]? = some f → g.fGlo f = i := by
  constructor
  · intro h i f hi
    obtain ⟨x, y, hxy⟩ := exists_pair_ne F
    have hf := List.mem_of_getElem? hi
    obtain ⟨k, hk⟩ : ∃ k, g.faces[g.fGlo f]? = some k := ⟨_, List.getElem?_eq_getElem (perm_lt hg.faces hf)⟩
    by_contra hne
    have hkf : k ≠ f := by
      rintro rfl
      obtain ⟨a1, a2⟩ := List.getElem?_eq_some_iff.1 hi
      obtain ⟨b1, b2⟩ := List.getElem?_eq_some_iff.1 hk
      exact hne ((hn.getElem_inj_iff).1 (b2.trans a2.symm))
    obtain ⟨d, h1, h2⟩ := h (fun j _ => if j = f then x else y)
    obtain ⟨d', h3, h4⟩ := C78_positions c hc g hn hg (fun j _ => if j = f then x else y)
    rw [h1] at h3
    have hd : d = d' := congrArg Grid.fData (Except.ok.inj h3)
    have e1 := h2 k (List.mem_of_getElem? hk)
    have e2 := h4 f hf k hk
    rw [hd, e2] at e1
    simp [hkf, hxy] at e1
  · intro h val
    obtain ⟨d, h1, h2⟩ := C78_positions c hc g hn hg val
    refine ⟨d, h1, fun f hf => ?_⟩
    obtain ⟨i, hi⟩ := List.getElem?_of_mem hf
    exact h2 f hf f (by rw [h i f hi]; exact hi)

/-- After one face of the sample was divided the results of faces are mixed up: face 1 has identifier 1 and position 0. -/
theorem C78_refined_violation : Good Sample.rc Sample.grid ∧ ∃ g', Sample.grid.divideFace Sample.rc 0 ⟨9, 9, 9⟩ = .ok g' ∧ GloPerm g' ∧
    ∃ (val : Nat → Str → Int) (g2 : Grid Int (Int × Int × Int)), g'.loadCalc intCodec (g'.storeCalc intCodec val) = .ok g2 ∧
      ∃ f ∈ g'.faces, g2.fData f ≠ ["T".toList, "Hw".toList, "Hi".toList].map (fun v => (v, val f v)) := by
  refine ⟨Sample.good, ?_⟩
  have hp : NewPlace Sample.rc Sample.grid ⟨9, 9, 9⟩ := by unfold NewPlace; decide +kernel
  obtain ⟨g', h1, h2, h3, -⟩ := C37_step Sample.mid Sample.dist (fun x y => decide (y < x)) Sample.good (.divide 0 ⟨9, 9, 9⟩) ⟨by decide +kernel, hp⟩
  refine ⟨g', h1, h3, ?_⟩
  have k1 : (match Sample.grid.divideFace Sample.rc 0 ⟨9, 9, 9⟩ with
    | .ok g => decide (g.faces[0]? = some 1 ∧ g.fGlo 1 = 1)
    | .error _ => false) = true := by decide +kernel
  rw [show Sample.grid.divideFace Sample.rc 0 ⟨9, 9, 9⟩ = .ok g' from h1] at k1
  obtain ⟨k2, k3⟩ := of_decide_eq_true k1
  by_contra hno
  have := (C78_own_iff intCodec intCodec_lawful g' h2.mesh.faces_nodup h3).1 (fun val => by
    obtain ⟨d, e1, -⟩ := C78_positions intCodec intCodec_lawful g' h2.mesh.faces_nodup h3 val
    refine ⟨d, e1, fun f hf => ?_⟩
    by_contra hne
    exact hno ⟨val, _, e1, f, hf, hne⟩) 0 1 k2
  omega

/-- The hypotheses hold for the sample grid and for every refined grid. -/
example : Sample.grid.faces.Nodup ∧ GloPerm Sample.grid := ⟨Sample.wf.mesh.faces_nodup, Sample.good.glo⟩

end Verif.Props
