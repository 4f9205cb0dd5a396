import Verif.Spec.Cases
import Verif.Proofs.Reload
import Verif.Proofs.Merge
import Verif.Proofs.Utils
import Verif.Proofs.Sim3
import Verif.Proofs.HierNames
import Verif.Proofs.DropsFile2

/-! Helper lemmas for the example programs. -/

namespace Verif
variable {F R : Type}
open Grid

/-- Zones of a grid as they would be in a file. -/
def gridContents {K : Type} (rc : Vec F → K) (g : Grid F R) : List (Str × List (List (Str × F) × List (Option K))) :=
  g.zones.map (fun z => (g.zName z, (g.zFaces z).map (fun f => (g.fData f, (g.fNodes f).map (fun n => some (rc (g.nP n)))))))

theorem allTris_contents (rc : Vec F → R) (blocks : List (ZoneBlock F)) : allTris rc blocks = (contents rc blocks).flatMap Prod.snd := by
  unfold allTris contents
  rw [List.flatMap_map]

variable [DecidableEq R]

theorem loaded_contents {rc : Vec F → R} {merge : Bool} {blocks : List (ZoneBlock F)} {g0 g : Grid F R} (h : Loaded rc merge blocks g0 g) :
    gridContents rc g = contents rc blocks := by
  unfold gridContents contents
  refine (forall₂_map_eq h.rep ?_).symm
  intro b _ z _ hr
  refine Prod.ext hr.name.symm (forall₂_map_eq hr.faces ?_)
  rintro fc _ f _ ⟨h1, h2⟩
  refine Prod.ext h1.symm (forall₂_map_eq h2 ?_)
  rintro s _ n _ ⟨q1, p, q2, q3, -⟩
  show (b.point? s).map rc = some (rc (g.nP n))
  rw [q2, ← h.keys n q1, q3]
  rfl

theorem GoodFile.loads {rc : Vec F → R} {c : Codec F} {text title : Str} {vars : List Str} {blocks : List (ZoneBlock F)}
    (h : GoodFile rc c text title vars blocks) (g0 : Grid F R) :
    ∃ g, loadText rc c true g0 text = .ok g ∧ Loaded rc true blocks { g0 with name := title } g := by
  rw [h.file.load]
  rcases load_spec rc true { g0 with name := title } blocks h.valid h.corners (by intro h; cases h) with ⟨h1, -⟩ | ⟨-, h1⟩
  · exact absurd h1 h.manifold
  · exact h1

theorem Loaded.wf {rc : Vec F → R} {merge : Bool} {blocks : List (ZoneBlock F)} {g0 g : Grid F R} (h : Loaded rc merge blocks g0 g) : Wf g :=
  ⟨h.mesh, h.zones, h.alloc⟩

theorem Loaded.apart {rc : Vec F → R} {blocks : List (ZoneBlock F)} {g0 g : Grid F R} (h : Loaded rc true blocks g0 g) : KeysApart rc true g := by
  simp only [KeysApart, if_true]
  intro n hn m hm e
  exact h.merged rfl n hn m hm (by rw [h.keys n hn, h.keys m hm, e])

theorem GoodFile.stored {rc : Vec F → R} {c : Codec F} {text title : Str} {vars : List Str} {blocks : List (ZoneBlock F)}
    (h : GoodFile rc c text title vars blocks) {g0 g : Grid F R} (hL : Loaded rc true blocks { g0 with name := title } g) :
    Storable g ∧ (∀ f ∈ g.faces, (g.fData f).map Prod.fst = vars) ∧ g.vars = vars ∧ SameVars g ∧ g.name = title := by
  have hdata : ∀ f ∈ g.faces, (g.fData f).map Prod.fst = vars := by
    intro f hf
    rw [hL.order] at hf
    obtain ⟨z, hz, hf⟩ := List.mem_flatMap.1 hf
    obtain ⟨b, hb, hr⟩ := forall₂_right hL.rep hz
    obtain ⟨fc, hfc, e, -⟩ := forall₂_right hr.faces hf
    rw [e]; exact h.same b hb fc hfc
  have hne : g.faces ≠ [] := by
    obtain ⟨b, hb, hbf⟩ := h.some_face
    obtain ⟨fc, hfc⟩ := List.exists_mem_of_ne_nil _ hbf
    obtain ⟨z, hz, hr⟩ := forall₂_left hL.rep hb
    obtain ⟨f, hf, -⟩ := forall₂_left hr.faces hfc
    rw [hL.order]
    exact List.ne_nil_of_mem (List.mem_flatMap.2 ⟨z, hz, hf⟩)
  have hvars : g.vars = vars := by
    unfold Grid.vars
    cases e : g.faces with
    | nil => exact absurd e hne
    | cons f fs => exact hdata f (by rw [e]; simp)
  refine ⟨⟨hL.wf, hL.lists, hL.glo.perm, hne, ?_, ?_, ?_, ?_⟩, hdata, hvars, ?_, hL.name⟩
  · rw [hL.name]; exact h.plain_title
  · intro z hz
    obtain ⟨b, hb, hr⟩ := forall₂_right hL.rep hz
    rw [hr.name]; exact h.plain_names b hb
  · rw [hvars]; exact h.plain_vars
  · rw [hvars]; exact h.dict
  · intro f hf; rw [hvars]; exact hdata f hf

omit [DecidableEq R] in
theorem vars_data (g : Grid F R) (dflt : F) (hv : SameVars g) (hd : g.vars.Nodup) {f : Nat} (hf : f ∈ g.faces) :
    g.vars.map (fun v => (v, g.getData dflt f v)) = g.fData f := by
  rw [← hv f hf, List.map_map]
  conv_rhs => rw [← List.map_id (g.fData f)]
  apply List.map_congr_left
  rintro ⟨k, v⟩ hm
  have hn : ((g.fData f).map Prod.fst).Nodup := by rw [hv f hf]; exact hd
  simp only [Function.comp, id, getData, Py.dictGet?_of_nodup hn hm, Option.getD_some]

omit [DecidableEq R] in
theorem block_contents {K : Type} (rc : Vec F → K) (g : Grid F R) (dflt : F) (hw : Wf g) (hl : ZoneLists g) (hv : SameVars g) (hd : g.vars.Nodup) :
    contents rc (g.zones.map (zoneBlock g dflt)) = gridContents rc g := by
  unfold contents gridContents
  rw [List.map_map]
  apply List.map_congr_left
  intro z hz
  refine Prod.ext rfl ?_
  show ((g.zFaces z).map _).map _ = _
  rw [List.map_map]
  apply List.map_congr_left
  intro f hf
  refine Prod.ext (vars_data g dflt hv hd (hw.face_mem hz hf)) ?_
  show ((g.fNodes f).map _).map _ = _
  rw [List.map_map]
  apply List.map_congr_left
  intro n hn
  show ((zoneBlock g dflt z).point? _).map rc = _
  rw [point?_zoneBlock dflt (face_nodes_sub hw hl hz hf n hn)]
  rfl

/-- What `store` writes. -/
theorem store_file {rc : Vec F → R} {c : Codec F} (hc : c.Lawful) (dflt : F) {g : Grid F R} (hg : Storable g) (hv : SameVars g) :
    ∃ text, g.storeText c dflt = .ok text ∧ GridFile c text g.name (g.zones.map (zoneBlock g dflt)) ∧
      contents rc (g.zones.map (zoneBlock g dflt)) = gridContents rc g ∧
      (KeysApart rc true g → GoodFile rc c text g.name g.vars (g.zones.map (zoneBlock g dflt))) := by
  have hfile : ∃ text, g.storeText c dflt = .ok text ∧ GridFile c text g.name (g.zones.map (zoneBlock g dflt)) := by
    refine ⟨_, by unfold storeText; rw [storeLines_ok c dflt hg.wf hg.lists hg.ids hg.faces, res_bind_ok]; rfl, ?_⟩
    intro old
    have := parse_render hc old g.name hg.name g.vars hg.vars hg.dict (g.zones.map (zoneText g dflt)) (by
      intro t ht
      obtain ⟨z, hz, rfl⟩ := List.mem_map.mp ht
      exact zoneText_ok dflt z (hg.zoneNames z hz))
    rw [List.flatMap_map] at this
    simp only at this ⊢
    rw [this, List.map_map]
    have e : ((fun t => ZoneText.block g.vars t) ∘ zoneText g dflt) = zoneBlock g dflt := by
      funext z; exact zoneText_block g dflt z
    rw [e]
    exact ⟨_, rfl⟩
  obtain ⟨text, h1, h2⟩ := hfile
  refine ⟨text, h1, h2, block_contents rc g dflt hg.wf hg.lists hv hg.dict, fun hk => ⟨h2, ?_, store_nonDegenerate rc true dflt hg.wf hg.lists hk,
    store_notOverShared rc true dflt hg.wf hg.lists hk, ?_, hg.name, ?_, hg.vars, hg.dict, ?_⟩⟩
  · intro b hb
    obtain ⟨z, hz, rfl⟩ := List.mem_map.1 hb
    exact zoneBlock_valid dflt hg.wf hg.lists hz
  · obtain ⟨f, hf⟩ := List.exists_mem_of_ne_nil _ hg.faces
    obtain ⟨z, hz, hfz⟩ := List.mem_flatMap.1 (hg.wf.zones.partition.mem_iff.2 hf)
    refine ⟨_, List.mem_map_of_mem hz, ?_⟩
    exact List.ne_nil_of_mem (List.mem_map_of_mem hfz)
  · intro b hb
    obtain ⟨z, hz, rfl⟩ := List.mem_map.1 hb
    exact hg.zoneNames z hz
  · intro b hb f hf
    obtain ⟨z, hz, rfl⟩ := List.mem_map.1 hb
    obtain ⟨x, hx, rfl⟩ := List.mem_map.1 hf
    simp [Function.comp_def]

/-- The places of nodes of a zone of the loaded grid. -/
theorem loaded_zone_keys {rc : Vec F → R} {blocks : List (ZoneBlock F)} {g0 g : Grid F R} (hL : Loaded rc true blocks g0 g) (hu : AllUsed rc blocks) :
    List.Forall₂ (fun b z => (g.zNodes z).map (fun n => rc (g.nP n)) =
      (g.nodes.map (fun n => rc (g.nP n))).filter (fun x => decide (x ∈ b.pts.map rc))) blocks g.zones := by
  refine forall₂_mem hL.rep ?_
  rintro b hb z hz hr
  rw [hL.lists.nodes z hz, List.filter_map]
  congr 1
  apply List.filter_congr
  intro n hn
  rw [Bool.eq_iff_iff]
  simp only [List.any_eq_true, List.contains_iff_mem, Function.comp, decide_eq_true_eq, List.mem_map]
  constructor
  · rintro ⟨f, hf, hnf⟩
    obtain ⟨fc, hfc, -, h2⟩ := forall₂_right hr.faces hf
    obtain ⟨s, hs, -, p, hp, e, -⟩ := forall₂_right h2 hnf
    refine ⟨p, ?_, by rw [← hL.keys n hn, e]⟩
    unfold ZoneBlock.point? at hp
    split at hp
    · rename_i q hq
      obtain rfl := Option.some.inj hp
      exact get_mem hq
    · cases hp
  · rintro ⟨p, hp, e⟩
    obtain ⟨fc, hfc, s, hs, hsp⟩ := hu b hb p hp
    obtain ⟨f, hf, -, h2⟩ := forall₂_left hr.faces hfc
    obtain ⟨m, hm, hmn, q, hq, hk, -⟩ := forall₂_left h2 hs
    rw [hq, Option.map_some, Option.some.injEq] at hsp
    have : m = n := hL.merged rfl m hmn n hn (by rw [hk, hsp, e, hL.keys n hn])
    exact ⟨f, hf, this ▸ hm⟩

theorem loaded_stable {rc : Vec F → R} {blocks : List (ZoneBlock F)} {g0 g : Grid F R} (hL : Loaded rc true blocks g0 g) (hu : AllUsed rc blocks) : Stable rc g := by
  have hk : g.nodes.map (fun n => rc (g.nP n)) = firsts (blocks.flatMap (fun b => b.pts.map rc)) := by
    have h := congrArg (List.map rc) hL.registered
    rw [registered_keys, List.map_map, List.map_flatMap] at h
    exact h
  unfold Stable
  have h2 : g.zones.flatMap (fun z => (g.zNodes z).map (fun n => rc (g.nP n))) =
      blocks.flatMap (fun b => (g.nodes.map (fun n => rc (g.nP n))).filter (fun x => decide (x ∈ b.pts.map rc))) := by
    rw [List.flatMap_def, List.flatMap_def]
    exact congrArg List.flatten (forall₂_eq_map (loaded_zone_keys hL hu))
  rw [h2, hk]
  exact firsts_stable blocks _

omit [DecidableEq R] in
theorem gridContents_tris (rc : Vec F → R) (g : Grid F R) : (gridContents rc g).flatMap Prod.snd =
    (g.zones.flatMap g.zFaces).map (fun f => (g.fData f, (g.fNodes f).map (fun n => some (rc (g.nP n))))) := by
  unfold gridContents
  rw [List.flatMap_map, List.map_flatMap]

/-- A decomposition of a loaded grid, stored. -/
theorem decomp_file {rc : Vec F → R} {c : Codec F} (hc : c.Lawful) (dflt : F) {text title : Str} {vars : List Str} {blocks : List (ZoneBlock F)}
    (h : GoodFile rc c text title vars blocks) {g0 g g' : Grid F R} (hL : Loaded rc true blocks { g0 with name := title } g)
    (ok : DecompOk g g') (hn : PlainName g'.name) (hz : ∀ z ∈ g'.zones, PlainName (g'.zName z)) :
    ∃ t b', g'.storeText c dflt = .ok t ∧ GoodFile rc c t g'.name vars b' ∧ (allTris rc b').Perm (allTris rc blocks) ∧
      contents rc b' = gridContents rc g' ∧ b' = g'.zones.map (zoneBlock g' dflt) ∧ Storable g' ∧ SameVars g' ∧ KeysApart rc true g' := by
  obtain ⟨hs, -, hvars, hsame, -⟩ := h.stored hL
  have m := ok.same
  have hv' : g'.vars = g.vars := by unfold Grid.vars; rw [m.faces, m.fData]
  have hs' : Storable g' := ⟨ok.wf hL.mesh, ok.lists, (m.gloIds hL.glo).perm, by rw [m.faces]; exact hs.faces, hn, hz,
    by rw [hv']; exact hs.vars, by rw [hv']; exact hs.dict⟩
  have hsv' : SameVars g' := by
    intro f hf
    rw [m.faces] at hf
    rw [m.fData, hv']; exact hsame f hf
  have hk' : KeysApart rc true g' := by
    have := hL.apart
    simp only [KeysApart, if_true] at this ⊢
    rw [m.nodes, m.nP]; exact this
  obtain ⟨t, h1, h2, h3, h4⟩ := store_file (rc := rc) hc dflt hs' hsv'
  refine ⟨t, _, h1, hvars ▸ hv' ▸ h4 hk', ?_, h3, rfl, hs', hsv', hk'⟩
  rw [allTris_contents, allTris_contents, h3, ← loaded_contents hL, gridContents_tris, gridContents_tris, m.fData, m.fNodes, m.nP]
  exact (((ok.wf hL.mesh).zones.partition.trans (by rw [m.faces])).trans hL.zones.partition.symm).map _

/-- Data of faces of a loaded grid are replaced, and it is stored. -/
theorem data_file {rc : Vec F → R} {c : Codec F} (hc : c.Lawful) (dflt : F) {text title : Str} {vars : List Str} {blocks : List (ZoneBlock F)}
    (h : GoodFile rc c text title vars blocks) {g0 g : Grid F R} (hL : Loaded rc true blocks { g0 with name := title } g)
    (D : Nat → List (Str × F)) (vs : List Str) (hp : ∀ v ∈ vs, PlainVar v) (hd : vs.Nodup) (hk : ∀ f ∈ g.faces, (D f).map Prod.fst = vs) :
    ∃ t b', ({ g with fData := D } : Grid F R).storeText c dflt = .ok t ∧ GoodFile rc c t title vs b' ∧
      contents rc b' = gridContents rc ({ g with fData := D } : Grid F R) := by
  obtain ⟨hs, -, -, -, hn⟩ := h.stored hL
  have hv : ({ g with fData := D } : Grid F R).vars = vs := by
    unfold Grid.vars
    cases e : g.faces with
    | nil => exact absurd e hs.faces
    | cons f fs => exact hk f (by rw [e]; simp)
  have hs' : Storable ({ g with fData := D } : Grid F R) :=
    ⟨hs.wf.withData D, hs.lists.withData D, (hL.glo.withData D).perm, hs.faces, hs.name, hs.zoneNames, by rw [hv]; exact hp, by rw [hv]; exact hd⟩
  obtain ⟨t, h1, h2, h3, h4⟩ := store_file (rc := rc) hc dflt hs' (fun f hf => by rw [hv]; exact hk f hf)
  refine ⟨t, _, h1, ?_, h3⟩
  have := h4 hL.apart
  rw [hv] at this
  exact hn ▸ this

theorem plain_nat (s : Str) (hs : PlainName s) (i : Nat) : PlainName (s ++ Py.natStr i) := by
  have : ∀ ch ∈ Py.natStr i, ch ≠ '=' ∧ ch ≠ '\n' ∧ ch ≠ '\r' := by
    intro ch hch
    obtain ⟨d, hd⟩ := Py.natStr_allDec i ch hch
    refine ⟨?_, ?_, ?_⟩ <;> rintro rfl <;> exact absurd hd (by simp [Py.digitVal?])
  unfold PlainName at hs ⊢
  simp only [List.mem_append, not_or]
  exact ⟨⟨hs.1, fun h => (this _ h).1 rfl⟩, ⟨hs.2.1, fun h => (this _ h).2.1 rfl⟩, ⟨hs.2.2, fun h => (this _ h).2.2 rfl⟩⟩

theorem PathName.plain {s : Str} (h : PathName s) : PlainName s := by
  obtain ⟨w, rfl, hw⟩ := h
  have : ∀ ch ∈ 'h' :: w, ch = 'h' ∨ ch = 'l' ∨ ch = 'r' := by
    intro ch hch
    rcases List.mem_cons.1 hch with h | h
    · exact .inl h
    · exact .inr (hw ch h)
  refine ⟨fun h => ?_, fun h => ?_, fun h => ?_⟩ <;> have := this _ h <;> revert this <;> decide

theorem eraseP_key {κ ν : Type} [DecidableEq κ] (d : List (κ × ν)) (hn : (d.map Prod.fst).Nodup) (k : κ) :
    d.eraseP (fun p => p.1 = k) = d.filter (fun p => decide (p.1 ≠ k)) := by
  induction d with
  | nil => rfl
  | cons p d ih =>
    rw [List.map_cons, List.nodup_cons] at hn
    by_cases h : p.1 = k
    · rw [List.eraseP_cons_of_pos (by simpa using h), List.filter_cons_of_neg (by simpa using h), List.filter_eq_self.2]
      intro q hq
      have : q.1 ≠ k := fun e => hn.1 (h ▸ e ▸ List.mem_map_of_mem hq)
      simpa using this
    · rw [List.eraseP_cons_of_neg (by simpa using h), List.filter_cons_of_pos (by simpa using h), ih hn.2]

/-- Popping several keys from a dictionary. -/
theorem pops_exact (ks : List String) (hk : (ks.map String.toList).Nodup) (d : List (Str × F)) (hn : (d.map Prod.fst).Nodup) :
    ks.foldlM (fun d k => Py.dictPop d k.toList) d = if ∀ k ∈ ks.map String.toList, k ∈ d.map Prod.fst then
      .ok (d.filter (fun p => decide (p.1 ∉ ks.map String.toList))) else (.error .key : Res (List (Str × F))) := by
  induction ks generalizing d with
  | nil => simp [pure, Except.pure]
  | cons k ks ih =>
    rw [List.map_cons, List.nodup_cons] at hk
    rw [List.foldlM_cons]
    unfold Py.dictPop
    by_cases hc : k.toList ∈ d.map Prod.fst
    · rw [if_pos (by simpa using hc), res_bind_ok, eraseP_key d hn]
      have hf : (d.filter (fun p => decide (p.1 ≠ k.toList))).map Prod.fst = (d.map Prod.fst).filter (fun x => decide (x ≠ k.toList)) := by
        rw [List.filter_map]; rfl
      have := ih hk.2 (d.filter (fun p => decide (p.1 ≠ k.toList))) (by rw [hf]; exact hn.filter _)
      unfold Py.dictPop at this
      rw [this, hf, List.filter_filter]
      have hiff : (∀ x ∈ ks.map String.toList, x ∈ (d.map Prod.fst).filter (fun x => decide (x ≠ k.toList))) ↔
          ∀ x ∈ (k :: ks).map String.toList, x ∈ d.map Prod.fst := by
        rw [List.map_cons, List.forall_mem_cons]
        constructor
        · intro h; exact ⟨hc, fun x hx => (List.mem_filter.1 (h x hx)).1⟩
        · intro h x hx
          refine List.mem_filter.2 ⟨h.2 x hx, ?_⟩
          have : x ≠ k.toList := fun e => hk.1 (e ▸ hx)
          simpa using this
      rw [if_congr hiff rfl rfl]
      congr 2
      apply List.filter_congr
      intro p _
      rw [Bool.eq_iff_iff]
      simp only [List.map_cons, List.mem_cons, not_or, ne_eq, Bool.and_eq_true, decide_eq_true_eq]
      exact and_comm
    · rw [if_neg (by simpa using hc), if_neg (fun h => hc (h _ (by simp)))]
      rfl

omit [DecidableEq R] in
/-- `convert_grid_stall_to_check_point` on a grid whose faces have the same variables. -/
theorem stall_exact {g : Grid F R} {vars : List Str} (hn : g.faces.Nodup) (h0 : g.faces ≠ []) (hd : vars.Nodup)
    (hv : ∀ f ∈ g.faces, (g.fData f).map Prod.fst = vars) :
    if ∀ k ∈ stallNames, k ∈ vars then ∃ D, g.stallToCheckPoint = .ok { g with fData := D } ∧
      ∀ f ∈ g.faces, D f = (g.fData f).filter (fun p => decide (p.1 ∉ stallNames))
    else g.stallToCheckPoint = .error .key := by
  have hp := fun (d : List (Str × F)) (h : d.map Prod.fst = vars) =>
    pops_exact ["Stall", "StallD", "StallVX", "StallVY", "StallVZ"] (by decide) d (by rw [h]; exact hd)
  have hs : ["Stall", "StallD", "StallVX", "StallVY", "StallVZ"].map String.toList = stallNames := rfl
  rw [hs] at hp
  split_ifs with hc
  · obtain ⟨x, h1, D, h2, -, h3⟩ := foldlM_total (fun (g : Grid F R) f => do
      let d ← ["Stall", "StallD", "StallVX", "StallVY", "StallVZ"].foldlM (fun d k => Py.dictPop d k.toList) (g.fData f)
      (.ok { g with fData := upd g.fData f d } : Res (Grid F R))) g.faces
      (fun pre x => ∃ D, x = { g with fData := D } ∧ (∀ f, f ∉ pre → D f = g.fData f) ∧
        ∀ f ∈ pre, D f = (g.fData f).filter (fun p => decide (p.1 ∉ stallNames))) g ⟨g.fData, rfl, fun _ _ => rfl, by simp⟩ (by
      rintro pre a post s e ⟨D, rfl, h1, h2⟩
      have ha : a ∉ pre := by
        rw [e] at hn
        intro h
        exact (List.disjoint_of_nodup_append hn) h (by simp)
      have ham : a ∈ g.faces := by rw [e]; simp
      refine ⟨{ g with fData := upd D a ((g.fData a).filter (fun p => decide (p.1 ∉ stallNames))) }, ?_, _, rfl, ?_, ?_⟩
      · dsimp only
        rw [h1 a ha, hp _ (hv a ham), hv a ham, if_pos hc, res_bind_ok]
      · intro f hf
        simp only [List.mem_append, List.mem_singleton, not_or] at hf
        rw [upd_ne _ _ hf.2, h1 f hf.1]
      · intro f hf
        by_cases hfa : f = a
        · subst hfa
          rw [upd_self]
        · simp only [List.mem_append, List.mem_singleton, hfa, or_false] at hf
          rw [upd_ne _ _ hfa]
          exact h2 f hf)
    exact ⟨D, by unfold stallToCheckPoint; rw [← h2]; exact h1, h3⟩
  · unfold stallToCheckPoint
    cases e : g.faces with
    | nil => exact absurd e h0
    | cons f l =>
      have hf : f ∈ g.faces := by rw [e]; simp
      rw [List.foldlM_cons, hp _ (hv f hf), hv f hf, if_neg hc]
      rfl

namespace Cases
variable {S : Type}

theorem readFile_ok {fs : Files} {fn t : Str} (h : Py.dictGet? fs fn = some t) : readFile fs fn = .ok t := by
  unfold readFile; rw [h]

theorem path_inj {test a b : Str} (h : path test a = path test b) : a = b := by
  unfold path at h
  rw [List.append_assoc, List.append_assoc] at h
  exact List.append_cancel_left (List.append_cancel_left h)

theorem load_good (E : Env F R S) {fs : Files} {fn text title : Str} {vars : List Str} {blocks : List (ZoneBlock F)}
    (hf : Py.dictGet? fs fn = some text) (h : GoodFile E.rc E.codec text title vars blocks) (g0 : Grid F R) :
    ∃ g, load E true fs g0 fn = .ok g ∧ Loaded E.rc true blocks { g0 with name := title } g := by
  obtain ⟨g, h1, h2⟩ := h.loads g0
  refine ⟨g, ?_, h2⟩
  unfold load
  rw [readFile_ok hf, res_bind_ok, h1]

omit [DecidableEq R] in
theorem sets_get (l : List (Str × Str)) (hn : (l.map Prod.fst).Nodup) (fs : Files) :
    (∀ p ∈ l, Py.dictGet? (l.foldl (fun fs p => Py.dictSet fs p.1 p.2) fs) p.1 = some p.2) ∧
    ∀ fn, fn ∉ l.map Prod.fst → Py.dictGet? (l.foldl (fun fs p => Py.dictSet fs p.1 p.2) fs) fn = Py.dictGet? fs fn := by
  induction l generalizing fs with
  | nil => simp
  | cons q l ih =>
    rw [List.map_cons, List.nodup_cons] at hn
    obtain ⟨h1, h2⟩ := ih hn.2 (Py.dictSet fs q.1 q.2)
    refine ⟨?_, ?_⟩
    · intro p hp
      rw [List.foldl_cons]
      rcases List.mem_cons.1 hp with rfl | hp
      · rw [h2 p.1 hn.1, Utils.dictGet?_set_self]
      · exact h1 p hp
    · intro fn hfn
      rw [List.map_cons, List.mem_cons, not_or] at hfn
      rw [List.foldl_cons, h2 fn hfn.2, Utils.dictGet?_set_ne _ _ _ _ (Ne.symm hfn.1)]

/-- What is known of a decomposition of the loaded grid `g`. -/
structure Decomposed (rc : Vec F → R) (m nm : Str) (blocks : List (ZoneBlock F)) (g g' : Grid F R) : Prop where
  ok : DecompOk g g'
  name : g'.name = nm
  names : ∀ z ∈ g'.zones, PlainName (g'.zName z)
  zones : ∀ b' : List (ZoneBlock F), contents rc b' = gridContents rc g' → MethodZones rc m blocks b'

/-- The file name for a method. -/
def fileOf (test m : Str) : Str := path test (['_'] ++ m ++ ".dat".toList)

theorem fileOf_inj {test m m' : Str} (h : fileOf test m = fileOf test m') : m = m' := by
  have := path_inj h
  rw [List.append_assoc, List.append_assoc] at this
  exact List.append_cancel_right (List.append_cancel_left this)

theorem fileOf_ne (test m : Str) : path test ".dat".toList ≠ fileOf test m := by
  intro h
  have := path_inj h
  rw [List.append_assoc] at this
  have := congrArg (fun l => l.head?) this
  have h2 : (['_'] ++ (m ++ ".dat".toList)).head? = some '_' := rfl
  have h1 : ".dat".toList.head? = some '.' := by decide
  simp only [h1, h2] at this
  exact absurd this (by decide)

/-- The file written for a method. -/
def Written (E : Env F R S) (test : Str) (vars : List Str) (blocks : List (ZoneBlock F)) (fs : Files) (m : Str) : Prop :=
  ∃ t b', Py.dictGet? fs (fileOf test m) = some t ∧ GoodFile E.rc E.codec t (test ++ [' '] ++ m) vars b' ∧
    (allTris E.rc b').Perm (allTris E.rc blocks) ∧ MethodZones E.rc m blocks b'

theorem method_step (E : Env F R S) (hc : E.codec.Lawful) (test : Str) (htest : PlainName test) (methods : List Str) (Q : Prop) (m : Str)
    (hmp : PlainName m) (dec : Grid F R → Option Str → Res (Grid F R)) {text title : Str} {vars : List Str} {blocks : List (ZoneBlock F)}
    (h : GoodFile E.rc E.codec text title vars blocks)
    (hdec : ∀ g0 g : Grid F R, Loaded E.rc true blocks { g0 with name := title } g → ∀ nm,
      (dec g (some nm) = .error .value ∧ m = "hierarchical".toList ∧ Q) ∨ ∃ g', dec g (some nm) = .ok g' ∧ Decomposed E.rc m nm blocks g g')
    (s : Grid F R × Files) (hf : Py.dictGet? s.2 (path test ".dat".toList) = some text) :
    (method E test methods m dec s = .error .value ∧ m = "hierarchical".toList ∧ m ∈ methods ∧ Q) ∨
    ∃ s', method E test methods m dec s = .ok s' ∧ (m ∈ methods → Written E test vars blocks s'.2 m) ∧
      (∀ fn, (m ∈ methods → fn ≠ fileOf test m) → Py.dictGet? s'.2 fn = Py.dictGet? s.2 fn) := by
  unfold method
  by_cases hm : m ∈ methods
  · rw [if_pos hm]
    obtain ⟨g, a1, L⟩ := load_good E hf h s.1
    rcases hdec s.1 g L (test ++ [' '] ++ m) with ⟨hg, hh, hq⟩ | ⟨g', hg, D⟩
    · left
      refine ⟨?_, hh, hm, hq⟩
      rw [a1, res_bind_ok, hg]
      rfl
    · right
      have hplain : PlainName (test ++ [' '] ++ m) := by
        unfold PlainName at htest hmp ⊢
        simp only [List.mem_append, List.mem_singleton, not_or]
        exact ⟨⟨⟨htest.1, by decide⟩, hmp.1⟩, ⟨⟨htest.2.1, by decide⟩, hmp.2.1⟩, ⟨⟨htest.2.2, by decide⟩, hmp.2.2⟩⟩
      obtain ⟨t, b', e1, e2, e3, e4, -⟩ := decomp_file hc E.dflt h L D.ok (by rw [D.name]; exact hplain) D.names
      rw [D.name] at e2
      refine ⟨(g', Py.dictSet s.2 (fileOf test m) t), ?_, fun _ => ⟨t, b', Utils.dictGet?_set_self _ _ _, e2, e3, D.zones b' e4⟩, ?_⟩
      · unfold store
        rw [a1, res_bind_ok, hg, res_bind_ok, e1, res_bind_ok, res_bind_ok]
        rfl
      · intro fn hfn
        exact Utils.dictGet?_set_ne _ _ _ _ (Ne.symm (hfn hm))
  · rw [if_neg hm]
    exact .inr ⟨s, rfl, fun h => absurd h hm, fun _ _ => rfl⟩

/-- A sequence of methods. -/
theorem methods_run (E : Env F R S) (hc : E.codec.Lawful) (test : Str) (htest : PlainName test) (methods : List Str) (Q : Prop)
    {text title : Str} {vars : List Str} {blocks : List (ZoneBlock F)} (h : GoodFile E.rc E.codec text title vars blocks) (fs : Files)
    (hf : Py.dictGet? fs (path test ".dat".toList) = some text) (post : List (Str × (Grid F R → Option Str → Res (Grid F R)))) :
    ∀ (pre : List Str) (s : Grid F R × Files), (pre ++ post.map Prod.fst).Nodup →
      (∀ p ∈ post, PlainName p.1 ∧ ∀ g0 g : Grid F R, Loaded E.rc true blocks { g0 with name := title } g → ∀ nm,
        (p.2 g (some nm) = .error .value ∧ p.1 = "hierarchical".toList ∧ Q) ∨ ∃ g', p.2 g (some nm) = .ok g' ∧ Decomposed E.rc p.1 nm blocks g g') →
      (∀ m ∈ pre, m ∈ methods → Written E test vars blocks s.2 m) →
      (∀ fn, (∀ m ∈ pre, m ∈ methods → fn ≠ fileOf test m) → Py.dictGet? s.2 fn = Py.dictGet? fs fn) →
      (post.foldlM (fun s p => method E test methods p.1 p.2 s) s = .error .value ∧ "hierarchical".toList ∈ methods ∧ Q) ∨
      ∃ s', post.foldlM (fun s p => method E test methods p.1 p.2 s) s = .ok s' ∧
        (∀ m ∈ pre ++ post.map Prod.fst, m ∈ methods → Written E test vars blocks s'.2 m) ∧
        (∀ fn, (∀ m ∈ pre ++ post.map Prod.fst, m ∈ methods → fn ≠ fileOf test m) → Py.dictGet? s'.2 fn = Py.dictGet? fs fn) := by
  induction post with
  | nil =>
    intro pre s _ _ h1 h2
    exact .inr ⟨s, rfl, by simpa using h1, by simpa using h2⟩
  | cons p post ih =>
    intro pre s hnd hp h1 h2
    have hin : Py.dictGet? s.2 (path test ".dat".toList) = some text := by
      rw [h2 _ (fun m _ _ => fileOf_ne test m), hf]
    rw [List.foldlM_cons]
    rcases method_step E hc test htest methods Q p.1 (hp p (by simp)).1 p.2 h (hp p (by simp)).2 s hin with ⟨e, e1, e2, e3⟩ | ⟨s', e, e1, e2⟩
    · left
      rw [e]
      exact ⟨rfl, e1 ▸ e2, e3⟩
    · rw [e, res_bind_ok]
      have happ : pre ++ (p :: post).map Prod.fst = (pre ++ [p.1]) ++ post.map Prod.fst := by simp
      rw [happ] at hnd ⊢
      have hnot : p.1 ∉ pre := by
        have := (List.nodup_append.1 hnd).1
        intro hc
        exact (List.disjoint_of_nodup_append this) hc (by simp)
      refine ih (pre ++ [p.1]) s' hnd (fun q hq => hp q (by simp [hq])) ?_ ?_
      · intro m hm hmm
        rcases List.mem_append.1 hm with hm | hm
        · obtain ⟨t, b', k1, k2⟩ := h1 m hm hmm
          refine ⟨t, b', ?_, k2⟩
          rw [e2 _ (fun _ he => hnot (fileOf_inj he ▸ hm)), k1]
        · rw [List.mem_singleton] at hm
          subst hm
          exact e1 hmm
      · intro fn hfn
        rw [e2 fn (fun hm => hfn p.1 (by simp) hm), h2 fn (fun m hm => hfn m (by simp [hm]))]

end Cases
end Verif
