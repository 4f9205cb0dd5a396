import Verif.Proofs.Reload
import Verif.Proofs.Sample

/-! Properties C22 and C23: the text of a grid file. -/

namespace Verif.Props
open Verif Grid
variable {F R : Type} [DecidableEq R]

/-! ## C22 Storing and loading preserves the grid -/

omit [DecidableEq R] in
theorem dict_eq (g : Grid F R) (dflt : F) (hv : SameVars g) (hd : g.vars.Nodup) {f : Nat} (hf : f ∈ g.faces) :
    g.vars.map (fun v => (v, g.getData dflt f v)) = g.fData f := by
  rw [← hv f hf, List.map_map]
  conv_rhs => rw [← List.map_id (g.fData f)]
  apply List.map_congr_left
  rintro ⟨k, v⟩ hm
  have hn : ((g.fData f).map Prod.fst).Nodup := by rw [hv f hf]; exact hd
  simp only [Function.comp, id, getData, Py.dictGet?_of_nodup hn hm, Option.getD_some]

/-- The text written by `store` loads (into a grid object in any state), and the loaded grid has the same title,
the same zones and, zone by zone and face by face, the same data and exactly the same corner coordinates in the same order.
Rounded coordinates have to tell apart all nodes (load with merging) or the nodes of each zone (load without merging). -/
theorem C22_roundtrip (c : Codec F) (hc : c.Lawful) (dflt : F) (rc : Vec F → R) (merge : Bool) (g : Grid F R) (hg : Storable g)
    (hv : SameVars g) (hk : KeysApart rc merge g) :
    ∃ text, g.storeText c dflt = .ok text ∧ ∀ g1 : Grid F R, ∃ g', loadText rc c merge g1 text = .ok g' ∧ g'.name = g.name ∧
      List.Forall₂ (fun z z' => g'.zName z' = g.zName z ∧ List.Forall₂ (fun f f' => g'.fData f' = g.fData f ∧
        (g'.fNodes f').map g'.nP = (g.fNodes f).map g.nP) (g.zFaces z) (g'.zFaces z')) g.zones g'.zones := by
  obtain ⟨text, h1, h2⟩ := load_store hc dflt hg.wf hg.lists hg.ids hg.faces hg.name hg.zoneNames hg.vars hg.dict
  refine ⟨text, h1, fun g1 => ?_⟩
  obtain ⟨g', h3, h4⟩ := store_loaded rc merge dflt hg.wf hg.lists hk { g1 with name := g.name }
  refine ⟨g', by rw [h2, h3], h4.name, forall₂_mem (reload_same hg.wf hg.lists hk h4) ?_⟩
  rintro z hz z' _ ⟨e1, e2⟩
  refine ⟨e1, forall₂_mem e2 ?_⟩
  rintro f hf f' _ ⟨e3, e4⟩
  exact ⟨by rw [e3, dict_eq g dflt hv hg.dict (hg.wf.face_mem hz hf)], forall₂_eq_map (e4.imp fun _ _ h => h.2)⟩

/-- When faces have different variables the file has those of the first face; a variable a face does not have is
written as `0.0` (`dflt`). -/
theorem C22_variables (c : Codec F) (hc : c.Lawful) (dflt : F) (rc : Vec F → R) (merge : Bool) (g : Grid F R) (hg : Storable g)
    (hk : KeysApart rc merge g) :
    ∃ text, g.storeText c dflt = .ok text ∧ ∀ g1 : Grid F R, ∃ g', loadText rc c merge g1 text = .ok g' ∧
      List.Forall₂ (fun z z' => List.Forall₂ (fun f f' => g'.fData f' = g.vars.map (fun v => (v, g.getData dflt f v)))
        (g.zFaces z) (g'.zFaces z')) g.zones g'.zones := by
  obtain ⟨text, h1, h2⟩ := load_store hc dflt hg.wf hg.lists hg.ids hg.faces hg.name hg.zoneNames hg.vars hg.dict
  refine ⟨text, h1, fun g1 => ?_⟩
  obtain ⟨g', h3, h4⟩ := store_loaded rc merge dflt hg.wf hg.lists hk { g1 with name := g.name }
  exact ⟨g', by rw [h2, h3], (reload_same hg.wf hg.lists hk h4).imp fun _ _ h => h.2.imp fun _ _ h => h.1⟩

/-- The loaded grid is again a consistent grid that can be stored. -/
theorem C22_storable (c : Codec F) (hc : c.Lawful) (dflt : F) (rc : Vec F → R) (merge : Bool) (g g1 g' : Grid F R) (text : Str)
    (hg : Storable g) (hk : KeysApart rc merge g) (hs : g.storeText c dflt = .ok text)
    (hl : loadText rc c merge g1 text = .ok g') : Storable g' ∧ SameVars g' ∧ g'.vars = g.vars := by
  obtain ⟨text', h1, h2⟩ := load_store hc dflt hg.wf hg.lists hg.ids hg.faces hg.name hg.zoneNames hg.vars hg.dict
  rw [hs] at h1
  obtain rfl := Except.ok.inj h1
  obtain ⟨g2, h3, h4⟩ := store_loaded rc merge dflt hg.wf hg.lists hk { g1 with name := g.name }
  rw [h2, h3] at hl
  obtain rfl := Except.ok.inj hl
  have h5 := reload_same hg.wf hg.lists hk h4
  obtain ⟨h6, h7, h8⟩ := reload_vars hg.wf hg.lists hg.faces hk h4
  refine ⟨⟨reload_wf h4, h4.lists, h4.glo.perm, h6, ?_, ?_, ?_, ?_⟩, ?_, h7⟩
  · rw [h4.name]; exact hg.name
  · intro z' hz'
    obtain ⟨z, hz, e, -⟩ := forall₂_right h5 hz'
    rw [e]; exact hg.zoneNames z hz
  · rw [h7]; exact hg.vars
  · rw [h7]; exact hg.dict
  · intro f hf; rw [h7]; exact h8 f hf

/-- A grid without faces is not stored: `IndexError`. -/
theorem C22_no_faces (c : Codec F) (dflt : F) (g : Grid F R) (h : g.faces = []) : g.storeText c dflt = .error .index := by
  unfold storeText storeLines
  rw [h]
  rfl

/-! ## C23 The text is stable after one cycle -/

/-- Storing, loading (with merging) and storing again a grid that was itself loaded from a stored file reproduces the
stored text exactly. -/
theorem C23_stable (c : Codec F) (hc : c.Lawful) (dflt : F) (rc : Vec F → R) (g : Grid F R) (hg : Storable g)
    (hk : KeysApart rc true g) (a b g1 g2 : Grid F R) (t0 t1 : Str)
    (h0 : g.storeText c dflt = .ok t0) (h1 : loadText rc c true a t0 = .ok g1)
    (h2 : g1.storeText c dflt = .ok t1) (h3 : loadText rc c true b t1 = .ok g2) :
    g2.storeText c dflt = .ok t1 := by
  obtain ⟨hg1, -, -⟩ := C22_storable c hc dflt rc true g a g1 t0 hg hk h0 h1
  obtain ⟨t, e1, e2⟩ := load_store hc dflt hg.wf hg.lists hg.ids hg.faces hg.name hg.zoneNames hg.vars hg.dict
  rw [h0] at e1
  obtain rfl := Except.ok.inj e1
  obtain ⟨g1', e3, L1⟩ := store_loaded rc true dflt hg.wf hg.lists hk { a with name := g.name }
  rw [e2, e3] at h1
  obtain rfl := Except.ok.inj h1
  have hk1 := reload_keysApart L1
  obtain ⟨t, e1, e2⟩ := load_store hc dflt hg1.wf hg1.lists hg1.ids hg1.faces hg1.name hg1.zoneNames hg1.vars hg1.dict
  rw [h2] at e1
  obtain rfl := Except.ok.inj e1
  obtain ⟨g2', e3, L2⟩ := store_loaded rc true dflt hg1.wf hg1.lists hk1 { b with name := g1'.name }
  rw [e2, e3] at h3
  obtain rfl := Except.ok.inj h3
  have hs := sameZone_merged hg1.wf hg1.lists hk1 (reload_stable hg.wf hg.lists hk L1) L2
  rw [(same_text (c := c) hg1.wf hg1.lists hg1.ids hg1.faces hg1.dict hk1 L2 rfl hs), h2]

/-- Storing, loading without merging and storing again reproduces the text at once. -/
theorem C23_unmerged (c : Codec F) (hc : c.Lawful) (dflt : F) (rc : Vec F → R) (g : Grid F R) (hg : Storable g)
    (hk : KeysApart rc false g) (a g1 : Grid F R) (t : Str)
    (h0 : g.storeText c dflt = .ok t) (h1 : loadText rc c false a t = .ok g1) : g1.storeText c dflt = .ok t := by
  obtain ⟨t, e1, e2⟩ := load_store hc dflt hg.wf hg.lists hg.ids hg.faces hg.name hg.zoneNames hg.vars hg.dict
  rw [h0] at e1
  obtain rfl := Except.ok.inj e1
  obtain ⟨g1', e3, L1⟩ := store_loaded rc false dflt hg.wf hg.lists hk { a with name := g.name }
  rw [e2, e3] at h1
  obtain rfl := Except.ok.inj h1
  rw [same_text (c := c) hg.wf hg.lists hg.ids hg.faces hg.dict hk L1 rfl (sameZone_unmerged hg.wf hg.lists L1), h0]

/-! ### The hypotheses can be met -/

/-- Decimal text of integers. -/
def intCodec : Codec Int := ⟨Py.intStr, Py.int⟩

theorem intCodec_lawful : intCodec.Lawful := ⟨Py.int_intStr, fun x => (Py.intStr_facts x).1, fun x => (Py.intStr_facts x).2⟩

instance (s : Str) : Decidable (PlainName s) := by unfold PlainName; infer_instance
instance (s : Str) : Decidable (PlainVar s) := by unfold PlainVar; infer_instance

/-- The sample grid of two zones can be stored. -/
theorem sample_storable : Storable Sample.grid :=
  ⟨Sample.wf, Sample.loaded.2.lists, Sample.loaded.2.glo.perm, by rw [Sample.faces]; decide, by decide +kernel, by decide +kernel,
    by decide +kernel, by decide +kernel⟩

theorem sample_apart : KeysApart Sample.rc true Sample.grid ∧ KeysApart Sample.rc false Sample.grid := by
  simp only [KeysApart]
  constructor <;> decide +kernel

example : SameVars Sample.grid := by unfold SameVars; decide +kernel

/-- The text of the sample grid really goes through the model: it is loaded and stored again. -/
example : (do
    let t0 ← Sample.grid.storeText intCodec 0
    let g1 ← loadText Sample.rc intCodec true Sample.new t0
    let t1 ← g1.storeText intCodec 0
    let g2 ← loadText Sample.rc intCodec true Sample.new t1
    let t2 ← g2.storeText intCodec 0
    pure (decide (t1 = t2 ∧ 100 < t1.length))) = Except.ok true := by decide +kernel

end Verif.Props
