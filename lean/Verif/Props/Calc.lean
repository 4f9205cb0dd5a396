import Verif.Proofs.Merge

/-! Properties C24, C25: data of faces loaded from calculation files, and merging of results. -/

namespace Verif.Props
open Verif Grid
variable {F R : Type}

/-! ## C24 load_faces_calc_data -/

/-- When every line names a face (by its position, or as Python allows counting from the end), every named face gets
the values of the last line naming it, all other faces keep their data, and nothing else changes. -/
theorem C24_last_line (c : Codec F) (g : Grid F R) (hn : g.faces.Nodup) (text head : Str) (ls : List Str)
    (vars : List Str) (recs : List (Int × List F)) (ht : Py.readlines text = head :: ls) (hh : calcVars head = .ok vars)
    (hl : List.Forall₂ (Says c) ls recs) (hr : ∀ r ∈ recs, ∃ i < g.faces.length, Names g.faces.length r.1 i) :
    ∃ d, g.loadCalc c text = .ok { g with fData := d } ∧ (∀ f, f ∉ g.faces → d f = g.fData f) ∧
      ∀ (i f : Nat), g.faces[i]? = some f → d f = match lastFor g.faces.length recs i with
        | some v => Py.dictOf (vars.zip v)
        | none => g.fData f := by
  obtain ⟨d, h1, h2⟩ := recs_ok vars g hn recs hr
  refine ⟨d, ?_, h2⟩
  unfold loadCalc
  rw [ht]
  show (calcVars head >>= _) = _
  rw [hh, res_bind_ok]
  exact (foldlM_says hl vars g).trans h1

/-- If some line has a number outside the grid the result is `IndexError`, whatever the other lines say. -/
theorem C24_outside (c : Codec F) (g : Grid F R) (text head : Str) (ls : List Str) (vars : List Str)
    (recs : List (Int × List F)) (ht : Py.readlines text = head :: ls) (hh : calcVars head = .ok vars)
    (hl : List.Forall₂ (Says c) ls recs)
    (hr : ∃ r ∈ recs, r.1 < -(g.faces.length : Int) ∨ (g.faces.length : Int) ≤ r.1) :
    g.loadCalc c text = .error .index := by
  unfold loadCalc
  rw [ht]
  show (calcVars head >>= _) = _
  rw [hh, res_bind_ok]
  refine (foldlM_says hl vars g).trans (recs_error vars g recs ?_)
  obtain ⟨r, h1, h2⟩ := hr
  refine ⟨r, h1, fun i hi hn => ?_⟩
  unfold Names at hn
  omega

/-- A blank line (for example an empty line at the end of the file) is an `IndexError` too. -/
theorem C24_blank (c : Codec F) (g : Grid F R) (hn : g.faces.Nodup) (text head blank : Str) (ls ls' : List Str) (vars : List Str)
    (recs : List (Int × List F)) (ht : Py.readlines text = head :: (ls ++ blank :: ls')) (hh : calcVars head = .ok vars)
    (hl : List.Forall₂ (Says c) ls recs) (hr : ∀ r ∈ recs, ∃ i < g.faces.length, Names g.faces.length r.1 i)
    (hb : Py.splitWs blank = []) : g.loadCalc c text = .error .index := by
  obtain ⟨d, h1, -⟩ := recs_ok vars g hn recs hr
  unfold loadCalc
  rw [ht]
  show (calcVars head >>= fun vars => (ls ++ blank :: ls').foldlM (loadCalcLine c vars) g) = _
  rw [hh, res_bind_ok, List.foldlM_append, foldlM_says hl vars g, h1, res_bind_ok, List.foldlM_cons]
  have : loadCalcLine c vars { g with fData := d } blank = .error .index := by
    unfold loadCalcLine
    rw [hb]
    rfl
  rw [this]
  rfl

/-- What `store_faces_calc_data` writes is read back: with identifiers being positions every face gets its own values. -/
theorem C24_own_file (c : Codec F) (hc : c.Lawful) (g : Grid F R) (hn : g.faces.Nodup) (hg : GloIds g) (val : Nat → Str → F) :
    ∃ d, g.loadCalc c (g.storeCalc c val) = .ok { g with fData := d } ∧
      ∀ f ∈ g.faces, d f = ["T".toList, "Hw".toList, "Hi".toList].map (fun v => (v, val f v)) := by
  obtain ⟨vars, hvars⟩ : ∃ vars, vars = ["T".toList, "Hw".toList, "Hi".toList] := ⟨_, rfl⟩
  have hplain : ∀ v ∈ vars, PlainVar v := by rw [hvars]; decide
  have hnd : vars.Nodup := by rw [hvars]; decide
  obtain ⟨res, hres⟩ : ∃ res : Nat → List F, res = fun i => match g.faces[i]? with | some f => vars.map (val f) | none => [] := ⟨_, rfl⟩
  have htext : g.storeCalc c val = calcText c vars ((g.faces.map g.fGlo).map (fun i => (i, res i))) := by
    unfold storeCalc
    rw [← hvars, List.map_map]
    congr 1
    apply List.map_congr_left
    intro f hf
    obtain ⟨i, hi⟩ := List.getElem?_of_mem hf
    simp only [Function.comp, hg.faces i f hi, hres, hi, hvars, List.map_cons, List.map_nil]
  obtain ⟨d, h1, -, h2⟩ := calc_fold hc vars hplain hnd res g hn [()]
    (fun g' _ => g'.loadCalc c (calcText c vars ((g.faces.map g.fGlo).map (fun i => (i, res i))))) (fun _ => g.faces.map g.fGlo) (by
      intro _ _ k hk
      obtain ⟨f, hf, rfl⟩ := List.mem_map.1 hk
      obtain ⟨i, hi⟩ := List.getElem?_of_mem hf
      rw [hg.faces i f hi]
      exact (List.getElem?_eq_some_iff.1 hi).1) (fun _ _ _ => rfl)
  refine ⟨d, ?_, ?_⟩
  · rw [htext, ← h1, List.foldlM_cons]
    simp only [List.foldlM_nil]
    cases g.loadCalc c _ <;> rfl
  · intro f hf
    obtain ⟨i, hi⟩ := List.getElem?_of_mem hf
    rw [h2 i f hi, if_pos (by
      rw [List.flatMap_singleton]
      exact List.mem_map.2 ⟨f, hf, hg.faces i f hi⟩), hres]
    simp only [hi]
    rw [zip_map_self, hvars]

/-- The sample grid with a file having two lines for one face, a line counting from the end, and one face without a line. -/
example : (do
    let g ← Sample.grid.loadCalc intCodec "VARIABLES=\"GloId\", \"T\", \"Hw\"\n1 10 20\n1 11 21\n-1 5 6\n".toList
    pure (g.faces.map g.fData)) =
    .ok [[("T".toList, 5)], [("T".toList, 11), ("Hw".toList, 21)], [("T".toList, 5), ("Hw".toList, 6)]] := by decide +kernel

/-! ## C25 Every face gets its own result -/

/-- A grid file is loaded and decomposed by any sequence of decompositions; every zone gets a file from `store_mpi`, and a
program writes for each identifier found in it one line of values `res`; these files are loaded in any order into
another grid loaded from the same grid file. Then face number `i` there has the values computed for the
face with identifier `i`, which is the triangle with the same corners. -/
theorem C25_own_results {S : Type} [LinearOrder S] [DecidableEq R] (c : Codec F) (hc : c.Lawful) (rc : Vec F → R)
    (blocks : List (ZoneBlock F)) (hd : NonDegenerate rc true blocks) (a b g1 gd g2 : Grid F R)
    (h1 : loadBlocks rc true a blocks = .ok g1) (calls : List (DecompCall S)) (hp : ∀ c ∈ calls, c.Possible)
    (hcalls : calls.foldlM DecompCall.run g1 = .ok gd) (dflt : F) (files order : List (MpiFile F))
    (hm : gd.storeMpi dflt = .ok files) (ho : order.Perm files)
    (vars : List Str) (hv : ∀ v ∈ vars, PlainVar v) (hnd : vars.Nodup) (res : Nat → List F)
    (h2 : loadBlocks rc true b blocks = .ok g2) :
    ∃ d, (order.map (resultText c vars res)).foldlM (loadCalc c) g2 = .ok { g2 with fData := d } ∧
      List.Forall₂ (fun fd f => d f = vars.zip (res (gd.fGlo fd)) ∧ (g2.fNodes f).map g2.nP = (gd.fNodes fd).map gd.nP)
        gd.faces g2.faces := by
  have L1 := loaded_of hd h1
  have L2 := loaded_of hd h2
  obtain ⟨hs, hw, hl⟩ := calls_ok calls hp g1 gd ⟨L1.mesh, L1.zones, L1.alloc⟩ L1.lists hcalls
  rw [List.foldlM_map]
  exact own_results hc L1 L2 hs hw hl dflt hm hv hnd res order _ id (fun x hx => ho.mem_iff.1 hx)
    (fun m hm => ⟨m, ho.mem_iff.2 hm, rfl⟩) (fun _ _ _ => rfl)

/-- The same for the whole of `merge`: when the directory has the results of all zones for some times, `merge` writes
one file for each time and no other; whoever loads that file finds on each face the values computed for this face at
this time. -/
theorem C25_merge {S : Type} [LinearOrder S] [DecidableEq R] [Inhabited F] [Inhabited R] (c : Codec F) (hc : c.Lawful)
    (rc : Vec F → R) (gridText title : Str) (blocks : List (ZoneBlock F)) (hfile : GridFile c gridText title blocks)
    (htitle : PlainName title) (hnames : ∀ b ∈ blocks, PlainName b.name) (hd : NonDegenerate rc true blocks)
    (a g1 gd : Grid F R) (h1 : loadText rc c true a gridText = .ok g1) (h0 : g1.faces ≠ [])
    (calls : List (DecompCall S)) (hp : ∀ c ∈ calls, c.Possible) (hcalls : calls.foldlM DecompCall.run g1 = .ok gd)
    (dflt : F) (files : List (MpiFile F)) (hm : gd.storeMpi dflt = .ok files) (hmax : files.length ≤ 100000)
    (vars : List Str) (hv : ∀ v ∈ vars, PlainVar v) (hnd : vars.Nodup)
    (nm dst : Str) (times : List Nat) (htn : times.Nodup) (ht : ∀ t ∈ times, t < 10 ^ 12) (res : Nat → Nat → List F)
    (hres : ∀ t i, (res t i).length = vars.length) (dir : List (Str × Str)) (hdir : ResultDir c vars nm files times res dir) :
    ∃ outs, merge (R := R) rc c dflt gridText dst nm dir = .ok outs ∧
      (outs.map Prod.fst).Perm (times.map (fun t => dst ++ ['/'] ++ nm ++ "_r_".toList ++ Py.natStrPad 12 t ++ ".dat".toList)) ∧
      ∀ t ∈ times, ∀ text, (dst ++ ['/'] ++ nm ++ "_r_".toList ++ Py.natStrPad 12 t ++ ".dat".toList, text) ∈ outs →
        ∀ g0 : Grid F R, ∃ g', loadText rc c true g0 text = .ok g' ∧
          List.Forall₂ (fun fd f => g'.fData f = vars.zip (res t (gd.fGlo fd)) ∧
            (g'.fNodes f).map g'.nP = (gd.fNodes fd).map gd.nP) gd.faces g'.faces := by
  rw [hfile.load] at h1
  have L1 := loaded_of hd h1
  obtain ⟨hs, hw, hl⟩ := calls_ok calls hp g1 gd ⟨L1.mesh, L1.zones, L1.alloc⟩ L1.lists hcalls
  obtain ⟨name, hname⟩ : ∃ name : Str → Str, name = fun s => dst ++ ['/'] ++ nm ++ "_r_".toList ++ s ++ ".dat".toList := ⟨_, rfl⟩
  have hinj : ∀ s s', name s = name s' → s = s' := by
    intro s s' h
    rw [hname] at h
    simpa using h
  have hname' : ∀ s, dst ++ ['/'] ++ nm ++ "_r_".toList ++ s ++ ".dat".toList = name s := fun s => by rw [hname]
  simp only [hname']
  have hf0 : files ≠ [] := by
    rintro rfl
    have := (C21_partition gd hw hl (hs.gloIds L1.glo).perm dflt [] hm).2.length_eq
    rw [hs.faces] at this
    simp at this
    exact h0 (List.length_eq_zero_iff.1 this.symm)
  obtain ⟨fs, q1, q2, q3, q4⟩ := hdir.groups hmax ht hf0
  obtain ⟨Good, hGood⟩ : ∃ Good : Str × Str → Prop, Good = fun o => ∃ t ∈ times, o.1 = name (Py.natStrPad 12 t) ∧
      ∀ g0 : Grid F R, ∃ g', loadText rc c true g0 o.2 = .ok g' ∧
          List.Forall₂ (fun fd f => g'.fData f = vars.zip (res t (gd.fGlo fd)) ∧
            (g'.fNodes f).map g'.nP = (gd.fNodes fd).map gd.nP) gd.faces g'.faces := ⟨_, rfl⟩
  obtain ⟨⟨gl, outs⟩, r1, r2, r3⟩ := foldlM_total (mergeStamp rc c dflt gridText dst nm dir) (Utils.group fs)
    (fun pre s => s.2.map Prod.fst = pre.map (fun p => name p.1) ∧ ∀ o ∈ s.2, Good o) ((Grid.empty : Grid F R), [])
    ⟨rfl, by simp⟩ (by
    rintro pre p post ⟨g, outs⟩ hsplit ⟨i1, i2⟩
    obtain ⟨t, t1, t2, t3, t4⟩ := q4 p (by rw [hsplit]; simp)
    obtain ⟨g2, e1, L2⟩ := loads_again hd h1 { g with name := title }
    have hch : ∀ fn, ∃ m, fn ∈ p.2 → ∃ i : Nat, files[i]? = some m ∧ fn = Utils.mpiName nm i (Py.natStrPad 12 t) "txt".toList := by
      intro fn
      by_cases hfn : fn ∈ p.2
      · obtain ⟨i, m, m1, m2⟩ := t3 fn hfn
        exact ⟨m, fun _ => ⟨i, m1, m2⟩⟩
      · obtain ⟨m, _⟩ := List.exists_mem_of_ne_nil _ hf0
        exact ⟨m, fun h => absurd h hfn⟩
    choose ids hids using hch
    obtain ⟨d, u1, u2⟩ := own_results hc L1 L2 hs hw hl dflt hm hv hnd (res t) p.2 (mergeFile c dir) ids
      (fun x hx => by obtain ⟨i, w1, -⟩ := hids x hx; exact List.mem_of_getElem? w1) (by
        intro m hmf
        obtain ⟨i, hi⟩ := List.getElem?_of_mem hmf
        refine ⟨_, t4 i m hi, ?_⟩
        obtain ⟨j, w1, w2⟩ := hids _ (t4 i m hi)
        have hj := (List.getElem?_eq_some_iff.1 w1).1
        have hi' := (List.getElem?_eq_some_iff.1 hi).1
        obtain ⟨rfl, -⟩ := C27_injective nm i j t t "txt".toList (by omega) (by omega) (ht t t1) (ht t t1) rfl w2
        rw [hi] at w1
        exact (Option.some.inj w1).symm) (by
        intro fn hfn g
        obtain ⟨i, w1, w2⟩ := hids fn hfn
        unfold mergeFile
        have := hdir.read t1 w1
        rw [← w2] at this
        rw [this, res_bind_ok])
    have hkeys : ∀ f ∈ g2.faces, (d f).map Prod.fst = vars := by
      intro f hf
      obtain ⟨fd, -, w1, -⟩ := forall₂_right u2 hf
      rw [w1, List.map_fst_zip (by rw [hres])]
    have hne : g2.faces ≠ [] := by
      intro e
      have := u2.length_eq
      rw [e, hs.faces] at this
      exact h0 (List.length_eq_zero_iff.1 this)
    obtain ⟨text, v1, v2⟩ := stored_data hc dflt L2 hne (by rw [L2.name]; exact htitle) hnames hv hnd d hkeys
    refine ⟨({ g2 with fData := d }, outs ++ [(name p.1, text)]), ?_, ?_, ?_⟩
    · unfold mergeStamp
      rw [hfile.load, e1, res_bind_ok, u1, res_bind_ok, v1, res_bind_ok, hname']
      rfl
    · simp only [List.map_append, i1, List.map_cons, List.map_nil]
    · intro o hom
      rcases List.mem_append.1 hom with hom | hom
      · exact i2 o hom
      · rw [List.mem_singleton] at hom
        subst hom
        rw [hGood]
        refine ⟨t, t1, by rw [t2], fun g0 => ?_⟩
        obtain ⟨g', x1, x2⟩ := v2 g0
        refine ⟨g', x1, ?_⟩
        refine (forall₂_trans u2 x2).imp ?_
        rintro fd f' ⟨f, ⟨y1, y2⟩, y3, y4⟩
        exact ⟨by rw [y3, y1], by rw [y4, y2]⟩)
  refine ⟨outs, ?_, ?_, ?_⟩
  · unfold merge
    rw [q1, res_bind_ok, r1, res_bind_ok]
    rfl
  · simp only at r2
    rw [r2]
    have : (Utils.group fs).map (fun p => name p.1) = ((Utils.group fs).map Prod.fst).map name := by rw [List.map_map]; rfl
    rw [this]
    have e : times.map (fun t => name (Py.natStrPad 12 t)) = (times.map (Py.natStrPad 12)).map name := by rw [List.map_map]; rfl
    rw [e]
    apply List.Perm.map
    rw [List.perm_ext_iff_of_nodup q2 (htn.map (fun _ _ h => pad_inj h))]
    intro k
    rw [q3]
    simp only [List.mem_map]
    exact ⟨fun ⟨t, h1, h2⟩ => ⟨t, h1, h2.symm⟩, fun ⟨t, h1, h2⟩ => ⟨t, h1, h2.symm⟩⟩
  · intro t ht' text hmem
    have := r3 _ hmem
    rw [hGood] at this
    obtain ⟨t', w1, w2, w3⟩ := this
    obtain rfl := pad_inj (hinj _ _ w2)
    exact w3

/-! ### The hypotheses of C25 can be met -/

/-- Every file written by `store` is a grid file in the sense of C25. -/
theorem C25_stored_is_file (c : Codec F) (hc : c.Lawful) (dflt : F) (g : Grid F R) (hg : Storable g) :
    ∃ text blocks, g.storeText c dflt = .ok text ∧ GridFile c text g.name blocks ∧ blocks.map ZoneBlock.name = g.zones.map g.zName := by
  refine ⟨_, g.zones.map (zoneBlock g dflt), by
    unfold storeText; rw [storeLines_ok c dflt hg.wf hg.lists hg.ids hg.faces, res_bind_ok]; rfl, ?_, by rw [List.map_map]; rfl⟩
  intro old
  have := parse_render hc old g.name hg.name g.vars hg.vars hg.dict (g.zones.map (zoneText g dflt)) (by
    intro t ht
    obtain ⟨z, hz, rfl⟩ := List.mem_map.mp ht
    exact zoneText_ok dflt z (hg.zoneNames z hz))
  rw [List.flatMap_map] at this
  simp only at this ⊢
  rw [this, List.map_map]
  have e : ((fun t => ZoneText.block g.vars t) ∘ zoneText g dflt) = zoneBlock g dflt := by
    funext z; exact zoneText_block g dflt z
  rw [e]
  exact ⟨_, rfl⟩

/-- A directory with the results of two zones at two times and one file more. -/
example : ∃ files dir, Sample.grid.storeMpi 0 = .ok files ∧
    ResultDir intCodec ["T".toList] "bunny".toList files [7, 1000] (fun t i => [((t * i : Nat) : Int)]) dir ∧ dir.length = 5 := by
  have h := storeMpi_spec Sample.wf Sample.loaded.2.lists Sample.loaded.2.glo.perm (0 : Int)
  obtain ⟨files, hf⟩ : ∃ files, files = Sample.grid.zones.zipIdx.map (fun p => mpiFileOf Sample.grid (0 : Int) p.1 p.2) := ⟨_, rfl⟩
  rw [← hf] at h
  have hl : files.length = 2 := by rw [hf, Sample.zones]; rfl
  obtain ⟨m0, m1, rfl⟩ := List.length_eq_two.1 hl
  refine ⟨[m0, m1], ("readme".toList, []) :: [7, 1000].flatMap (fun t => [m0, m1].zipIdx.map (fun p =>
    (Utils.mpiName "bunny".toList p.2 (Py.natStrPad 12 t) "txt".toList,
      resultText intCodec ["T".toList] (fun i => [((t * i : Nat) : Int)]) p.1))), h, ⟨?_, ?_, ?_⟩, rfl⟩
  · have : ["readme".toList, Utils.mpiName "bunny".toList 0 (Py.natStrPad 12 7) "txt".toList,
      Utils.mpiName "bunny".toList 1 (Py.natStrPad 12 7) "txt".toList, Utils.mpiName "bunny".toList 0 (Py.natStrPad 12 1000) "txt".toList,
      Utils.mpiName "bunny".toList 1 (Py.natStrPad 12 1000) "txt".toList].Nodup := by decide +kernel
    exact this
  · intro t ht i m hi
    refine List.mem_cons_of_mem _ (List.mem_flatMap.2 ⟨t, ht, List.mem_map.2 ⟨(m, i), ?_, rfl⟩⟩)
    exact List.mem_zipIdx_iff_getElem?.2 hi
  · intro p hp
    rcases List.mem_cons.1 hp with rfl | hp
    · left; decide +kernel
    · right
      obtain ⟨t, ht, hp⟩ := List.mem_flatMap.1 hp
      obtain ⟨⟨m, i⟩, hmi, rfl⟩ := List.mem_map.1 hp
      exact ⟨t, ht, i, m, List.mem_zipIdx_iff_getElem?.1 hmi, rfl⟩

end Verif.Props
