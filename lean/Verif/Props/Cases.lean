import Verif.Proofs.Cases3
import Verif.Props.Calc
import Verif.Props.Mpi
import Verif.Props.Decomp
import Verif.Props.DropsFile

/-! Property C126: the example programs of test.py on every file. -/

namespace Verif.Props
open Verif Grid Cases
variable {F R S : Type} [DecidableEq R] [Inhabited F] [Inhabited R]

/-! ## case_001_load_store -/

/-- For every grid file the program returns, and both files it writes are grid files with the title, variables, zones and faces
of the first one: names, data and order are the same and corners are at the same rounded places; from the first to the second
written file even the coordinates are the same. If every point of a zone is a corner of one of its faces, the two written files
have the same text. Nothing else is written. -/
theorem C126_load_store (E : Env F R S) (hc : E.codec.Lawful) (test : Str) (fs : Files) (text title : Str) (vars : List Str)
    (blocks : List (ZoneBlock F)) (hf : Py.dictGet? fs (path test ".dat".toList) = some text)
    (h : GoodFile E.rc E.codec text title vars blocks) :
    ∃ fs' t1 t2 b1 b2, case001 E test fs = .ok fs' ∧
      Py.dictGet? fs' (path test "_store1.dat".toList) = some t1 ∧ Py.dictGet? fs' (path test "_store2.dat".toList) = some t2 ∧
      GoodFile E.rc E.codec t1 title vars b1 ∧ contents E.rc b1 = contents E.rc blocks ∧
      GoodFile E.rc E.codec t2 title vars b2 ∧ contents id b2 = contents id b1 ∧ (AllUsed E.rc blocks → t2 = t1) ∧
      ∀ fn, fn ≠ path test "_store1.dat".toList → fn ≠ path test "_store2.dat".toList → Py.dictGet? fs' fn = Py.dictGet? fs fn := by
  obtain ⟨g, a1, L⟩ := load_good E hf h Grid.empty
  obtain ⟨s1, -, v1, w1, n1⟩ := h.stored L
  obtain ⟨t1, a2, -, a3, a4⟩ := store_file (rc := E.rc) hc E.dflt s1 w1
  have G1 := a4 L.apart
  rw [n1, v1] at G1
  have hf1 : Py.dictGet? (Py.dictSet fs (path test "_store1.dat".toList) t1) (path test "_store1.dat".toList) = some t1 :=
    Utils.dictGet?_set_self _ _ _
  obtain ⟨g1, b1, L1⟩ := load_good E hf1 G1 g
  obtain ⟨s2, -, v2, w2, n2⟩ := G1.stored L1
  obtain ⟨t2, b2, -, b3, b4⟩ := store_file (rc := E.rc) hc E.dflt s2 w2
  have G2 := b4 L1.apart
  rw [n2, v2] at G2
  have hne : path test "_store1.dat".toList ≠ path test "_store2.dat".toList := fun e => absurd (path_inj e) (by decide)
  refine ⟨Py.dictSet (Py.dictSet fs (path test "_store1.dat".toList) t1) (path test "_store2.dat".toList) t2, t1, t2, _, _, ?_, ?_,
    Utils.dictGet?_set_self _ _ _, G1, ?_, G2, ?_, ?_, ?_⟩
  · unfold case001 store
    rw [a1, res_bind_ok, a2, res_bind_ok, res_bind_ok, b1, res_bind_ok, b2, res_bind_ok]
  · rw [Utils.dictGet?_set_ne _ _ _ _ (Ne.symm hne), hf1]
  · rw [a3, loaded_contents L]
  · rw [block_contents id g1 E.dflt s2.wf s2.lists w2 s2.dict, block_contents id g E.dflt s1.wf s1.lists w1 s1.dict]
    unfold gridContents
    refine (forall₂_map_eq (reload_same s1.wf s1.lists L.apart L1) ?_).symm
    rintro z hz z' _ ⟨e1, e2⟩
    refine Prod.ext e1.symm (forall₂_map_eq e2 ?_)
    rintro f hf f' _ ⟨e3, e4⟩
    refine Prod.ext ?_ (forall₂_map_eq e4 ?_)
    · show g.fData f = g1.fData f'
      rw [e3, vars_data g E.dflt w1 s1.dict (s1.wf.face_mem hz hf)]
    · rintro n _ n' _ ⟨-, e⟩
      exact congrArg some e.symm
  · intro hu
    have hs := sameZone_merged s1.wf s1.lists L.apart (loaded_stable L hu) L1
    have := same_text (c := E.codec) s1.wf s1.lists s1.ids s1.faces s1.dict L.apart L1 (by rw [n1]) hs
    rw [b2, a2] at this
    exact Except.ok.inj this
  · intro fn h1 h2
    rw [Utils.dictGet?_set_ne _ _ _ _ (Ne.symm h2), Utils.dictGet?_set_ne _ _ _ _ (Ne.symm h1)]

/-! ## case_007_store_load_faces_calc_data -/

/-- For every grid file the program returns. The `.txt` file has a line with three numbers for every face; in the `_data.dat`
file the zones and corners are those of the grid, and the data of the faces are exactly these three numbers under the names
`T`, `Hw` and `Hi`: all other variables of the grid are lost. -/
theorem C126_calc_data (E : Env F R S) (hc : E.codec.Lawful) (val : Grid F R → Nat → Str → F) (test : Str) (fs : Files) (text title : Str)
    (vars : List Str) (blocks : List (ZoneBlock F)) (hf : Py.dictGet? fs (path test ".dat".toList) = some text)
    (h : GoodFile E.rc E.codec text title vars blocks) :
    ∃ fs' t' b' rows, case007 E val test fs = .ok fs' ∧
      Py.dictGet? fs' (path test ".txt".toList) = some (calcText E.codec ["T".toList, "Hw".toList, "Hi".toList] rows) ∧
      rows.map Prod.fst = List.range (allTris E.rc blocks).length ∧ (∀ r ∈ rows, r.2.length = 3) ∧
      Py.dictGet? fs' (path test "_data.dat".toList) = some t' ∧
      GoodFile E.rc E.codec t' title ["T".toList, "Hw".toList, "Hi".toList] b' ∧
      (contents E.rc b').map (fun z => (z.1, z.2.map Prod.snd)) = (contents E.rc blocks).map (fun z => (z.1, z.2.map Prod.snd)) ∧
      (allTris E.rc b').map Prod.fst = rows.map (fun r => ["T".toList, "Hw".toList, "Hi".toList].zip r.2) ∧
      ∀ fn, fn ≠ path test ".txt".toList → fn ≠ path test "_data.dat".toList → Py.dictGet? fs' fn = Py.dictGet? fs fn := by
  obtain ⟨g, a1, L⟩ := load_good E hf h Grid.empty
  obtain ⟨s1, -, v1, w1, n1⟩ := h.stored L
  obtain ⟨D, d1, d2⟩ := C24_own_file E.codec hc g L.mesh.faces_nodup L.glo (val g)
  have hf1 : Py.dictGet? (Py.dictSet fs (path test ".txt".toList) (g.storeCalc E.codec (val g))) (path test ".txt".toList) =
      some (g.storeCalc E.codec (val g)) := Utils.dictGet?_set_self _ _ _
  have hkeys : ∀ f ∈ g.faces, (D f).map Prod.fst = ["T".toList, "Hw".toList, "Hi".toList] := by
    intro f hf; rw [d2 f hf]; simp
  obtain ⟨t', b', e1, e2, e3⟩ := data_file hc E.dflt h L D ["T".toList, "Hw".toList, "Hi".toList] (by decide) (by decide) hkeys
  have hne : path test ".txt".toList ≠ path test "_data.dat".toList := fun e => absurd (path_inj e) (by decide)
  have hlen : (allTris E.rc blocks).length = g.faces.length := by
    rw [allTris_contents, ← loaded_contents L, gridContents_tris, List.length_map, L.order]
  refine ⟨Py.dictSet (Py.dictSet fs (path test ".txt".toList) (g.storeCalc E.codec (val g))) (path test "_data.dat".toList) t', t', b',
    g.faces.map (fun f => (g.fGlo f, [val g f "T".toList, val g f "Hw".toList, val g f "Hi".toList])), ?_, ?_, ?_, ?_,
    Utils.dictGet?_set_self _ _ _, e2, ?_, ?_, ?_⟩
  · unfold case007 store
    rw [a1, res_bind_ok]
    simp only
    rw [readFile_ok hf1, res_bind_ok, d1, res_bind_ok, e1, res_bind_ok]
  · rw [Utils.dictGet?_set_ne _ _ _ _ (Ne.symm hne), hf1]
    rfl
  · rw [List.map_map, hlen]
    refine List.ext_getElem (by simp) fun i h1 h2 => ?_
    simp only [List.getElem_map, List.getElem_range, Function.comp]
    exact L.glo.faces i _ (List.getElem?_eq_getElem _)
  · intro r hr
    obtain ⟨f, -, rfl⟩ := List.mem_map.1 hr
    rfl
  · rw [e3, ← loaded_contents L]
    unfold gridContents
    simp [Function.comp_def]
  · rw [allTris_contents, e3, gridContents_tris, List.map_map, List.map_map]
    show (g.zones.flatMap g.zFaces).map _ = _
    rw [← L.order]
    apply List.map_congr_left
    intro f hf
    show D f = _
    rw [d2 f hf]
    rfl
  · intro fn h1 h2
    rw [Utils.dictGet?_set_ne _ _ _ _ (Ne.symm h2), Utils.dictGet?_set_ne _ _ _ _ (Ne.symm h1)]

/-! ## case_014_convert_grid_stall_to_check_point -/

/-- If the grid has all five variables of stall, the program returns and in the written file zones, corners and data are those of
the grid without these variables. Otherwise it raises `KeyError`. -/
theorem C126_stall (E : Env F R S) (hc : E.codec.Lawful) (fs : Files) (text title : Str) (vars : List Str) (blocks : List (ZoneBlock F))
    (hf : Py.dictGet? fs "cases/drops/cyl/cyl_stall.dat".toList = some text) (h : GoodFile E.rc E.codec text title vars blocks) :
    ((∀ v ∈ stallNames, v ∈ vars) → ∃ t' b', case014 E fs = .ok (Py.dictSet fs "cases/drops/cyl/cyl_stall_case_014.dat".toList t') ∧
      GoodFile E.rc E.codec t' title (vars.filter (· ∉ stallNames)) b' ∧
      contents E.rc b' = (contents E.rc blocks).map (fun z => (z.1, z.2.map (fun t => (t.1.filter (fun d => d.1 ∉ stallNames), t.2))))) ∧
    ((¬ ∀ v ∈ stallNames, v ∈ vars) → case014 E fs = .error .key) := by
  obtain ⟨g, a1, L⟩ := load_good E hf h Grid.empty
  obtain ⟨s1, k1, v1, w1, n1⟩ := h.stored L
  have hx := stall_exact L.mesh.faces_nodup s1.faces h.dict k1
  refine ⟨fun hs => ?_, fun hs => ?_⟩
  · rw [if_pos hs] at hx
    obtain ⟨D, d1, d2⟩ := hx
    obtain ⟨t', b', e1, e2, e3⟩ := data_file hc E.dflt h L D (vars.filter (· ∉ stallNames))
      (fun v hv => h.plain_vars v (List.mem_filter.1 hv).1) (h.dict.filter _) (fun f hf => by
        rw [d2 f hf, ← k1 f hf, List.filter_map]; rfl)
    refine ⟨t', b', ?_, e2, ?_⟩
    · unfold case014 store
      rw [a1, res_bind_ok, d1, res_bind_ok, e1, res_bind_ok]
    · rw [e3, ← loaded_contents L]
      unfold gridContents
      rw [List.map_map]
      apply List.map_congr_left
      intro z hz
      refine Prod.ext rfl ?_
      show (g.zFaces z).map _ = ((g.zFaces z).map _).map _
      rw [List.map_map]
      apply List.map_congr_left
      intro f hf
      exact Prod.ext (d2 f (s1.wf.face_mem hz hf)) rfl
  · rw [if_neg hs] at hx
    unfold case014
    rw [a1, res_bind_ok, hx]
    rfl

/-! ## case_009_store_mpi -/

/-- The program raises `ValueError`, or it writes at most four files `.cry`, numbered from 0, and every face of the grid is in
exactly one of them. It returns if the last sign function takes different values on different faces. -/
theorem C126_mpi [LinearOrder S] (E : Env F R S) (test : Str) (fs : Files) (text title : Str) (vars : List Str)
    (blocks : List (ZoneBlock F)) (hf : Py.dictGet? fs (path test ".dat".toList) = some text)
    (h : GoodFile E.rc E.codec text title vars blocks) :
    (case009 E test fs = .error .value ∨ ∃ (fs' : Files) (ms : List (MpiFile F)), case009 E test fs = .ok fs' ∧ ms.length ≤ 4 ∧
      (ms.flatMap MpiFile.gloIds).Perm (List.range (allTris E.rc blocks).length) ∧
      (∀ i m, ms[i]? = some m → Py.dictGet? fs' (path test "_mpi_".toList ++ Py.natStrPad 5 i ++ "_000000000100.cry".toList) =
        some (m.render E.codec.fmt)) ∧
      ∀ fn, (∀ i < ms.length, fn ≠ path test "_mpi_".toList ++ Py.natStrPad 5 i ++ "_000000000100.cry".toList) →
        Py.dictGet? fs' fn = Py.dictGet? fs fn) ∧
    ((∀ g : Grid F R, ∃ fl, (E.fns g).getLast? = some fl ∧ ∀ a ∈ g.faces, ∀ b ∈ g.faces, fl a = fl b → a = b) →
      ∃ fs', case009 E test fs = .ok fs') := by
  obtain ⟨g, a1, L⟩ := load_good E hf h Grid.empty
  have hname : ∀ i, mpiFileName (path test "_mpi".toList) "000000000100".toList ".cry".toList i =
      path test "_mpi_".toList ++ Py.natStrPad 5 i ++ "_000000000100.cry".toList := by
    intro i; unfold mpiFileName path; simp
  have hrun : ∀ g', g.decomposeHierarchical (E.fns g) 3 (some (test ++ " hierarchical".toList)) = .ok g' →
      ∃ ms, g'.storeMpi E.dflt = .ok ms ∧ ms.length = g'.zones.length := by
    intro g' hg
    have ok := (C13_hierarchical g g' L.wf _ _ _ _ hg).1
    exact ⟨_, storeMpi_spec (ok.wf L.mesh) ok.lists (ok.same.gloIds L.glo).perm E.dflt, by simp⟩
  refine ⟨?_, fun hinj => ?_⟩
  · rcases (C14_exact_partial g L.wf (E.fns g) 1 (some (test ++ " hierarchical".toList)) []).2 with ⟨g', hg⟩ | hg
    · right
      have hg : g.decomposeHierarchical (E.fns g) 3 (some (test ++ " hierarchical".toList)) = .ok g' := hg
      obtain ⟨ok, -, c3, -⟩ := C13_hierarchical g g' L.wf _ _ _ _ hg
      obtain ⟨ms, m1, m2⟩ := hrun g' hg
      obtain ⟨l, hl⟩ : ∃ l : List (Str × Str), l = ms.zipIdx.map (fun p =>
        (mpiFileName (path test "_mpi".toList) "000000000100".toList ".cry".toList p.2, p.1.render E.codec.fmt)) := ⟨_, rfl⟩
      have hfst : l.map Prod.fst = (List.range ms.length).map
          (mpiFileName (path test "_mpi".toList) "000000000100".toList ".cry".toList) := by
        rw [hl, List.map_map]
        refine List.ext_getElem (by simp) fun i h1 h2 => by simp
      have hnd : (l.map Prod.fst).Nodup := by
        rw [hfst]
        exact List.nodup_range.map_on (fun i _ j _ e => C21_file_names _ _ _ i j e)
      obtain ⟨s1, s2⟩ := sets_get l hnd fs
      refine ⟨l.foldl (fun fs p => Py.dictSet fs p.1 p.2) fs, ms, ?_, ?_, ?_, ?_, ?_⟩
      · unfold case009
        rw [a1, res_bind_ok, hg, res_bind_ok, m1, res_bind_ok, hl, List.foldl_map]
      · rw [m2]
        simpa using c3
      · have := (C21_partition g' (ok.wf L.mesh) ok.lists (ok.same.gloIds L.glo).perm E.dflt ms m1).2
        rw [ok.same.faces] at this
        rw [allTris_contents, ← loaded_contents L, gridContents_tris, List.length_map, ← L.order]
        exact this
      · intro i m hm
        rw [← hname]
        refine s1 (_, m.render E.codec.fmt) ?_
        rw [hl]
        exact List.mem_map.2 ⟨(m, i), List.mem_zipIdx_iff_getElem?.2 hm, rfl⟩
      · intro fn hfn
        refine s2 fn ?_
        rw [hfst, List.mem_map]
        rintro ⟨i, hi, e⟩
        exact hfn i (List.mem_range.1 hi) (by rw [← hname, e])
    · left
      have hg : g.decomposeHierarchical (E.fns g) 3 (some (test ++ " hierarchical".toList)) = .error .value := hg
      unfold case009
      rw [a1, res_bind_ok, hg]
      rfl
  · obtain ⟨fl, f1, f2⟩ := hinj g
    obtain ⟨g', hg⟩ := C14_returns_partial g L.wf (E.fns g) 3 (some (test ++ " hierarchical".toList)) [] (by omega) fl f1 f2
    obtain ⟨ms, m1, m2⟩ := hrun g' hg
    unfold case009
    rw [a1, res_bind_ok, hg, res_bind_ok, m1, res_bind_ok]
    exact ⟨_, rfl⟩

/-! ## case_002_decompose -/

/-- The program raises `ValueError`, which only `decompose_hierarchical` can do, or for each requested method it writes a file
with the title `<test> <method>`, the same variables, the same triangles with the same values and the zones of the method
(`MethodZones`); it does not change any other file. It returns if the last sign function takes different values on different
faces. -/
theorem C126_decompose [LinearOrder S] (E : Env F R S) (hc : E.codec.Lawful) (rand : Nat → Nat) (hr : ∀ i, rand i < 32) (test : Str)
    (htest : PlainName test) (methods : List Str) (fs : Files) (text title : Str) (vars : List Str)
    (blocks : List (ZoneBlock F)) (hf : Py.dictGet? fs (path test ".dat".toList) = some text)
    (h : GoodFile E.rc E.codec text title vars blocks) :
    (case002 E rand test methods fs = .error .value ∧ "hierarchical".toList ∈ methods ∧
      ¬ ∀ g : Grid F R, ∃ fl, (E.fns g).getLast? = some fl ∧ ∀ a ∈ g.faces, ∀ b ∈ g.faces, fl a = fl b → a = b) ∨
    ∃ fs', case002 E rand test methods fs = .ok fs' ∧
      (∀ m ∈ methodNames, m ∈ methods → ∃ t b', Py.dictGet? fs' (path test (['_'] ++ m ++ ".dat".toList)) = some t ∧
        GoodFile E.rc E.codec t (test ++ [' '] ++ m) vars b' ∧ (allTris E.rc b').Perm (allTris E.rc blocks) ∧
        MethodZones E.rc m blocks b') ∧
      ∀ fn, (∀ m ∈ methodNames, m ∈ methods → fn ≠ path test (['_'] ++ m ++ ".dat".toList)) →
        Py.dictGet? fs' fn = Py.dictGet? fs fn := by
  obtain ⟨post, hpost⟩ : ∃ post : List (Str × (Grid F R → Option Str → Res (Grid F R))), post =
      [("mono".toList, fun g nm => g.decomposeMono nm), ("random".toList, fun g nm => g.decomposeRandom rand 32 nm),
       ("linear".toList, fun g nm => g.decomposeLinear 32 nm),
       ("hierarchical".toList, fun g nm => g.decomposeHierarchical (E.fns g) 6 nm fixedNames),
       ("farhat".toList, fun g nm => g.decomposeFarhat 32 nm fixedNames)] := ⟨_, rfl⟩
  have hnames : post.map Prod.fst = methodNames := by rw [hpost]; rfl
  have hrun : case002 E rand test methods fs =
      (post.foldlM (fun s p => method E test methods p.1 p.2 s) (Grid.empty, fs) >>= fun s => .ok s.2) := by
    rw [hpost]
    unfold case002
    simp only [List.foldlM_cons, List.foldlM_nil, bind_assoc, pure_bind]
  have key := methods_run E hc test htest methods
    (¬ ∀ g : Grid F R, ∃ fl, (E.fns g).getLast? = some fl ∧ ∀ a ∈ g.faces, ∀ b ∈ g.faces, fl a = fl b → a = b) h fs hf post []
    (Grid.empty, fs) (by rw [hnames]; decide) ?_ (by simp) (by simp)
  · rw [hrun]
    rw [List.nil_append, hnames] at key
    rcases key with ⟨k1, k2, k3⟩ | ⟨s', k1, k2, k3⟩
    · rw [k1]
      exact .inl ⟨rfl, k2, k3⟩
    · rw [k1]
      exact .inr ⟨s'.2, rfl, k2, k3⟩
  · rw [hpost]
    simp only [List.forall_mem_cons, List.not_mem_nil, false_imp_iff, implies_true, and_true]
    refine ⟨⟨by decide, fun g0 g L nm => .inr (dec_mono L nm)⟩, ⟨by decide, fun g0 g L nm => .inr (dec_random L nm rand hr)⟩,
      ⟨by decide, fun g0 g L nm => .inr (dec_linear L nm)⟩, ⟨by decide, fun g0 g L nm => ?_⟩,
      ⟨by decide, fun g0 g L nm => .inr (dec_farhat h L (h.stored L).1.faces nm)⟩⟩
    by_cases hq : ∀ g : Grid F R, ∃ fl, (E.fns g).getLast? = some fl ∧ ∀ a ∈ g.faces, ∀ b ∈ g.faces, fl a = fl b → a = b
    · right
      obtain ⟨fl, f1, f2⟩ := hq g
      obtain ⟨g', hg⟩ := C14_returns_partial g L.wf (E.fns g) 6 (some nm) fixedNames (by omega) fl f1 f2
      exact ⟨g', hg, dec_hier h L nm _ hg⟩
    · rcases (C14_exact_partial g L.wf (E.fns g) 4 (some nm) fixedNames).2 with ⟨g', hg⟩ | hg
      · exact .inr ⟨g', hg, dec_hier h L nm _ hg⟩
      · exact .inl ⟨hg, trivial, hq⟩

/-! ## case_005_explode_bunny -/

/-- The program raises `ValueError`, which only `decompose_hierarchical` can do, or it writes two files. The first one has the same
variables and triangles in at most 16 zones. The second one has the same zones, faces and values, with every zone moved as a whole
by `k` times the vector from the mean point of all points of zones to the mean point of the zone. -/
theorem C126_explode [LinearOrder S] [Field F] [DecidableEq F] [CharZero F] (E : Env F R S) (hc : E.codec.Lawful) (k : F) (test : Str)
    (htest : PlainName test) (fs : Files) (text title : Str) (vars : List Str) (blocks : List (ZoneBlock F))
    (hf : Py.dictGet? fs (path test ".dat".toList) = some text) (h : GoodFile E.rc E.codec text title vars blocks) :
    (case005 E k test fs = .error .value ∧
      ¬ ∀ g : Grid F R, ∃ fl, (E.fns g).getLast? = some fl ∧ ∀ a ∈ g.faces, ∀ b ∈ g.faces, fl a = fl b → a = b) ∨
    ∃ fs' th te bh be gm, case005 E k test fs = .ok fs' ∧
      Py.dictGet? fs' (path test "_hierarchical.dat".toList) = some th ∧ Py.dictGet? fs' (path test "_explode.dat".toList) = some te ∧
      GoodFile E.rc E.codec th (test ++ " hierarchical".toList) vars bh ∧ (allTris E.rc bh).Perm (allTris E.rc blocks) ∧ bh.length ≤ 16 ∧
      GridFile E.codec te (test ++ " hierarchical".toList) be ∧ MeanPoint (bh.flatMap (·.pts)) gm ∧ Exploded k gm bh be ∧
      ∀ fn, fn ≠ path test "_hierarchical.dat".toList → fn ≠ path test "_explode.dat".toList → Py.dictGet? fs' fn = Py.dictGet? fs fn := by
  obtain ⟨g, a1, L⟩ := load_good E hf h Grid.empty
  have key : (g.decomposeHierarchical (E.fns g) 5 (some (test ++ " hierarchical".toList)) = .error .value ∧
      ¬ ∀ g : Grid F R, ∃ fl, (E.fns g).getLast? = some fl ∧ ∀ a ∈ g.faces, ∀ b ∈ g.faces, fl a = fl b → a = b) ∨
      ∃ g', g.decomposeHierarchical (E.fns g) 5 (some (test ++ " hierarchical".toList)) = .ok g' := by
    by_cases hq : ∀ g : Grid F R, ∃ fl, (E.fns g).getLast? = some fl ∧ ∀ a ∈ g.faces, ∀ b ∈ g.faces, fl a = fl b → a = b
    · obtain ⟨fl, f1, f2⟩ := hq g
      exact .inr (C14_returns_partial g L.wf (E.fns g) 5 _ [] (by omega) fl f1 f2)
    · rcases (C14_exact_partial g L.wf (E.fns g) 3 (some (test ++ " hierarchical".toList)) []).2 with ⟨g', hg⟩ | hg
      · exact .inr ⟨g', hg⟩
      · exact .inl ⟨hg, hq⟩
  rcases key with ⟨hg, hq⟩ | ⟨g', hg⟩
  · left
    refine ⟨?_, hq⟩
    unfold case005
    rw [a1, res_bind_ok, hg]
    rfl
  · right
    obtain ⟨ok, hname, -, hlen, hne⟩ := hier_spec g g' L.wf (E.fns g) 5 _ [] hg
    obtain ⟨n1, -⟩ := hier_names g g' L.wf (E.fns g) 5 _ [] hg
    have hkept : keptZones g [] = [] := by unfold keptZones; simp
    have hfree : freeFaces g [] = g.faces := by unfold freeFaces; rw [hkept]; simp
    have hname : g'.name = test ++ " hierarchical".toList := hname
    have hplain : PlainName (test ++ " hierarchical".toList) := by
      unfold PlainName at htest ⊢
      simp only [List.mem_append, not_or]
      exact ⟨⟨htest.1, by decide⟩, ⟨htest.2.1, by decide⟩, ⟨htest.2.2, by decide⟩⟩
    obtain ⟨th, bh, e1, e2, e3, e4, e5, e6, e7, e8⟩ := decomp_file hc E.dflt h L ok (by rw [hname]; exact hplain) (fun z hz =>
      (n1.path z hz (by rw [hkept]; simp)).plain)
    have hnf : ∀ z ∈ g'.zones, g'.zFaces z ≠ [] := by
      intro z hz he
      have := hne (by rw [hfree]; exact (h.stored L).1.faces) z hz he
      rw [hkept] at this
      cases this
    have hgf : GridFile E.codec th g'.name (g'.zones.map (zoneBlock g' E.dflt)) := e5 ▸ e2.file
    obtain ⟨g1, g2, te, gm, be, x1, x2, x3, x4, x5, x6⟩ := explode_file (rc := E.rc) hc E.dflt k e6 e7 e8 hnf hgf g'
    rw [hname] at e2 x4
    have hf1 : Py.dictGet? (Py.dictSet fs (path test "_hierarchical.dat".toList) th) (path test "_hierarchical.dat".toList) = some th :=
      Utils.dictGet?_set_self _ _ _
    have hpne : path test "_hierarchical.dat".toList ≠ path test "_explode.dat".toList := fun e => absurd (path_inj e) (by decide)
    refine ⟨Py.dictSet (Py.dictSet fs (path test "_hierarchical.dat".toList) th) (path test "_explode.dat".toList) te, th, te, bh, be, gm, ?_, ?_,
      Utils.dictGet?_set_self _ _ _, e2, e3, ?_, x4, by rw [e5]; exact x5, by rw [e5]; exact x6, ?_⟩
    · unfold case005 store load
      unfold load at a1
      rw [a1, res_bind_ok, hg, res_bind_ok, e1, res_bind_ok, res_bind_ok, readFile_ok hf1, res_bind_ok, x1, res_bind_ok, x2, res_bind_ok, x3,
        res_bind_ok]
    · rw [Utils.dictGet?_set_ne _ _ _ _ (Ne.symm hpne), hf1]
    · rw [e5, List.length_map]
      have : g'.zones.filter (fun z => decide (z ∉ keptZones g [])) = g'.zones := by rw [hkept]; simp
      rw [this] at hlen
      exact hlen
    · intro fn h1 h2
      rw [Utils.dictGet?_set_ne _ _ _ _ (Ne.symm h2), Utils.dictGet?_set_ne _ _ _ _ (Ne.symm h1)]

/-! ## The hypotheses are met -/

/-- The text of a file. -/
def caseText (vars : List Str) (ts : List (ZoneText ℚ)) : Str :=
  (headLines "t".toList (xyz ++ vars) ++ ts.flatMap (fun t => t.lines ratCodec (xyz ++ vars).length)).flatten

theorem caseText_good (vars : List Str) (ts : List (ZoneText ℚ)) (hf : ∀ v ∈ vars, PlainVar v) (hv : vars.Nodup) (ht : ∀ t ∈ ts, t.Ok vars)
    (h1 : ∀ b ∈ ts.map (fun t => t.block vars), b.Valid) (h2 : NonDegenerate Sample.rcq true (ts.map (fun t => t.block vars)))
    (h3 : (loadBlocks Sample.rcq true Grid.empty (ts.map (fun t => t.block vars))).isOk = true)
    (h4 : ∃ b ∈ ts.map (fun t => t.block vars), b.faces ≠ [])
    (h5 : ∀ b ∈ ts.map (fun t => t.block vars), ∀ f ∈ b.faces, f.1.map Prod.fst = vars) :
    GoodFile Sample.rcq ratCodec (caseText vars ts) "t".toList vars (ts.map (fun t => t.block vars)) := by
  refine ⟨fun old => ⟨_, parse_render ratCodec_lawful old "t".toList (by decide) vars hf hv ts ht⟩, h1, h2, ?_, h4, by decide, ?_, hf, hv, h5⟩
  · rcases load_spec Sample.rcq true Grid.empty _ h1 h2 (by intro h; cases h) with ⟨_, h⟩ | ⟨h, _⟩
    · rw [h] at h3; cases h3
    · exact h
  · intro b hb
    obtain ⟨t, htm, rfl⟩ := List.mem_map.1 hb
    exact (ht t htm).name

/-- Two zones with the variables of stall and one more; the first point of the first zone is used in the second one only. -/
def caseZones : List (ZoneText ℚ) :=
  [⟨"a".toList, [⟨5, 5, 1⟩, ⟨0, 0, 0⟩, ⟨1, 0, 2⟩, ⟨0, 1, 3⟩], [[7], [1], [2], [3], [4], [5]], [[2, 3, 4]]⟩,
   ⟨"POS1".toList, [⟨5, 5, 1⟩, ⟨0, 0, 0⟩, ⟨8, 1, 4⟩], [[8], [1], [2], [3], [4], [5]], [[1, 2, 3]]⟩]

def caseVars : List Str := "T".toList :: stallNames

theorem caseZones_good : GoodFile Sample.rcq ratCodec (caseText caseVars caseZones) "t".toList caseVars
    (caseZones.map (fun t => t.block caseVars)) := by
  refine caseText_good _ _ ?_ (by decide) ?_ (by unfold ZoneBlock.Valid; decide +kernel) (by unfold NonDegenerate; decide +kernel)
    (by decide +kernel) (by decide +kernel) (by decide +kernel)
  · unfold PlainVar; decide
  · have h : ∀ t ∈ caseZones, PlainName t.name ∧ t.rows.length = caseVars.length ∧ ∀ r ∈ t.rows, r.length = t.conns.length := by
      unfold PlainName; decide
    exact fun t ht => ⟨(h t ht).1, (h t ht).2.1, (h t ht).2.2⟩

/-- Faces ordered by their numbers. -/
def caseEnv : Env ℚ (ℚ × ℚ × ℚ) Nat := ⟨Sample.rcq, ratCodec, 0, fun _ => [id]⟩

/-- The file satisfies the hypotheses of all theorems above; all five variables of stall are there, the numbers written are read back,
the sign function takes different values on different faces and there is a file. -/
example : GoodFile caseEnv.rc caseEnv.codec (caseText caseVars caseZones) "t".toList caseVars (caseZones.map (fun t => t.block caseVars)) ∧
    caseEnv.codec.Lawful ∧ (∀ v ∈ stallNames, v ∈ caseVars) ∧ PlainName "t".toList ∧ (∀ i, i % 32 < 32) ∧
    (∀ g : Grid ℚ (ℚ × ℚ × ℚ), ∃ fl, (caseEnv.fns g).getLast? = some fl ∧ ∀ a ∈ g.faces, ∀ b ∈ g.faces, fl a = fl b → a = b) ∧
    (∀ f : Str, Py.dictGet? [(f, caseText caseVars caseZones)] f = some (caseText caseVars caseZones)) :=
  ⟨caseZones_good, ratCodec_lawful, by decide, by decide, fun i => Nat.mod_lt _ (by omega), fun _ => ⟨id, rfl, fun _ _ _ _ h => h⟩,
    fun f => by simp [Py.dictGet?]⟩

/-- The second and third sentence of `C126_decompose`: here the program returns. -/
example : ∃ fs', case002 caseEnv (fun i => i % 32) "t".toList methodNames [(path "t".toList ".dat".toList, caseText caseVars caseZones)] = .ok fs' := by
  rcases C126_decompose caseEnv ratCodec_lawful (fun i => i % 32) (fun i => Nat.mod_lt _ (by omega)) "t".toList (by decide) methodNames
    [(path "t".toList ".dat".toList, caseText caseVars caseZones)] _ _ _ _ (by simp [Py.dictGet?]) caseZones_good with ⟨-, -, h⟩ | ⟨fs', h, -⟩
  · exact absurd (fun _ => ⟨id, rfl, fun _ _ _ _ h => h⟩) h
  · exact ⟨fs', h⟩

/-- A file with all points used, for which both files written by `case_001_load_store` are equal. -/
def usedZones : List (ZoneText ℚ) :=
  [⟨"a".toList, [⟨0, 0, 0⟩, ⟨1, 0, 2⟩, ⟨0, 1, 3⟩], [[7]], [[1, 2, 3]]⟩, ⟨"b".toList, [⟨5, 5, 1⟩, ⟨0, 0, 0⟩, ⟨8, 1, 4⟩], [[8]], [[1, 2, 3]]⟩]

example : GoodFile Sample.rcq ratCodec (caseText ["T".toList] usedZones) "t".toList ["T".toList] (usedZones.map (fun t => t.block ["T".toList])) ∧
    AllUsed Sample.rcq (usedZones.map (fun t => t.block ["T".toList])) := by
  refine ⟨caseText_good _ _ ?_ (by decide) ?_ (by unfold ZoneBlock.Valid; decide +kernel) (by unfold NonDegenerate; decide +kernel)
    (by decide +kernel) (by decide +kernel) (by decide +kernel), by unfold AllUsed; decide +kernel⟩
  · unfold PlainVar; decide
  · have h : ∀ t ∈ usedZones, PlainName t.name ∧ t.rows.length = ["T".toList].length ∧ ∀ r ∈ t.rows, r.length = t.conns.length := by
      unfold PlainName; decide
    exact fun t ht => ⟨(h t ht).1, (h t ht).2.1, (h t ht).2.2⟩

/-- The files written by `case_001_load_store`, which are meant to be compared, can be different: the first point of a zone is not used
in this zone, so the order of points changes with every load until none of these is left. -/
theorem C126_different_violation : ∃ fs' t1 t2,
    case001 caseEnv "t".toList [(path "t".toList ".dat".toList, caseText caseVars caseZones)] = .ok fs' ∧
    Py.dictGet? fs' (path "t".toList "_store1.dat".toList) = some t1 ∧ Py.dictGet? fs' (path "t".toList "_store2.dat".toList) = some t2 ∧
    t1 ≠ t2 := by
  have h : (match case001 caseEnv "t".toList [(path "t".toList ".dat".toList, caseText caseVars caseZones)] with
      | .ok fs' => match Py.dictGet? fs' (path "t".toList "_store1.dat".toList), Py.dictGet? fs' (path "t".toList "_store2.dat".toList) with
        | some t1, some t2 => decide (t1 ≠ t2)
        | _, _ => false
      | .error _ => false) = true := by decide +kernel
  split at h
  · rename_i fs' hfs
    split at h
    · rename_i t1 t2 e1 e2
      exact ⟨fs', t1, t2, hfs, e1, e2, of_decide_eq_true h⟩
    · cases h
  · cases h

end Verif.Props
