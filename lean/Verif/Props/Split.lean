import Verif.Proofs.Split
import Verif.Props.Decomp

/-! Properties C30, C31: the splitting script. -/

namespace Verif.Props
open Verif Grid
variable {F R : Type}

/-! ## C30 The strategy decides the number of domains -/

/-- Strategy `n<k>` with more domains than fixed zones: the number of zones is `k`, corrected by the difference between
the number of zones having one of the fixed names and the number of names given. -/
theorem C30_n {S : Type} [LinearOrder S] (g : Grid F R) (hw : Wf g) (hne : g.faces ≠ []) (fns : List (Nat → S)) (s : Str) (k : Int)
    (hs : Py.int s = .ok k) (fixed : List Str) (hk : (fixed.length : Int) < k) :
    ∃ g', splitGrid g fns ('n' :: s) fixed = .ok g' ∧ DecompOk g g' ∧
      (g'.zones.length : Int) + fixed.length = k + (g.zones.filter (fun z => decide (g.zName z ∈ fixed))).length := by
  have e : splitGrid g fns ('n' :: s) fixed = (Py.int s >>= fun n => if n = 1 ∧ fixed = [] then g.decomposeMono
      else if n = 0 then .error (.exc "zero zones count to split")
      else if n ≤ fixed.length then .error (.exc "fixed zones count is more or equal than target zones count")
      else g.decomposeFarhat (n - fixed.length).toNat none fixed) := rfl
  rw [e, hs, res_bind_ok]
  by_cases h1 : k = 1 ∧ fixed = []
  · rw [if_pos h1]
    obtain ⟨g', q1, q2, -, q3, -⟩ := mono_spec g hw none
    exact ⟨g', q1, q2, by rw [q3, h1.1, h1.2]; simp⟩
  · rw [if_neg h1, if_neg (by omega), if_neg (by omega)]
    obtain ⟨g', new, q1, q2, q3, q4, -⟩ := C11_farhat g hw (k - fixed.length).toNat (by omega) hne none fixed
    exact ⟨g', q1, q2, by rw [q3, List.length_append, q4]; omega⟩

/-- There are exactly `k` zones if and only if as many zones have one of the fixed names as names were given. -/
theorem C30_n_iff {S : Type} [LinearOrder S] (g g' : Grid F R) (hw : Wf g) (hne : g.faces ≠ []) (fns : List (Nat → S)) (s : Str) (k : Nat)
    (hs : Py.int s = .ok (k : Int)) (fixed : List Str) (hk : fixed.length < k) (h : splitGrid g fns ('n' :: s) fixed = .ok g') :
    g'.zones.length = k ↔ (g.zones.filter (fun z => decide (g.zName z ∈ fixed))).length = fixed.length := by
  obtain ⟨g2, h1, -, h2⟩ := C30_n g hw hne fns s k hs fixed (by exact_mod_cast hk)
  rw [h] at h1
  obtain rfl := Except.ok.inj h1
  omega

/-- When the zones of the grid have different names and the fixed names are different and present, there are exactly
`k` zones. (Missing for C30: grids with several zones of the same name, where it is false, see
`C30_duplicates_violation`.) -/
theorem C30_n_exact_partial {S : Type} [LinearOrder S] (g : Grid F R) (hw : Wf g) (hne : g.faces ≠ []) (fns : List (Nat → S)) (s : Str) (k : Nat)
    (hs : Py.int s = .ok (k : Int)) (fixed : List Str) (hk : fixed.length < k) (hz : (g.zones.map g.zName).Nodup) (hf : fixed.Nodup)
    (hc : checkFixed g fixed = .ok ()) :
    ∃ g', splitGrid g fns ('n' :: s) fixed = .ok g' ∧ DecompOk g g' ∧ g'.zones.length = k := by
  obtain ⟨g', h1, h2, h3⟩ := C30_n g hw hne fns s k hs fixed (by omega)
  refine ⟨g', h1, h2, ?_⟩
  have : (g.zones.filter (fun z => decide (g.zName z ∈ fixed))).length = fixed.length := by
    have hp : ((g.zones.filter (fun z => decide (g.zName z ∈ fixed))).map g.zName).Perm fixed := by
      rw [List.perm_ext_iff_of_nodup (hz.sublist (List.filter_sublist.map _)) hf]
      intro n
      simp only [List.mem_map, List.mem_filter, decide_eq_true_eq]
      constructor
      · rintro ⟨z, ⟨-, q⟩, rfl⟩; exact q
      · intro hn
        unfold checkFixed at hc
        split at hc
        · next hall =>
          have := of_decide_eq_true (List.all_eq_true.1 hall n hn)
          obtain ⟨z, z1, z2⟩ := List.mem_map.1 this
          exact ⟨z, ⟨z1, by rw [z2]; exact hn⟩, z2⟩
        · cases hc
    have := hp.length_eq
    rwa [List.length_map] at this
  omega

/-- A number of domains not greater than the number of fixed zones is rejected (in particular 0 and negative ones). -/
theorem C30_n_reject {S : Type} [LinearOrder S] (g : Grid F R) (fns : List (Nat → S)) (s : Str) (k : Int)
    (hs : Py.int s = .ok k) (fixed : List Str) (hk : k ≤ fixed.length) :
    ∃ msg, splitGrid g fns ('n' :: s) fixed = .error (.exc msg) := by
  have e : splitGrid g fns ('n' :: s) fixed = (Py.int s >>= fun n => if n = 1 ∧ fixed = [] then g.decomposeMono
      else if n = 0 then .error (.exc "zero zones count to split")
      else if n ≤ fixed.length then .error (.exc "fixed zones count is more or equal than target zones count")
      else g.decomposeFarhat (n - fixed.length).toNat none fixed) := rfl
  rw [e, hs, res_bind_ok, if_neg (by rintro ⟨rfl, rfl⟩; simp at hk)]
  by_cases h0 : k = 0
  · rw [if_pos h0]; exact ⟨_, rfl⟩
  · rw [if_neg h0, if_pos hk]; exact ⟨_, rfl⟩

/-- One domain without fixed zones gives one zone `mono` with all the faces in grid order, for both kinds of
strategies. -/
theorem C30_mono {S : Type} [LinearOrder S] (g : Grid F R) (hw : Wf g) (fns : List (Nat → S)) (s : Str) (strategy : Str)
    (h : (strategy = 'n' :: s ∧ Py.int s = .ok 1) ∨ (strategy = 'h' :: s ∧ Py.int s = .ok 0)) :
    ∃ g' z, splitGrid g fns strategy [] = .ok g' ∧ g'.zones = [z] ∧ g'.zName z = "mono".toList ∧ g'.zFaces z = g.faces := by
  have e : splitGrid g fns strategy [] = g.decomposeMono := by
    rcases h with ⟨rfl, h⟩ | ⟨rfl, h⟩
    · show (Py.int s >>= fun n => _) = _
      rw [h, res_bind_ok, if_pos ⟨rfl, rfl⟩]
    · show (Py.int s >>= fun n => _) = _
      rw [h, res_bind_ok, if_pos ⟨rfl, rfl⟩]
  rw [e]
  exact C07_mono g hw none

/-- Strategy `h<k>`: the hierarchical decomposition with `k` rounds of splitting. When it returns there are at most
`2^k` zones besides the zones with fixed names, which keep their faces. -/
theorem C30_h {S : Type} [LinearOrder S] (g g' : Grid F R) (hw : Wf g) (fns : List (Nat → S)) (s : Str) (k : Nat)
    (hs : Py.int s = .ok (k : Int)) (fixed : List Str) (hk : k ≠ 0 ∨ fixed ≠ [])
    (h : splitGrid g fns ('h' :: s) fixed = .ok g') :
    g.decomposeHierarchical fns (k + 1) none fixed = .ok g' ∧ DecompOk g g' ∧
      (∀ z ∈ g.zones, g.zName z ∈ fixed → z ∈ g'.zones ∧ g'.zFaces z = g.zFaces z) ∧
      (g'.zones.filter (fun z => z ∉ g.zones.filter (fun z => g.zName z ∈ fixed))).length ≤ 2 ^ k := by
  have e : splitGrid g fns ('h' :: s) fixed = g.decomposeHierarchical fns (k + 1) none fixed := by
    show (Py.int s >>= fun n => _) = _
    rw [hs, res_bind_ok, if_neg (by rintro ⟨h1, h2⟩; rcases hk with hk | hk; · exact hk (by exact_mod_cast h1)
                                    · exact hk h2)]
    rfl
  rw [e] at h
  obtain ⟨h1, h2, h3, -⟩ := C13_hierarchical g g' hw fns (k + 1) none fixed h
  exact ⟨h, h1, fun z hz hn => ⟨(h2 z hz hn).1, (h2 z hz hn).2.1⟩, h3⟩

/-- Any other strategy is rejected (also `z`, which the help text offers); an empty one is an `IndexError`. -/
theorem C30_other {S : Type} [LinearOrder S] (g : Grid F R) (fns : List (Nat → S)) (fixed : List Str) :
    splitGrid g fns [] fixed = .error .index ∧
    ∀ ch s, ch ≠ 'h' → ch ≠ 'n' → splitGrid g fns (ch :: s) fixed = .error (.exc "unknown split strategy") := by
  refine ⟨rfl, fun ch s h1 h2 => ?_⟩
  show (if ch = 'h' then _ else if ch = 'n' then _ else _) = _
  rw [if_neg h1, if_neg h2]

/-- A name that is not the name of a zone is rejected. -/
theorem C30_unknown_zone (g : Grid F R) (fixed : List Str) :
    checkFixed g fixed = .ok () ↔ ∀ n ∈ fixed, ∃ z ∈ g.zones, g.zName z = n := by
  unfold checkFixed
  split
  · next h => simpa using h
  · next h => simpa using h

/-- Strategy `n2` of the sample grid, keeping zone `b`: two zones. -/
example : Wf Sample.grid ∧ Sample.grid.faces ≠ [] ∧ Py.int "2".toList = .ok 2 ∧ (Sample.grid.zones.map Sample.grid.zName).Nodup ∧
    checkFixed Sample.grid ["b".toList] = .ok () :=
  ⟨Sample.wf, by rw [Sample.faces]; decide, by decide, by decide +kernel, by decide +kernel⟩

/-- The claim "`n<k>` gives `k` zones" is false when zones share a name: strategy `n3` with one fixed name gives four
zones for a file with two zones of the same name. -/
theorem C30_duplicates_violation : ∃ (blocks : List (ZoneBlock Int)) (g g' : Grid Int (Int × Int × Int)),
    loadBlocks Sample.rc true Sample.new blocks = .ok g ∧ checkFixed g ["a".toList] = .ok () ∧
    splitGrid g [fun f : Nat => f] "n3".toList ["a".toList] = .ok g' ∧ g'.zones.length = 4 := by
  obtain ⟨blocks, hb⟩ : ∃ blocks, blocks = Sample.blocks.map (fun b => { b with name := "a".toList }) := ⟨_, rfl⟩
  have h : (do
      let g ← loadBlocks Sample.rc true Sample.new blocks
      checkFixed g ["a".toList]
      let g' ← splitGrid g [fun f : Nat => f] "n3".toList ["a".toList]
      pure g'.zones.length) = .ok 4 := by rw [hb]; decide +kernel
  simp only [res_bind_eq_ok] at h
  obtain ⟨g, h1, u, h2, g', h3, h4⟩ := h
  exact ⟨blocks, g, g', h1, h2, h3, Except.ok.inj h4⟩

/-! ## C31 Recovery factor -/

theorem fill_spec (r : F) (fs : List Nat) (d : Nat → List (Str × F)) (f : Nat) :
    fs.foldl (fillFace r) d f = if f ∈ fs ∧ recoveryName ∉ (d f).map Prod.fst then d f ++ [(recoveryName, r)] else d f := by
  induction fs generalizing d with
  | nil => simp
  | cons a fs ih =>
    rw [List.foldl_cons, ih]
    by_cases ha : recoveryName ∈ (d a).map Prod.fst
    · have : fillFace r d a = d := by unfold fillFace; rw [if_pos ha]
      rw [this]
      by_cases e : f = a
      · subst e; rw [if_neg (fun h => h.2 ha), if_neg (fun h => h.2 ha)]
      · have : f ∈ a :: fs ↔ f ∈ fs := by rw [List.mem_cons]; exact or_iff_right e
        simp only [this]
    · have : fillFace r d a = upd d a (d a ++ [(recoveryName, r)]) := by
        unfold fillFace; rw [if_neg ha, Py.dictSet_new _ _ _ ha]
      rw [this]
      by_cases e : f = a
      · subst e
        rw [upd_self, if_neg (by simp), if_pos ⟨by simp, ha⟩]
      · have : f ∈ a :: fs ↔ f ∈ fs := by rw [List.mem_cons]; exact or_iff_right e
        simp only [upd_ne _ _ e, this]

/-- Whenever `split` returns, every face of the loaded grid that lacked the recovery factor has got the default as its
last variable, a face that had it keeps its data unchanged, and the faces are those of the file. -/
theorem C31_factor {S : Type} [LinearOrder S] [DecidableEq R] (rc : Vec F → R) (c : Codec F) (dflt : F) (new : Grid F R)
    (fns : Grid F R → List (Nat → S)) (stem sf gridText title : Str) (blocks : List (ZoneBlock F))
    (hfile : GridFile c gridText title blocks) (hd : NonDegenerate rc true blocks) (cryDir : Option Str) (outDat : Bool)
    (strategy : Str) (fixed : List Str) (r : F) (g' : Grid F R) (out : SplitOut F)
    (h : split rc c dflt new fns stem sf gridText cryDir outDat strategy fixed r = .ok (g', out)) :
    ∃ g, loadText rc c true new gridText = .ok g ∧ g'.faces = g.faces ∧ ∀ f ∈ g.faces,
      (recoveryName ∈ (g.fData f).map Prod.fst → g'.fData f = g.fData f) ∧
      (recoveryName ∉ (g.fData f).map Prod.fst → g'.fData f = g.fData f ++ [(recoveryName, r)]) := by
  obtain ⟨g, h1, -, h3⟩ := split_ok h
  have h1' := h1
  rw [hfile.load] at h1'
  have L := loaded_of hd h1'
  have hw : Wf (fillFactor g r) := Wf.withData ⟨L.mesh, L.zones, L.alloc⟩ _
  have hs := (splitGrid_ok hw h3).same
  refine ⟨g, h1, by rw [hs.faces]; rfl, fun f hf => ?_⟩
  rw [hs.fData]
  show (_ → g.faces.foldl (fillFace r) g.fData f = _) ∧ (_ → g.faces.foldl (fillFace r) g.fData f = _)
  rw [fill_spec]
  exact ⟨fun h => if_neg fun h' => h'.2 h, fun h => if_pos ⟨hf, h⟩⟩

/-- End to end: for a file with distinct zone names and strategy `n<k>`, `split` writes exactly `k` files for the
programs, one per zone, and together they have every face of the file exactly once. -/
theorem C30_files {S : Type} [LinearOrder S] [DecidableEq R] (rc : Vec F → R) (c : Codec F) (dflt : F) (new : Grid F R)
    (fns : Grid F R → List (Nat → S)) (stem gridText title : Str) (blocks : List (ZoneBlock F))
    (hfile : GridFile c gridText title blocks) (hd : NonDegenerate rc true blocks) (dir : Str) (s : Str) (k : Nat)
    (hs : Py.int s = .ok (k : Int)) (fixed : List Str) (hk : fixed.length < k) (hf : fixed.Nodup) (r : F) (g : Grid F R)
    (hload : loadText rc c true new gridText = .ok g) (hne : g.faces ≠ []) (hz : (blocks.map ZoneBlock.name).Nodup)
    (hfix : ∀ n ∈ fixed, ∃ b ∈ blocks, b.name = n) :
    ∃ g' files, split rc c dflt new fns stem ".dat".toList gridText (some dir) false ('n' :: s) fixed r = .ok (g', .mpi files) ∧
      files.length = k ∧ (files.flatMap (fun p => p.2.gloIds)).Perm (List.range g.faces.length) ∧ (files.map Prod.fst).Nodup := by
  have hload' := hload
  rw [hfile.load] at hload'
  have L := loaded_of hd hload'
  have hw : Wf (fillFactor g r) := Wf.withData ⟨L.mesh, L.zones, L.alloc⟩ _
  have hn : g.zones.map g.zName = blocks.map ZoneBlock.name := forall₂_eq_map (L.rep.imp fun _ _ h => h.name)
  have hcheck : checkFixed g fixed = .ok () := by
    rw [C30_unknown_zone]
    intro n hn
    obtain ⟨b, hb, rfl⟩ := hfix n hn
    obtain ⟨z, hz, hrep⟩ := forall₂_left L.rep hb
    exact ⟨z, hz, hrep.name⟩
  obtain ⟨g', h1, h2, h3⟩ := C30_n_exact_partial (fillFactor g r) hw hne (fns (fillFactor g r)) s k hs fixed hk
    (by show (g.zones.map g.zName).Nodup; rw [hn]; exact hz) hf hcheck
  have hw' : Wf g' := h2.wf hw.mesh
  have hg' : GloPerm g' := (h2.same.gloIds (L.glo.withData _)).perm
  have hm := storeMpi_spec hw' h2.lists hg' dflt
  obtain ⟨fl, hfl⟩ : ∃ fl, fl = g'.zones.zipIdx.map (fun p => mpiFileOf g' dflt p.1 p.2) := ⟨_, rfl⟩
  rw [← hfl] at hm
  refine ⟨g', fl.zipIdx.map (fun p => (mpiFileName (dir ++ ['/'] ++ (Utils.nameStampPair stem).1) (Utils.nameStampPair stem).2
    ".cry".toList p.2, p.1)), ?_, ?_, ?_, ?_⟩
  · unfold split
    simp only [ne_eq, not_true_eq_false, if_false]
    rw [hload, res_bind_ok, hcheck, res_bind_ok, h1, res_bind_ok]
    simp only [Bool.false_eq_true, if_false]
    rw [hm, res_bind_ok]
    rfl
  · rw [List.length_map, List.length_zipIdx, hfl, List.length_map, List.length_zipIdx, h3]
  · have := (C21_partition g' hw' h2.lists hg' dflt fl hm).2
    rw [h2.same.faces] at this
    rw [List.flatMap_map]
    have e : fl.zipIdx.flatMap (fun p => p.1.gloIds) = (fl.zipIdx.map Prod.fst).flatMap MpiFile.gloIds := by
      rw [List.flatMap_map]
    rw [e, zipIdx_fst]
    exact this
  · rw [List.map_map]
    have : (fl.zipIdx.map Prod.snd).Nodup := by rw [List.zipIdx_map_snd]; exact List.nodup_range'
    have h4 := List.Nodup.map_on (f := mpiFileName (dir ++ ['/'] ++ (Utils.nameStampPair stem).1) (Utils.nameStampPair stem).2 ".cry".toList)
      (fun i _ j _ h => C21_file_names _ _ _ i j h) this
    rw [List.map_map] at h4
    exact h4

end Verif.Props
