import Verif.Proofs.Utils

/-! Properties C26 - C29: file names and helpers of `utils.py`. -/

namespace Verif.Props
open Verif Verif.Utils Verif.Spec

/-! ## C26 Grouping of result files by time stamp -/

/-- The entry under key `k` is the list of all files with time stamp `k`, in the original order; there
is an entry exactly for the stamps that occur; keys are unique. -/
theorem C26_group (fs : List Str) :
    ((group fs).map Prod.fst).Nodup ∧
    ∀ k v, (k, v) ∈ group fs ↔ (v ≠ [] ∧ v = fs.filter (fun f => stampOf f = k)) := by
  have hn := group_keys_nodup fs [] (by simp)
  refine ⟨hn, ?_⟩
  intro k v
  have hg := group_get fs [] k
  have hne := group_nonempty fs [] (by simp)
  simp only [Py.dictGet?, Option.getD_none, List.nil_append] at hg
  change (Py.dictGet? (group fs) k).getD [] = _ at hg
  rw [show ((k, v) ∈ group fs) = ((k, v) ∈ fs.foldl groupStep []) from rfl, mem_iff_dictGet? _ hn]
  constructor
  · intro h
    rw [show group fs = fs.foldl groupStep [] from rfl, h] at hg
    simp only [Option.getD_some] at hg
    refine ⟨?_, hg⟩
    exact hne (k, v) ((mem_iff_dictGet? _ hn k v).mpr h)
  · rintro ⟨h1, h2⟩
    cases hc : Py.dictGet? (group fs) k with
    | none => rw [hc] at hg; simp only [Option.getD_none] at hg; rw [← hg] at h2; exact absurd h2 h1
    | some w =>
      rw [hc] at hg; simp only [Option.getD_some] at hg
      rw [h2, ← hg]
      exact hc

/-- Every file is in exactly one group: the groups together are a permutation of the files. -/
theorem C26_group_count (fs : List Str) (f : Str) :
    ((group fs).map (fun p => p.2.count f)).sum = fs.count f := by
  have key : ∀ (d : List (Str × List Str)) (fs : List Str),
      ((fs.foldl groupStep d).map (fun p => p.2.count f)).sum =
        (d.map (fun p => p.2.count f)).sum + fs.count f := by
    intro d fs
    induction fs generalizing d with
    | nil => simp
    | cons g fs ih =>
      rw [List.foldl_cons, ih]
      have hstep : ((groupStep d g).map (fun p => p.2.count f)).sum =
          (d.map (fun p => p.2.count f)).sum + [g].count f := by
        have hset : ∀ (d : List (Str × List Str)) (k : Str) (v : List Str),
            Py.dictGet? d k = some v →
            ((Py.dictSet d k (v ++ [g])).map (fun p => p.2.count f)).sum =
              (d.map (fun p => p.2.count f)).sum + [g].count f := by
          intro d k v h
          induction d with
          | nil => simp [Py.dictGet?] at h
          | cons p d ih =>
            obtain ⟨k', v'⟩ := p
            rw [Py.dictGet?] at h
            rw [Py.dictSet]
            split
            · rename_i hk
              rw [if_pos hk] at h
              injection h with h; subst h
              simp only [List.map_cons, List.sum_cons, List.count_append]; omega
            · rename_i hk
              rw [if_neg hk] at h
              simp only [List.map_cons, List.sum_cons, ih h]; omega
        have hnew : ∀ (d : List (Str × List Str)) (k : Str),
            Py.dictGet? d k = none →
            ((Py.dictSet d k [g]).map (fun p => p.2.count f)).sum =
              (d.map (fun p => p.2.count f)).sum + [g].count f := by
          intro d k h
          induction d with
          | nil => simp [Py.dictSet]
          | cons p d ih =>
            obtain ⟨k', v'⟩ := p
            rw [Py.dictGet?] at h
            rw [Py.dictSet]
            split
            · rename_i hk
              rw [if_pos hk] at h; cases h
            · rename_i hk
              rw [if_neg hk] at h
              simp only [List.map_cons, List.sum_cons, ih h]; omega
        unfold groupStep
        split
        · rename_i v hv; exact hset d _ v hv
        · rename_i hv; exact hnew d _ hv
      rw [hstep, show g :: fs = [g] ++ fs from rfl, List.count_append]; omega
  have := key [] fs
  simpa [group] using this

example : group ["a_00000_111111111111.txt".toList, "a_00000_222222222222.txt".toList,
      "a_00001_111111111111.txt".toList] =
    [("111111111111".toList, ["a_00000_111111111111.txt".toList, "a_00001_111111111111.txt".toList]),
     ("222222222222".toList, ["a_00000_222222222222.txt".toList])] := by decide

/-! ## C27 File names of MPI files are recognised -/

/-- A name built by `store_mpi` is taken apart into its parts, for every stem. -/
theorem C27_split_mpi_name (stem : Str) (zi ts : Nat) (ext : Str)
    (hz : zi < 100000) (ht : ts < 10 ^ 12) (he : ext.length = 3) :
    dummySplit (mpiName stem zi (Py.natStrPad 12 ts) ext) =
      .ok (stem, some (zi : Int), some (ts : Int), ext) := by
  unfold mpiName
  have := dummySplit_parts stem '_' '_' '.' (Py.natStrPad 5 zi) (Py.natStrPad 12 ts) ext
    (Py.natStrPad_length 5 zi (by omega) (by omega)) (Py.natStrPad_length 12 ts (by omega) ht) he
    (Py.natStrPad_allDec _ _) (Py.natStrPad_allDec _ _) (Py.int_natStrPad _ _) (Py.int_natStrPad _ _)
  simpa using this

/-- It is accepted exactly for its own stem and its own extension. -/
theorem C27_accept (stem stem' : Str) (zi ts : Nat) (ext ext' : Str)
    (hz : zi < 100000) (ht : ts < 10 ^ 12) (he : ext.length = 3) :
    isCorrectFile ext' (mpiName stem zi (Py.natStrPad 12 ts) ext) stem' =
      .ok (decide (stem = stem') && decide (ext = ext')) := by
  unfold isCorrectFile
  rw [C27_split_mpi_name stem zi ts ext hz ht he]
  show Except.ok _ = _
  simp

/-- The name of a `.cry` file is accepted by `is_filename_correct_crys_cry_file` exactly for its own stem, and by
`is_filename_correct_crys_txt_file` for none; the other way round for a `.txt` file. -/
theorem C27_cry_txt (stem stem' : Str) (zi ts : Nat) (hz : zi < 100000) (ht : ts < 10 ^ 12) :
    isCorrectCry (mpiName stem zi (Py.natStrPad 12 ts) "cry".toList) stem' = .ok (decide (stem = stem')) ∧
    isCorrectTxt (mpiName stem zi (Py.natStrPad 12 ts) "cry".toList) stem' = .ok false ∧
    isCorrectCry (mpiName stem zi (Py.natStrPad 12 ts) "txt".toList) stem' = .ok false ∧
    isCorrectTxt (mpiName stem zi (Py.natStrPad 12 ts) "txt".toList) stem' = .ok (decide (stem = stem')) := by
  unfold isCorrectCry isCorrectTxt
  rw [C27_accept _ _ _ _ _ _ hz ht rfl, C27_accept _ _ _ _ _ _ hz ht rfl, C27_accept _ _ _ _ _ _ hz ht rfl,
    C27_accept _ _ _ _ _ _ hz ht rfl]
  simp

/-- Names of different zones or time stamps are different. -/
theorem C27_injective (stem : Str) (zi zi' ts ts' : Nat) (ext : Str)
    (hz : zi < 100000) (hz' : zi' < 100000) (ht : ts < 10 ^ 12) (ht' : ts' < 10 ^ 12)
    (he : ext.length = 3)
    (h : mpiName stem zi (Py.natStrPad 12 ts) ext = mpiName stem zi' (Py.natStrPad 12 ts') ext) :
    zi = zi' ∧ ts = ts' := by
  have h1 := C27_split_mpi_name stem zi ts ext hz ht he
  have h2 := C27_split_mpi_name stem zi' ts' ext hz' ht' he
  rw [h, h2] at h1
  simp at h1
  omega

/-- Zone numbers that need six or more digits are written but no longer recognised. -/
theorem C27_reject_large (stem : Str) (zi ts : Nat) (ext : Str)
    (hz : 100000 ≤ zi) (ht : ts < 10 ^ 12) (he : ext.length = 3) :
    isCorrectFile ext (mpiName stem zi (Py.natStrPad 12 ts) ext) stem = .ok false := by
  unfold mpiName
  exact reject_long stem (Py.natStrPad 5 zi) (Py.natStrPad 12 ts) ext
    (Py.natStrPad_length_gt 5 zi (by omega) (by omega)) (Py.natStrPad_allDec 5 zi)
    (Py.natStrPad_length 12 ts (by omega) ht) (Py.natStrPad_allDec 12 ts) (Py.int_natStrPad _ _) he

/-- Conversely, whatever is accepted for a non-empty stem has the right shape, except that the three
separating characters may be anything. -/
theorem C27_accept_sound (fn stem ext : Str) (hs : stem ≠ [])
    (h : isCorrectFile ext fn stem = .ok true) :
    ∃ (c1 c2 c3 : Char) (m t : Str), fn = stem ++ [c1] ++ m ++ [c2] ++ t ++ [c3] ++ ext ∧
      m.length = 5 ∧ t.length = 12 ∧ ext.length = 3 ∧ Py.isdigit m = true ∧ Py.isdigit t = true := by
  unfold isCorrectFile at h
  cases hd : dummySplit fn with
  | error e => rw [hd] at h; cases h
  | ok p =>
    obtain ⟨s, m, t, e⟩ := p
    rw [hd] at h
    change Except.ok _ = _ at h
    simp only [Except.ok.injEq, Bool.and_eq_true, decide_eq_true_eq] at h
    obtain ⟨⟨⟨h1, h2⟩, h3⟩, h4⟩ := h
    have hst : s = Py.slice fn none (some (-23)) ∧ e = Py.slice fn (some (-3)) none ∧
        (m.isSome = true → Py.isdigit (Py.slice fn (some (-22)) (some (-17))) = true) ∧
        (t.isSome = true → Py.isdigit (Py.slice fn (some (-16)) (some (-4))) = true) := by
      unfold dummySplit at hd
      simp only at hd
      cases hm : Py.isdigit (Py.slice fn (some (-22)) (some (-17))) <;>
      cases ht : Py.isdigit (Py.slice fn (some (-16)) (some (-4))) <;>
      rw [hm, ht] at hd <;> simp only [Bool.false_eq_true, if_false, if_true] at hd
      · cases hd; simp
      · cases hi : Py.int (Py.slice fn (some (-16)) (some (-4))) <;> rw [hi] at hd
        · cases hd
        · cases hd; simp
      · cases hi : Py.int (Py.slice fn (some (-22)) (some (-17))) <;> rw [hi] at hd
        · cases hd
        · cases hd; simp
      · cases hi : Py.int (Py.slice fn (some (-22)) (some (-17))) <;> rw [hi] at hd
        · cases hd
        · cases hi2 : Py.int (Py.slice fn (some (-16)) (some (-4))) <;> rw [hi2] at hd
          · cases hd
          · cases hd; simp
    obtain ⟨e1, e2, e3, e4⟩ := hst
    have e3 := e3 h2
    have e4 := e4 h3
    subst h1 h4
    have hlen : 23 < fn.length := by
      have := Py.slice_to_neg_general fn 23 (by omega)
      rw [show (-((23 : Nat) : Int)) = -23 from rfl, ← e1] at this
      by_cases hc : fn.length ≤ 23
      · rw [this, show fn.length - 23 = 0 by omega] at hs; simp at hs
      · omega
    have g1 : Py.slice fn none (some (-23)) = _ := Py.slice_to_neg_general fn 23 (by omega)
    have g2 : Py.slice fn (some (-22)) (some (-17)) = _ :=
      Py.slice_neg_general fn 22 17 (by omega) (by omega)
    have g3 : Py.slice fn (some (-16)) (some (-4)) = _ :=
      Py.slice_neg_general fn 16 4 (by omega) (by omega)
    have g4 : Py.slice fn (some (-3)) none = _ := Py.slice_from_neg_general fn 3 (by omega)
    rw [show (fn.length - 17) - (fn.length - 22) = 5 by omega] at g2
    rw [show (fn.length - 4) - (fn.length - 16) = 12 by omega] at g3
    refine ⟨fn[fn.length - 23]'(by omega), fn[fn.length - 17]'(by omega), fn[fn.length - 4]'(by omega),
      Py.slice fn (some (-22)) (some (-17)), Py.slice fn (some (-16)) (some (-4)), ?_, ?_, ?_, ?_, e3, e4⟩
    · rw [e1, e2, g1, g2, g3, g4]
      have a1 := List.take_append_drop (fn.length - 23) fn
      have a2 : fn.drop (fn.length - 23) = fn[fn.length - 23]'(by omega) :: fn.drop (fn.length - 22) := by
        rw [List.drop_eq_getElem_cons (by omega)]; congr 2; omega
      have a3 : fn.drop (fn.length - 22) = (fn.drop (fn.length - 22)).take 5 ++ fn.drop (fn.length - 17) := by
        conv => lhs; rw [← List.take_append_drop 5 (fn.drop (fn.length - 22))]
        rw [List.drop_drop, show fn.length - 22 + 5 = fn.length - 17 by omega]
      have a4 : fn.drop (fn.length - 17) = fn[fn.length - 17]'(by omega) :: fn.drop (fn.length - 16) := by
        rw [List.drop_eq_getElem_cons (by omega)]; congr 2; omega
      have a5 : fn.drop (fn.length - 16) = (fn.drop (fn.length - 16)).take 12 ++ fn.drop (fn.length - 4) := by
        conv => lhs; rw [← List.take_append_drop 12 (fn.drop (fn.length - 16))]
        rw [List.drop_drop, show fn.length - 16 + 12 = fn.length - 4 by omega]
      have a6 : fn.drop (fn.length - 4) = fn[fn.length - 4]'(by omega) :: fn.drop (fn.length - 3) := by
        rw [List.drop_eq_getElem_cons (by omega)]; congr 2; omega
      conv => lhs; rw [← a1, a2, a3, a4, a5, a6]
      simp only [List.append_assoc, List.cons_append, List.nil_append]
    · rw [g2]; simp; omega
    · rw [g3]; simp; omega
    · rw [e2, g4]; simp; omega

example : isCorrectTxt "bunny_00012_000000001000.txt".toList "bunny".toList = .ok true := by decide
example : mpiName "bunny".toList 12 (Py.natStrPad 12 1000) "cry".toList
    = "bunny_00012_000000001000.cry".toList := by decide
/-- The separators are not checked. -/
example : isCorrectTxt "bunny?00012?000000001000?txt".toList "bunny".toList = .ok true := by decide
/-- A superscript digit passes `isdigit` and makes `int` raise. -/
example : isCorrectTxt "bunny_0001²_000000001000.txt".toList "bunny".toList = .error .value := by decide

/-! ## C28 Time stamp of a file name -/

/-- Full statement of C28: for every name. It fails for names ending in a newline, see
`C28_newline_violation`; the statement is proved here for all the other names. -/
theorem C28_name_stamp_partial (s : Str) (hs : s.getLast? ≠ some '\n') :
    (∃ b t, IsStamp t ∧ s = b ++ '_' :: t ∧ nameStampPair s = (b, t)) ∨
    ((¬ ∃ b t, IsStamp t ∧ s = b ++ '_' :: t) ∧ nameStampPair s = (s, "000000000000".toList)) := by
  by_cases h : hasTimestamp s = true
  · left
    obtain ⟨b, t, ht, hb⟩ := (hasTimestamp_iff s).mp h
    have hb : s = b ++ '_' :: t := by
      rcases hb with hb | hb
      · exact hb
      · exfalso; apply hs
        rw [hb, show b ++ '_' :: (t ++ ['\n']) = (b ++ '_' :: t) ++ ['\n'] by simp]
        rw [List.getLast?_append]; rfl
    refine ⟨b, t, ht, hb, ?_⟩
    unfold nameStampPair
    rw [if_pos h]
    have h1 : Py.slice s none (some (-13)) = b := by
      rw [hb]
      exact Py.slice_to_neg b ('_' :: t) 13 (by omega) (by simp [ht.1])
    have h2 : Py.slice s (some (-12)) none = t := by
      rw [hb, show b ++ '_' :: t = (b ++ ['_']) ++ t by simp]
      exact Py.slice_from_neg _ _ 12 (by omega) ht.1
    rw [h1, h2]
  · right
    refine ⟨?_, ?_⟩
    · rintro ⟨b, t, ht, hb⟩
      exact h ((hasTimestamp_iff s).mpr ⟨b, t, ht, Or.inl hb⟩)
    · unfold nameStampPair
      rw [if_neg h]; rfl

/-- Violation: `$` in the regular expression matches before a final newline, so for such a name the cut
is one position off and base and stamp no longer recompose the name. -/
theorem C28_newline_violation (b t : Str) (ht : IsStamp t) :
    nameStampPair (b ++ '_' :: (t ++ ['\n'])) = (b ++ ['_'], t.drop 1 ++ ['\n']) := by
  have h : hasTimestamp (b ++ '_' :: (t ++ ['\n'])) = true :=
    (hasTimestamp_iff _).mpr ⟨b, t, ht, Or.inr rfl⟩
  unfold nameStampPair
  rw [if_pos h]
  obtain ⟨c, u, hcu⟩ : ∃ c u, t = c :: u := by
    cases t with
    | nil => have := ht.1; simp at this
    | cons c u => exact ⟨c, u, rfl⟩
  have hl : u.length = 11 := by have := ht.1; rw [hcu] at this; simpa using this
  have h1 : Py.slice (b ++ '_' :: (t ++ ['\n'])) none (some (-13)) = b ++ ['_'] := by
    rw [show b ++ '_' :: (t ++ ['\n']) = (b ++ ['_']) ++ (t ++ ['\n']) by simp]
    exact Py.slice_to_neg _ _ 13 (by omega) (by simp [ht.1])
  have h2 : Py.slice (b ++ '_' :: (t ++ ['\n'])) (some (-12)) none = u ++ ['\n'] := by
    rw [hcu, show b ++ '_' :: (c :: u ++ ['\n']) = (b ++ ['_', c]) ++ (u ++ ['\n']) by simp]
    exact Py.slice_from_neg _ _ 12 (by omega) (by simp [hl])
  rw [h1, h2, hcu]; simp

example : nameStampPair "wing_1_000000001000".toList = ("wing_1".toList, "000000001000".toList) := by decide
example : nameStampPair "wing_1".toList = ("wing_1".toList, "000000000000".toList) := by decide

/-! ## C29 flatten -/

/-- `flatten` returns the atoms of the bracket text of the nested list, in order, all of them leaves. -/
theorem C29_flatten {α : Type} (l : List (Nest α)) :
    flatten l = (atoms (tokens l)).map Nest.leaf := flatten_eq l

/-- Flattening again changes nothing. -/
theorem C29_flatten_idem {α : Type} (l : List (Nest α)) : flatten (flatten l) = flatten l := by
  rw [flatten_eq l]
  generalize atoms (tokens l) = xs
  induction xs with
  | nil => simp [flatten]
  | cons x xs ih => rw [List.map_cons, flatten, ih]

example : flatten [Nest.leaf 1, .list [.leaf 2, .list [], .list [.leaf 3]], .leaf 4] =
    [Nest.leaf 1, .leaf 2, .leaf 3, .leaf 4] := by
  simp [flatten]

end Verif.Props
