import Verif.Proofs.Csv
import Verif.Props.Text
import Mathlib.Algebra.BigOperators.Group.List.Lemmas

/-! Property C102: the totals of the `.csv` files that `merge` writes. -/

namespace Verif.Props
open Verif Csv
variable {F : Type}

/-! ## C102 Totals of the results of all processes -/

theorem hasTables_ok [Add F] {c : Codec F} (hc : c.Lawful) (hp : c.NoSep) (nan : F) (dst nm : Str) {n m : Nat} (hn : 0 < n) (hm : 2 ≤ m)
    {dir : List (Str × Str)} {t : Str × Table F n m} {ts : List (Str × Table F n m)} (hd : HasTables c dir (t :: ts)) :
    mergeCsv c nan dst nm dir = .ok (some (dst ++ "/../".toList ++ nm ++ ".csv".toList, (totals t.2 (ts.map Prod.snd)).text c Csv.head)) := by
  unfold mergeCsv
  have hf : dir.filter (fun f => decide (Py.slice f.1 (some (-4)) none = ".csv".toList)) = dir.filter (fun f => decide (".csv".toList <:+ f.1)) := by
    congr 1
    funext f
    exact decide_eq_decide.2 (csv_suffix f.1)
  rw [hf]
  unfold HasTables at hd
  generalize dir.filter (fun f => decide (".csv".toList <:+ f.1)) = fs at hd
  cases hd with
  | cons h1 h2 =>
    rename_i f fs
    show (total c nan f.2 (fs.map Prod.snd) >>= _) = _
    have e1 : fs.map Prod.snd = ts.map (fun t => t.2.text c t.1) := by
      clear h1
      induction h2 with
      | nil => rfl
      | cons h _ ih => rw [List.map_cons, List.map_cons, ih, h.1]
    have e2 : ∀ x ∈ ts, OneLine x.1 := by
      clear h1 e1
      induction h2 with
      | nil => simp
      | cons h _ ih =>
        intro x hx
        rcases List.mem_cons.1 hx with rfl | hx
        · exact h.2
        · exact ih x hx
    rw [e1, h1.1, total_ok hc hp nan hn hm t ts (by
      intro x hx
      rcases List.mem_cons.1 hx with rfl | hx
      · exact h1.2
      · exact e2 x hx), res_bind_ok, savetxt_mat]

/-- When all `.csv` files of the source directory have the same numbers of rows and of columns (at least one row, at least two columns), the file
written has the documented line of names and the times of the first file, and every other number is the sum of the numbers at its place in all files, added in the order of
the files. (Only `+` of the number type is used, so this is exact for floats.) -/
theorem C102_sum_partial [Add F] {c : Codec F} (hc : c.Lawful) (hp : c.NoSep) (nan : F) (dst nm : Str) {n m : Nat} (hn : 0 < n) (hm : 2 ≤ m)
    {dir : List (Str × Str)} {t : Str × Table F n m} {ts : List (Str × Table F n m)} (hd : HasTables c dir (t :: ts)) :
    ∃ T : Table F n m,
      mergeCsv c nan dst nm dir = .ok (some (dst ++ "/../".toList ++ nm ++ ".csv".toList,
        T.text c "time;M_imp;M_es;M_stall;M_ini_water;M_water;M_ini_ice;M_ice;Q_conv;Q_es".toList)) ∧
      ∀ i j, T i j = if j.1 = 0 then t.2 i j else ts.foldl (fun s t => s + t.2 i j) (t.2 i j) := by
  refine ⟨totals t.2 (ts.map Prod.snd), hasTables_ok hc hp nan dst nm hn hm hd, ?_⟩
  intro i j
  simp [totals, List.foldl_map]

/-- Without `.csv` files nothing is written. -/
theorem C102_none [Add F] (c : Codec F) (nan : F) (dst nm : Str) (dir : List (Str × Str)) (h : ∀ f ∈ dir, ¬ ".csv".toList <:+ f.1) :
    mergeCsv c nan dst nm dir = .ok none := by
  unfold mergeCsv
  rw [List.filter_eq_nil_iff.2 (fun f hf => by
    rw [decide_eq_true_eq, csv_suffix]
    exact h f hf)]

theorem foldl_add_eq [AddCommMonoid F] {α : Type} (f : α → F) (a : α) (l : List α) : l.foldl (fun s t => s + f t) (f a) = ((a :: l).map f).sum := by
  have : ∀ (l : List α) (x : F), l.foldl (fun s t => s + f t) x = x + (l.map f).sum := by
    intro l
    induction l with
    | nil => intro x; simp
    | cons b l ih => intro x; rw [List.foldl_cons, ih]; simp [add_assoc]
  rw [this]
  simp

/-- If addition is commutative and associative and all files have the same times, the order in which the system lists the files does not matter. -/
theorem C102_order [AddCommMonoid F] {c : Codec F} (hc : c.Lawful) (hp : c.NoSep) (nan : F) (dst nm : Str) {n m : Nat} (hn : 0 < n) (hm : 2 ≤ m)
    {dir dir' : List (Str × Str)} (hperm : dir.Perm dir') {ts : List (Str × Table F n m)} (hd : HasTables c dir ts)
    (ht : ∀ a ∈ ts, ∀ b ∈ ts, ∀ i j, j.1 = 0 → a.2 i j = b.2 i j) :
    mergeCsv c nan dst nm dir = mergeCsv c nan dst nm dir' := by
  obtain ⟨ts', hd', h1⟩ := List.perm_comp_forall₂ (hperm.filter _).symm hd
  cases ts with
  | nil =>
    have e : ts' = [] := h1.eq_nil
    subst e
    have e1 := List.forall₂_nil_right_iff.1 hd
    have e2 := List.forall₂_nil_right_iff.1 hd'
    rw [C102_none c nan dst nm dir (fun f hf => by simpa using (List.filter_eq_nil_iff.1 e1) f hf),
      C102_none c nan dst nm dir' (fun f hf => by simpa using (List.filter_eq_nil_iff.1 e2) f hf)]
  | cons t ts =>
    cases ts' with
    | nil => exact absurd h1.symm.eq_nil (by simp)
    | cons t' ts' =>
      rw [hasTables_ok hc hp nan dst nm hn hm hd, hasTables_ok hc hp nan dst nm hn hm (hd' : HasTables c dir' (t' :: ts'))]
      have : totals t.2 (ts.map Prod.snd) = totals t'.2 (ts'.map Prod.snd) := by
        funext i j
        unfold totals
        split
        · next h => exact ht t (by simp) t' (h1.mem_iff.1 (by simp)) i j h
        · rw [List.foldl_map, List.foldl_map, foldl_add_eq (fun t : Str × Table F n m => t.2 i j), foldl_add_eq (fun t : Str × Table F n m => t.2 i j)]
          exact ((h1.map _).sum_eq).symm
      rw [this]

/-- A table with another number of rows is reported if both numbers are at least two (what comes after it does not matter). -/
theorem C102_rows_partial [Add F] {c : Codec F} (hc : c.Lawful) (hp : c.NoSep) (nan : F) (dst nm : Str) {n n' m m' : Nat} (hn : 2 ≤ n) (hn' : 2 ≤ n')
    (hne : n ≠ n') (hm : 2 ≤ m) (hm' : 2 ≤ m') {t : Str × Table F n m} {ts : List (Str × Table F n m)} {u : Str × Table F n' m'}
    (ho : ∀ x ∈ t :: ts, OneLine x.1) (hu : OneLine u.1) (names : List Str) (more : List (Str × Str)) (name : Str) (hl : names.length = ts.length + 1)
    (hs : ∀ s ∈ names, ".csv".toList <:+ s) (hs' : ".csv".toList <:+ name) :
    mergeCsv c nan dst nm (names.zip ((t :: ts).map (fun t => t.2.text c t.1)) ++ (name, u.2.text c u.1) :: more) = .error .value := by
  obtain ⟨k, rfl⟩ : ∃ k, m = k + 1 := ⟨m - 1, by omega⟩
  obtain ⟨k', rfl⟩ : ∃ k, m' = k + 1 := ⟨m' - 1, by omega⟩
  unfold mergeCsv
  rw [List.filter_append, List.filter_eq_self.2 (fun f hf => by
    rw [decide_eq_true_eq, csv_suffix]
    exact hs f.1 (List.of_mem_zip hf).1), List.filter_cons_of_pos (by
    rw [decide_eq_true_eq, csv_suffix]
    exact hs')]
  cases names with
  | nil => simp at hl
  | cons s names =>
    rw [List.map_cons, List.zip_cons_cons, List.cons_append]
    have e1 : (names.zip (ts.map (fun t => t.2.text c t.1))).map Prod.snd = ts.map (fun t => t.2.text c t.1) := by
      apply List.map_snd_zip
      simp at hl ⊢
      omega
    simp only [List.map_append, List.map_cons, e1]
    have : ∀ rest, total c nan (t.2.text c t.1) (ts.map (fun t => t.2.text c t.1) ++ u.2.text c u.1 :: rest) = .error .value := by
      intro rest
      unfold total
      rw [read2d_text hc hp nan (by omega) hm (ho t (by simp)), res_bind_ok]
      simp only []
      rw [drop_mat, List.foldlM_append, foldlM_addFile hc hp nan (by omega) (by omega) ts (fun x hx => ho x (List.mem_cons_of_mem _ hx)), res_bind_ok,
        List.foldlM_cons]
      unfold addFile
      rw [read2d_text hc hp nan (by omega) hm' hu, res_bind_ok, drop_mat]
      unfold add
      rw [length_mat, length_mat]
      unfold dim
      rw [if_neg hne, if_neg (by omega), if_neg (by omega)]
      rfl
    rw [this]
    rfl

/-- A file whose rows have different numbers of values is reported, as the first file and after files that are in order. -/
theorem C102_ragged [Add F] {c : Codec F} (hc : c.Lawful) (hp : c.NoSep) (nan : F) (dst nm : Str) {head : Str} (hh : OneLine head)
    {M : List (List F)} (hne : ∀ r ∈ M, r ≠ []) (hr : ∃ r ∈ M, ∃ s ∈ M, r.length ≠ s.length) (name : Str) (hs : ".csv".toList <:+ name)
    (more : List (Str × Str)) :
    mergeCsv c nan dst nm ((name, rowsText c head M) :: more) = .error .value ∧
    ∀ {n m : Nat}, 0 < n → 2 ≤ m → ∀ {dir : List (Str × Str)} {t : Str × Table F n m} {ts : List (Str × Table F n m)}, HasTables c dir (t :: ts) →
      mergeCsv c nan dst nm (dir ++ (name, rowsText c head M) :: more) = .error .value := by
  have hbad := read2d_ragged hc hp nan hh hne hr
  constructor
  · unfold mergeCsv
    rw [List.filter_cons_of_pos (by
      rw [decide_eq_true_eq, csv_suffix]
      exact hs)]
    show (total c nan (rowsText c head M) _ >>= _) = _
    unfold total
    rw [hbad]
    rfl
  · intro n m hn hm dir t ts hd
    obtain ⟨k, rfl⟩ : ∃ k, m = k + 1 := ⟨m - 1, by omega⟩
    unfold mergeCsv
    have hf : dir.filter (fun f => decide (Py.slice f.1 (some (-4)) none = ".csv".toList)) = dir.filter (fun f => decide (".csv".toList <:+ f.1)) := by
      congr 1
      funext f
      exact decide_eq_decide.2 (csv_suffix f.1)
    rw [List.filter_append, hf, List.filter_cons_of_pos (by
      rw [decide_eq_true_eq, csv_suffix]
      exact hs)]
    unfold HasTables at hd
    generalize dir.filter (fun f => decide (".csv".toList <:+ f.1)) = fs at hd
    cases hd with
    | cons h1 h2 =>
      rename_i f fs
      have e1 : fs.map Prod.snd = ts.map (fun t => t.2.text c t.1) ∧ ∀ x ∈ ts, OneLine x.1 := by
        clear h1
        induction h2 with
        | nil => exact ⟨rfl, by simp⟩
        | cons h _ ih =>
          refine ⟨by rw [List.map_cons, List.map_cons, ih.1, h.1], ?_⟩
          intro x hx
          rcases List.mem_cons.1 hx with rfl | hx
          · exact h.2
          · exact ih.2 x hx
      have : ∀ rest, total c nan (t.2.text c t.1) (ts.map (fun t => t.2.text c t.1) ++ rowsText c head M :: rest) = .error .value := by
        intro rest
        unfold total
        rw [read2d_text hc hp nan hn hm h1.2, res_bind_ok]
        simp only []
        rw [drop_mat, List.foldlM_append, foldlM_addFile hc hp nan hn (by omega) ts e1.2, res_bind_ok, List.foldlM_cons]
        unfold addFile
        rw [hbad]
        rfl
      simp only [List.cons_append, List.map_append, List.map_cons, e1.1, h1.1]
      rw [this]
      rfl

/-- A table that has times only is written as one row: the columns are lost. -/
theorem C102_column_violation [Add F] {c : Codec F} (hc : c.Lawful) (hp : c.NoSep) (nan : F) (dst nm : Str) {n : Nat} (hn : 2 ≤ n)
    {dir : List (Str × Str)} {t : Str × Table F n 1} (hd : HasTables c dir [t]) :
    mergeCsv c nan dst nm dir = .ok (some (dst ++ "/../".toList ++ nm ++ ".csv".toList,
      rowsText c "time;M_imp;M_es;M_stall;M_ini_water;M_water;M_ini_ice;M_ice;Q_conv;Q_es".toList [List.ofFn (fun i => t.2 i 0)])) := by
  have key : ∀ h : Str, OneLine h → total c nan (t.2.text c h) [] = .ok [List.ofFn (fun i => t.2 i 0)] := by
    intro h hh
    unfold total
    rw [read2d_column hc hp nan hn hh, res_bind_ok]
    obtain ⟨k, rfl⟩ : ∃ k, n = k + 1 := ⟨n - 1, by omega⟩
    simp only [List.ofFn_succ]
    rfl
  have out : ∀ M, savetxt c M = rowsText c Csv.head M := fun M => by
    unfold savetxt rowsText
    rw [List.flatMap_def]
  show _ = Except.ok (some (_, rowsText c Csv.head _))
  rw [← out]
  unfold mergeCsv
  have hf : dir.filter (fun f => decide (Py.slice f.1 (some (-4)) none = ".csv".toList)) = dir.filter (fun f => decide (".csv".toList <:+ f.1)) := by
    congr 1
    funext f
    exact decide_eq_decide.2 (csv_suffix f.1)
  rw [hf]
  unfold HasTables at hd
  generalize dir.filter (fun f => decide (".csv".toList <:+ f.1)) = fs at hd
  obtain ⟨f, fs', h1, h2, rfl⟩ := List.forall₂_cons_right_iff.1 hd
  rw [List.forall₂_nil_right_iff.1 h2]
  show (total c nan f.2 [] >>= _) = _
  rw [h1.1, key _ h1.2, res_bind_ok]

/-- If the destination is a directory inside of the source directory, the file with totals is put among the source files. The same command
run again finds it there and adds it: all totals are doubled. -/
theorem C102_again_violation [AddCommMonoid F] {c : Codec F} (hc : c.Lawful) (hp : c.NoSep) (nan : F) (dst nm : Str) {n m : Nat} (hn : 0 < n)
    (hm : 2 ≤ m) {dir : List (Str × Str)} {t : Str × Table F n m} {ts : List (Str × Table F n m)} (hd : HasTables c dir (t :: ts))
    (ht : ∀ a ∈ t :: ts, ∀ b ∈ t :: ts, ∀ i j, j.1 = 0 → a.2 i j = b.2 i j) :
    ∃ (head : Str) (T : Table F n m), mergeCsv c nan dst nm dir = .ok (some (dst ++ "/../".toList ++ nm ++ ".csv".toList, T.text c head)) ∧
      (∀ i j, j.1 ≠ 0 → T i j = ((t :: ts).map (fun t => t.2 i j)).sum) ∧
      ∀ dir', dir'.Perm (dir ++ [(nm ++ ".csv".toList, T.text c head)]) →
        ∃ T' : Table F n m, mergeCsv c nan dst nm dir' = .ok (some (dst ++ "/../".toList ++ nm ++ ".csv".toList, T'.text c head)) ∧
          ∀ i j, T' i j = if j.1 = 0 then T i j else T i j + T i j := by
  have hline : OneLine Csv.head := by constructor <;> decide
  have hsum : ∀ i j, j.1 ≠ 0 → totals t.2 (ts.map Prod.snd) i j = ((t :: ts).map (fun t => t.2 i j)).sum := by
    intro i j h
    unfold totals
    rw [if_neg h, List.foldl_map, foldl_add_eq (fun t : Str × Table F n m => t.2 i j)]
  refine ⟨Csv.head, totals t.2 (ts.map Prod.snd), hasTables_ok hc hp nan dst nm hn hm hd, hsum, ?_⟩
  intro dir' hp'
  have hd2 : HasTables c (dir ++ [(nm ++ ".csv".toList, (totals t.2 (ts.map Prod.snd)).text c Csv.head)])
      (t :: (ts ++ [(Csv.head, totals t.2 (ts.map Prod.snd))])) := by
    unfold HasTables
    rw [List.filter_append, ← List.cons_append]
    refine List.rel_append hd ?_
    rw [List.filter_cons_of_pos (by simp)]
    exact .cons ⟨rfl, hline⟩ .nil
  refine ⟨totals t.2 ((ts ++ [(Csv.head, totals t.2 (ts.map Prod.snd))]).map Prod.snd), ?_, ?_⟩
  · rw [← C102_order hc hp nan dst nm hn hm hp'.symm hd2, hasTables_ok hc hp nan dst nm hn hm hd2]
    intro a ha b hb i j hj
    have key : ∀ a ∈ t :: (ts ++ [(Csv.head, totals t.2 (ts.map Prod.snd))]), a.2 i j = t.2 i j := by
      intro a ha
      rw [← List.cons_append] at ha
      rcases List.mem_append.1 ha with ha | ha
      · exact ht a ha t (by simp) i j hj
      · rw [List.mem_singleton.1 ha]
        simp [totals, hj]
    rw [key a ha, key b hb]
  · intro i j
    by_cases h : j.1 = 0
    · simp [totals, h]
    · rw [if_neg h, hsum i j h]
      unfold totals
      rw [if_neg h, List.foldl_map, foldl_add_eq (fun t : Str × Table F n m => t.2 i j), ← List.cons_append, List.map_append, List.sum_append]
      simp only [List.map_cons, List.map_nil, List.sum_cons, List.sum_nil, add_zero]
      have := hsum i j h
      unfold totals at this
      rw [if_neg h] at this ⊢
      rw [this]
      simp

/-- Two tables with two rows, three columns. -/
def csvTable (k : Int) : Table Int 2 3 := fun i j => if j.1 = 0 then 10 * i.1 else k * (1 + 3 * i.1 + j.1)

/-- A source directory: two results, another file. -/
def csvDir : List (Str × Str) :=
  [("b_00000.csv".toList, (csvTable 1).text intCodec "time;a;b".toList), ("b_00000_000000000000.txt".toList, []),
   ("b_00001.csv".toList, (csvTable 100).text intCodec "time;a;b".toList)]

theorem intCodec_noSep : intCodec.NoSep := by
  intro x
  have : ∀ ch ∈ Py.intStr x, ch = '-' ∨ ∃ d, Py.digitVal? ch = some d := by
    intro ch h
    cases x with
    | ofNat n => exact .inr (Py.natStr_allDec n ch h)
    | negSucc n =>
      rcases List.mem_cons.1 h with h | h
      · exact .inl h
      · exact .inr (Py.natStr_allDec _ ch h)
  constructor
  · intro h
    rcases this _ h with h | ⟨d, h⟩
    · exact absurd h (by decide)
    · exact absurd h (by simp [Py.digitVal?])
  · intro h
    rcases this _ h with h | ⟨d, h⟩
    · exact absurd h (by decide)
    · exact absurd h (by simp [Py.digitVal?])

/-- The hypotheses hold for these files, and the totals are as expected. -/
example : intCodec.Lawful ∧ intCodec.NoSep ∧
    HasTables intCodec csvDir [("time;a;b".toList, csvTable 1), ("time;a;b".toList, csvTable 100)] ∧
    (∀ a ∈ [("time;a;b".toList, csvTable 1), ("time;a;b".toList, csvTable 100)],
      ∀ b ∈ [("time;a;b".toList, csvTable 1), ("time;a;b".toList, csvTable 100)], ∀ i j, j.1 = 0 → a.2 i j = b.2 i j) ∧
    mergeCsv intCodec 0 "out".toList "b".toList csvDir =
      .ok (some ("out/../b.csv".toList, Csv.head ++ "\n0;202;303\n10;505;606\n".toList)) := by
  refine ⟨intCodec_lawful, intCodec_noSep, ?_, ?_, by decide +kernel⟩
  · unfold HasTables
    rw [show csvDir.filter (fun f => decide (".csv".toList <:+ f.1)) =
      [("b_00000.csv".toList, (csvTable 1).text intCodec "time;a;b".toList), ("b_00001.csv".toList, (csvTable 100).text intCodec "time;a;b".toList)] by
        decide +kernel]
    exact .cons ⟨rfl, by constructor <;> decide⟩ (.cons ⟨rfl, by constructor <;> decide⟩ .nil)
  · intro a ha b hb i j hj
    simp at ha hb
    rcases ha with rfl | rfl <;> rcases hb with rfl | rfl <;> simp [csvTable, hj]

/-- Files as in the two theorems above: three rows of two, one and two values; a column of two times. -/
example : (∃ r ∈ [[0, 1], [10], [20, 3]], ∃ s ∈ [[0, 1], [10], [(20 : Int), 3]], r.length ≠ s.length) ∧
    mergeCsv intCodec 0 "out".toList "b".toList [("0.csv".toList, rowsText intCodec "time;a".toList [[0, 1], [10], [20, 3]])] = .error .value ∧
    HasTables intCodec [("0.csv".toList, "time\n0\n10\n".toList)] [("time".toList, (fun i _ => 10 * i.1 : Table Int 2 1))] ∧
    mergeCsv intCodec 0 "out".toList "b".toList [("0.csv".toList, "time\n0\n10\n".toList)] =
      .ok (some ("out/../b.csv".toList, Csv.head ++ "\n0;10\n".toList)) := by
  refine ⟨⟨[0, 1], by simp, [10], by simp, by simp⟩, by decide +kernel, ?_, by decide +kernel⟩
  unfold HasTables
  rw [List.filter_cons_of_pos (by decide)]
  exact .cons ⟨by decide +kernel, by constructor <;> decide⟩ .nil

/-- One process wrote a single row (it stopped early): its values are added to every row of the others without a message, when its file
is not the first one; when it is the first one, the same files are a `ValueError`. -/
theorem C102_rows_violation :
    mergeCsv intCodec 0 "out".toList "b".toList
      [("0.csv".toList, "time;a;b\n0;1;2\n10;3;4\n".toList), ("1.csv".toList, "time;a;b\n0;100;200\n".toList)] =
      .ok (some ("out/../b.csv".toList, Csv.head ++ "\n0;101;202\n10;103;204\n".toList)) ∧
    mergeCsv intCodec 0 "out".toList "b".toList
      [("1.csv".toList, "time;a;b\n0;100;200\n".toList), ("0.csv".toList, "time;a;b\n0;1;2\n10;3;4\n".toList)] = .error .value := by
  decide +kernel

/-- The name of the case is not looked at: a file of another case is added. The times are not compared: the times of the first file are written,
whatever the others say. -/
theorem C102_name_violation :
    mergeCsv intCodec 0 "out".toList "bunny".toList
      [("bunny_00000.csv".toList, "time;a\n0;1\n10;3\n".toList), ("wing_00000.csv".toList, "time;a\n7;100\n8;200\n".toList)] =
      .ok (some ("out/../bunny.csv".toList, Csv.head ++ "\n0;101\n10;203\n".toList)) := by
  decide +kernel

end Verif.Props
