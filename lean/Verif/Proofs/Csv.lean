import Verif.Proofs.Calc
import Verif.Model.Csv
import Verif.Spec.Csv

/-! Reading of tables and their sums. -/

namespace Verif.Csv
open Verif
variable {F : Type}

/-- The rows of a table. -/
def mat {n m : Nat} (T : Table F n m) : List (List F) := List.ofFn (fun i => List.ofFn (T i))

theorem splitCh_join {c : Char} {ts : List Str} (h0 : ts ≠ []) (h : ∀ t ∈ ts, c ∉ t) : Py.splitCh c (Py.join [c] ts) = ts := by
  induction ts with
  | nil => exact absurd rfl h0
  | cons t ts ih =>
    cases ts with
    | nil => exact Py.splitCh_none (h t (by simp))
    | cons u us =>
      rw [show Py.join [c] (t :: u :: us) = t ++ c :: Py.join [c] (u :: us) by simp [Py.join], Py.splitCh_cons _ (h t (by simp)),
        ih (by simp) (fun x hx => h x (List.mem_cons_of_mem _ hx))]

theorem join_word {c : Codec F} (hc : c.Lawful) (l : List F) : ∀ ch ∈ Py.join [';'] (l.map c.fmt), Py.isWs ch = false := by
  intro ch h
  rcases Py.mem_join h with h | ⟨t, ht, h⟩
  · simp at h; subst h; decide
  · obtain ⟨x, -, rfl⟩ := List.mem_map.1 ht
    exact hc.word x ch h

theorem join_noHash {c : Codec F} (hp : c.NoSep) (l : List F) : '#' ∉ Py.join [';'] (l.map c.fmt) := by
  intro h
  rcases Py.mem_join h with h | ⟨t, ht, h⟩
  · simp at h
  · obtain ⟨x, -, rfl⟩ := List.mem_map.1 ht
    exact (hp x).2 h

theorem dropWhile_none {p : Char → Bool} {s : Str} (h : ∀ c ∈ s, p c = false) : s.dropWhile p = s := by
  cases s with
  | nil => rfl
  | cons x t => rw [List.dropWhile_cons_of_neg (by simp [h x (by simp)])]

theorem takeWhile_all {p : Char → Bool} {s : Str} (h : ∀ c ∈ s, p c = true) : s.takeWhile p = s := by
  induction s with
  | nil => rfl
  | cons x t ih => rw [List.takeWhile_cons_of_pos (h x (by simp)), ih (fun c hc => h c (List.mem_cons_of_mem _ hc))]

theorem strip_line {s : Str} (h : ∀ c ∈ s, Py.isWs c = false) : Py.strip (s ++ ['\n']) = s := by
  by_cases h0 : s = []
  · subst h0; decide
  unfold Py.strip
  have h1 : (s ++ ['\n']).dropWhile Py.isWs = s ++ ['\n'] := by
    obtain ⟨x, t, rfl⟩ := List.exists_cons_of_ne_nil h0
    rw [List.cons_append, List.dropWhile_cons_of_neg (by simp [h x (by simp)])]
  rw [h1, List.reverse_append, List.reverse_singleton, List.singleton_append, List.dropWhile_cons_of_pos (by decide)]
  rw [dropWhile_none (fun c hc => h c (List.mem_reverse.1 hc)), List.reverse_reverse]

theorem bare_line {c : Codec F} (hc : c.Lawful) (hp : c.NoSep) (l : List F) :
    bare (Py.join [';'] (l.map c.fmt) ++ ['\n']) = Py.join [';'] (l.map c.fmt) := by
  unfold bare
  rw [takeWhile_all, strip_line (join_word hc l)]
  intro ch h
  have : ch ≠ '#' := by
    rintro rfl
    rcases List.mem_append.1 h with h | h
    · exact join_noHash hp l h
    · simp at h
  simpa using this

theorem join_ne_nil {c : Codec F} (hc : c.Lawful) {l : List F} (h : l ≠ []) : Py.join [';'] (l.map c.fmt) ≠ [] := by
  obtain ⟨x, t, rfl⟩ := List.exists_cons_of_ne_nil h
  cases t with
  | nil => simpa [Py.join] using hc.nonempty x
  | cons y t => simp [Py.join]

theorem text_lines (c : Codec F) {n m : Nat} (head : Str) (T : Table F n m) :
    T.text c head = ((head ++ ['\n']) :: (mat T).map (fun r => Py.join [';'] (r.map c.fmt) ++ ['\n'])).flatten := by
  unfold Table.text mat
  rw [List.flatten_cons, List.map_ofFn]
  congr 3
  funext i
  simp [Function.comp_def, List.map_ofFn]

theorem rows_lines {c : Codec F} (hc : c.Lawful) (hp : c.NoSep) (nan : F) {head : Str} (hh : OneLine head) {M : List (List F)} (hne : ∀ r ∈ M, r ≠ []) :
    rows c nan ((head ++ ['\n']) :: M.map (fun r => Py.join [';'] (r.map c.fmt) ++ ['\n'])).flatten = M := by
  unfold rows
  rw [Py.readlines_flatten]
  · rw [List.drop_one, List.tail_cons, List.map_map]
    induction M with
    | nil => rfl
    | cons r M ih =>
      rw [List.map_cons, Function.comp, bare_line hc hp, List.filter_cons_of_pos, List.map_cons, ih (fun x hx => hne x (List.mem_cons_of_mem _ hx)),
        splitCh_join]
      · congr 1
        rw [List.map_map]
        have : (value c nan ∘ c.fmt) = id := by
          funext x
          simp [value, hc.roundtrip]
        rw [this, List.map_id]
      · simpa using hne r (by simp)
      · intro t ht
        obtain ⟨x, -, rfl⟩ := List.mem_map.1 ht
        exact (hp x).1
      · simpa using join_ne_nil hc (hne r (by simp))
  · intro l hl
    rcases List.mem_cons.1 hl with rfl | hl
    · exact ⟨head, rfl, hh.1, hh.2⟩
    · obtain ⟨r, -, rfl⟩ := List.mem_map.1 hl
      have := Py.noWs_noNl (join_word hc r)
      exact ⟨_, rfl, this.1, this.2⟩

theorem rows_text {c : Codec F} (hc : c.Lawful) (hp : c.NoSep) (nan : F) {n m : Nat} (hm : 0 < m) {head : Str} (hh : OneLine head) (T : Table F n m) :
    rows c nan (T.text c head) = mat T := by
  rw [text_lines, rows_lines hc hp nan hh]
  intro r hr
  obtain ⟨i, rfl⟩ := List.mem_ofFn.1 hr
  simp; omega

/-- A table of one column is read as one row. -/
theorem read2d_column {c : Codec F} (hc : c.Lawful) (hp : c.NoSep) (nan : F) {n : Nat} (hn : 2 ≤ n) {head : Str} (hh : OneLine head)
    (T : Table F n 1) : read2d c nan (T.text c head) = .ok [List.ofFn (fun i => T i 0)] := by
  have hlen : ∀ r ∈ mat T, r.length = 1 := by
    intro r hr
    obtain ⟨i, rfl⟩ := List.mem_ofFn.1 hr
    simp
  have hfl : (mat T).flatten = List.ofFn (fun i => T i 0) := by
    unfold mat
    have : (fun i => List.ofFn (T i)) = fun i => [T i 0] := by funext i; simp
    rw [this]
    have : ∀ (k : Nat) (f : Fin k → F), (List.ofFn (fun i => [f i])).flatten = List.ofFn f := by
      intro k
      induction k with
      | zero => intro f; simp
      | succ k ih => intro f; rw [List.ofFn_succ, List.flatten_cons, ih (fun i => f i.succ), List.ofFn_succ]; rfl
    exact this n (fun i => T i 0)
  have h2 : 2 ≤ (mat T).length := by simpa [mat] using hn
  unfold read2d genfromtxt
  rw [rows_text hc hp nan (by omega) hh]
  rw [← hfl]
  generalize mat T = M at hlen h2
  match M, h2 with
  | r :: s :: M, _ =>
    have hr := hlen r (by simp)
    have hall : (r :: s :: M).all (fun x => decide (x.length = ((r :: s :: M).headD []).length)) = true := by
      rw [List.all_eq_true]
      intro x hx
      simp [hlen x hx, hr]
    simp only [hall, if_true]
    have h1 : ((r :: s :: M).headD []).length = 1 := by
      rw [List.headD_cons, hr]
    simp only [if_pos h1]
    rfl

/-- Rows of different lengths are an error. -/
theorem read2d_ragged {c : Codec F} (hc : c.Lawful) (hp : c.NoSep) (nan : F) {head : Str} (hh : OneLine head) {M : List (List F)}
    (hne : ∀ r ∈ M, r ≠ []) (hr : ∃ r ∈ M, ∃ s ∈ M, r.length ≠ s.length) : read2d c nan (rowsText c head M) = .error .value := by
  unfold read2d genfromtxt
  rw [rowsText, ← List.flatten_cons, rows_lines hc hp nan hh hne]
  have hall : ¬ M.all (fun x => decide (x.length = (M.headD []).length)) = true := by
    intro h
    rw [List.all_eq_true] at h
    obtain ⟨r, h1, s, h2, h3⟩ := hr
    exact h3 ((of_decide_eq_true (h r h1)).trans (of_decide_eq_true (h s h2)).symm)
  simp only [if_neg hall]
  rfl

theorem read2d_text {c : Codec F} (hc : c.Lawful) (hp : c.NoSep) (nan : F) {n m : Nat} (hn : 0 < n) (hm : 2 ≤ m) {head : Str} (hh : OneLine head)
    (T : Table F n m) : read2d c nan (T.text c head) = .ok (mat T) := by
  have hlen : ∀ r ∈ mat T, r.length = m := by
    intro r hr
    obtain ⟨i, rfl⟩ := List.mem_ofFn.1 hr
    simp
  have hne : mat T ≠ [] := by
    unfold mat; simp; omega
  unfold read2d genfromtxt
  rw [rows_text hc hp nan (by omega) hh]
  generalize mat T = M at hlen hne
  obtain ⟨r, M, rfl⟩ := List.exists_cons_of_ne_nil hne
  have hr := hlen r (by simp)
  have hall : (r :: M).all (fun x => decide (x.length = ((r :: M).headD []).length)) = true := by
    rw [List.all_eq_true]
    intro x hx
    simp [hlen x hx, hr]
  simp only [hall, if_true]
  cases M with
  | nil =>
    match r, hr with
    | [], h => simp at h; omega
    | [x], h => simp at h; omega
    | x :: y :: t, h => rfl
  | cons s M =>
    have h1 : ¬ ((r :: s :: M).headD []).length = 1 := by
      rw [List.headD_cons]
      omega
    simp only [if_neg h1]
    rfl

theorem stretch_self {α : Type} {l : List α} {n : Nat} (h : l.length = n) : stretch n l = l := by
  subst h
  match l with
  | [] => rfl
  | [x] => rfl
  | x :: y :: t => rfl

theorem dim_self (a : Nat) : dim a a = .ok a := by simp [dim]

theorem headD_mat {n m : Nat} (hn : 0 < n) (T : Table F n m) : ((mat T).headD []).length = m := by
  obtain ⟨k, rfl⟩ : ∃ k, n = k + 1 := ⟨n - 1, by omega⟩
  simp [mat, List.ofFn_succ]

theorem length_mat {n m : Nat} (T : Table F n m) : (mat T).length = n := by simp [mat]

theorem zipWith_ofFn {α β γ : Type} (f : α → β → γ) {n : Nat} (a : Fin n → α) (b : Fin n → β) :
    List.zipWith f (List.ofFn a) (List.ofFn b) = List.ofFn (fun i => f (a i) (b i)) := by
  apply List.ext_getElem <;> simp

theorem add_mat [Add F] {n m : Nat} (hn : 0 < n) (A B : Table F n m) : add (mat A) (mat B) = .ok (mat (fun i j => A i j + B i j)) := by
  unfold add
  rw [length_mat, length_mat, headD_mat hn, headD_mat hn, dim_self, res_bind_ok, dim_self, res_bind_ok, stretch_self (length_mat A),
    stretch_self (length_mat B)]
  congr 1
  unfold mat
  rw [List.map_ofFn, List.map_ofFn, zipWith_ofFn]
  congr 1
  funext i
  simp only [Function.comp]
  rw [stretch_self (by simp), stretch_self (by simp), zipWith_ofFn]

/-- A table without its first column. -/
def rest {n k : Nat} (T : Table F n (k + 1)) : Table F n k := fun i j => T i j.succ

theorem drop_mat {n k : Nat} (T : Table F n (k + 1)) : (mat T).map (·.drop 1) = mat (rest T) := by
  unfold mat rest
  rw [List.map_ofFn]
  congr 1
  funext i
  simp [Function.comp, List.ofFn_succ]

theorem foldlM_addFile [Add F] {c : Codec F} (hc : c.Lawful) (hp : c.NoSep) (nan : F) {n k : Nat} (hn : 0 < n) (hk : 0 < k)
    (ts : List (Str × Table F n (k + 1))) (ht : ∀ t ∈ ts, OneLine t.1) (A : Table F n k) :
    (ts.map (fun t => t.2.text c t.1)).foldlM (addFile c nan) (mat A) =
      .ok (mat (fun i j => ts.foldl (fun s t => s + t.2 i j.succ) (A i j))) := by
  induction ts generalizing A with
  | nil => rfl
  | cons t ts ih =>
    rw [List.map_cons, List.foldlM_cons]
    have : addFile c nan (mat A) (t.2.text c t.1) = .ok (mat (fun i j => A i j + t.2 i j.succ)) := by
      unfold addFile
      rw [read2d_text hc hp nan hn (by omega) (ht t (by simp)), res_bind_ok, drop_mat, add_mat hn]
      rfl
    rw [this, res_bind_ok, ih (fun x hx => ht x (List.mem_cons_of_mem _ hx))]
    rfl

/-- The table of totals. -/
def totals [Add F] {n m : Nat} (t : Table F n m) (ts : List (Table F n m)) : Table F n m := fun i j =>
  if j.1 = 0 then t i j else ts.foldl (fun s t => s + t i j) (t i j)

theorem total_ok [Add F] {c : Codec F} (hc : c.Lawful) (hp : c.NoSep) (nan : F) {n m : Nat} (hn : 0 < n) (hm : 2 ≤ m)
    (t : Str × Table F n m) (ts : List (Str × Table F n m)) (ht : ∀ x ∈ t :: ts, OneLine x.1) :
    total c nan (t.2.text c t.1) (ts.map (fun t => t.2.text c t.1)) = .ok (mat (totals t.2 (ts.map Prod.snd))) := by
  obtain ⟨k, rfl⟩ : ∃ k, m = k + 1 := ⟨m - 1, by omega⟩
  unfold total
  rw [read2d_text hc hp nan hn hm (ht t (by simp)), res_bind_ok]
  simp only []
  rw [drop_mat, foldlM_addFile hc hp nan hn (by omega) ts (fun x hx => ht x (List.mem_cons_of_mem _ hx)), res_bind_ok, if_pos (by simp [length_mat])]
  congr 1
  unfold mat
  rw [List.map_ofFn, zipWith_ofFn]
  congr 1
  funext i
  simp [Function.comp, List.ofFn_succ, totals, rest, List.foldl_map]

theorem csv_suffix (s : Str) : Py.slice s (some (-4)) none = ".csv".toList ↔ ".csv".toList <:+ s := by
  rw [show ((-4 : Int)) = -((4 : Nat) : Int) from rfl, Py.slice_from_neg_general s 4 (by omega), List.suffix_iff_eq_drop]
  constructor
  · intro h; rw [← h]; simp
    have := congrArg List.length h
    simp at this
    congr 1
    omega
  · intro h
    exact h.symm

theorem savetxt_mat (c : Codec F) {n m : Nat} (T : Table F n m) : savetxt c (mat T) = T.text c head := by
  rw [text_lines, List.flatten_cons]
  unfold savetxt
  rw [List.flatMap_def]

end Verif.Csv
