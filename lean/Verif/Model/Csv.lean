import Verif.Model.Calc

/-! The last part of `merge`, merge.py:70-89: the sum of all `.csv` files of the source directory. -/

namespace Verif
variable {F : Type}

namespace Csv

/-- An array given by `genfromtxt`: a number, a row or a matrix (its list of rows, which is never empty). -/
inductive Arr (F : Type) where
  | zero (x : F)
  | one (l : List F)
  | two (m : List (List F))

/-- A value of a table; what is no number becomes `nan`. -/
def value (c : Codec F) (nan : F) (s : Str) : F :=
  match c.parse s with
  | .ok x => x
  | .error _ => nan

/-- A line without a comment and without white space around. Simplification: `genfromtxt` strips blanks and line ends only. -/
def bare (line : Str) : Str := Py.strip (line.takeWhile (fun ch => decide (ch ≠ '#')))

/-- The rows that `genfromtxt(file_name, delimiter=';', skip_header=True)` finds, merge.py:73: the first line is skipped, blank lines do not count. -/
def rows (c : Codec F) (nan : F) (text : Str) : List (List F) :=
  ((((Py.readlines text).drop 1).map bare).filter (fun l => !l.isEmpty)).map (fun l => (Py.splitCh ';' l).map (value c nan))

/-- `genfromtxt`, merge.py:73. All rows must have the same number of columns; dimensions of length 1 are removed. -/
def genfromtxt (c : Codec F) (nan : F) (text : Str) : Res (Arr F) :=
  let m := rows c nan text
  if m.all (fun r => decide (r.length = (m.headD []).length)) then
    match m with
    | [] => .ok (.one [])
    | [[x]] => .ok (.zero x)
    | [r] => .ok (.one r)
    | m => if (m.headD []).length = 1 then .ok (.one m.flatten) else .ok (.two m)
  else .error .value

/-- `read_csv2d`, merge.py:72-76. An array without dimensions is left as it is there; taking columns of it (81, 82, 84) raises `IndexError`,
which is put here. -/
def read2d (c : Codec F) (nan : F) (text : Str) : Res (List (List F)) := do
  match ← genfromtxt c nan text with
  | .zero _ => .error .index
  | .one l => .ok [l]
  | .two m => .ok m

/-- The common length of a dimension of two arrays in numpy. -/
def dim (a b : Nat) : Res Nat :=
  if a = b then .ok a else if a = 1 then .ok b else if b = 1 then .ok a else .error .value

/-- A dimension of length 1 is repeated as often as needed. -/
def stretch {α : Type} (n : Nat) (l : List α) : List α :=
  match l with
  | [x] => List.replicate n x
  | l => l

/-- `a + b` for matrices, merge.py:84. -/
def add [Add F] (a b : List (List F)) : Res (List (List F)) := do
  let h ← dim a.length b.length
  let w ← dim (a.headD []).length (b.headD []).length
  .ok (List.zipWith (List.zipWith (· + ·)) ((stretch h a).map (stretch w)) ((stretch h b).map (stretch w)))

/-- Body of the loop over the other files, merge.py:84. -/
def addFile [Add F] (c : Codec F) (nan : F) (d : List (List F)) (text : Str) : Res (List (List F)) := do
  let m ← read2d c nan text
  add d (m.map (·.drop 1))

/-- The matrix of totals, merge.py:80-85. -/
def total [Add F] (c : Codec F) (nan : F) (first : Str) (others : List Str) : Res (List (List F)) := do
  let m ← read2d c nan first
  let t := m.map (·.take 1)
  let d ← others.foldlM (addFile c nan) (m.map (·.drop 1))
  if t.length = d.length then .ok (List.zipWith (· ++ ·) t d) else .error .value

/-- The first line of the file with totals, merge.py:87. -/
def head : Str := "time;M_imp;M_es;M_stall;M_ini_water;M_water;M_ini_ice;M_ice;Q_conv;Q_es".toList

/-- `np.savetxt`, merge.py:86-88; the format of numbers is `%.18e`. -/
def savetxt (c : Codec F) (m : List (List F)) : Str :=
  head ++ ['\n'] ++ m.flatMap (fun r => Py.join [';'] (r.map c.fmt) ++ ['\n'])

/-- The file with totals that `merge` writes, merge.py:78-88: its name and its text. The directory `dir` is the list of names and texts of files
in the order of `os.listdir`. -/
def mergeCsv [Add F] (c : Codec F) (nan : F) (dst nm : Str) (dir : List (Str × Str)) : Res (Option (Str × Str)) :=
  match dir.filter (fun f => decide (Py.slice f.1 (some (-4)) none = ".csv".toList)) with
  | [] => .ok none
  | f :: fs => do
    let m ← total c nan f.2 (fs.map Prod.snd)
    .ok (some (dst ++ "/../".toList ++ nm ++ ".csv".toList, savetxt c m))

end Csv
end Verif
