import Verif.Model.Text
import Verif.Model.Utils

/-! Model of the exchange of calculation data: `store_faces_calc_data`, `load_faces_calc_data` (grid.py:1126-1163) and
`merge` (merge.py:17-95). -/

namespace Verif
variable {F R : Type}

/-- A line of calculation data: identifier and values, face.py:76-77. -/
def calcLine (c : Codec F) (p : Nat × List F) : Str :=
  Py.join [' '] (Py.natStr p.1 :: p.2.map c.fmt) ++ ['\n']

/-- The first line, grid.py:1134, with the list of data variables as a parameter. -/
def calcHead (vars : List Str) : Str :=
  "VARIABLES=".toList ++ Py.join ", ".toList (("GloId".toList :: vars).map (fun v => ['"'] ++ v ++ ['"'])) ++ ['\n']

/-- Text of a file with calculation data, in the format of grid.py:1133-1136. -/
def calcText (c : Codec F) (vars : List Str) (rows : List (Nat × List F)) : Str :=
  (calcHead vars :: rows.map (calcLine c)).flatten

namespace Grid

/-- `store_faces_calc_data`, grid.py:1126-1137, face.py:65-79. The sums with `random.random()` are parameters:
`val f k` is the number written for variable `k` of face `f`. -/
def storeCalc (g : Grid F R) (c : Codec F) (val : Nat → Str → F) : Str :=
  calcText c ["T".toList, "Hw".toList, "Hi".toList]
    (g.faces.map (fun f => (g.fGlo f, [val f "T".toList, val f "Hw".toList, val f "Hi".toList])))

/-- Variables of the first line, grid.py:1151. -/
def calcVars (line : Str) : Res (List Str) := do
  let s ← lastField line
  pure ((Py.splitWs (Py.delCh ',' (Py.delCh '"' s))).drop 1)

/-- Body of the loop over lines, grid.py:1156-1160. -/
def loadCalcLine (c : Codec F) (vars : List Str) (g : Grid F R) (line : Str) : Res (Grid F R) := do
  let ss := Py.splitWs line
  let s0 ← Py.get ss 0
  let id ← Py.int s0
  let values ← (ss.drop 1).mapM c.parse
  let f ← Py.get g.faces id
  pure { g with fData := upd g.fData f (Py.dictOf (vars.zip values)) }

/-- `load_faces_calc_data`, grid.py:1141-1163, from the text of the file. (In Python the lines before an erroneous one
have taken effect when the exception is raised; here only the exception is kept, see `Model/Broken.lean` for the rest.) -/
def loadCalc (c : Codec F) (g : Grid F R) (text : Str) : Res (Grid F R) := do
  let ls := Py.readlines text
  let vars ← calcVars (ls.headD [])
  ls.tail.foldlM (loadCalcLine c vars) g

end Grid

/-- Reading of a file of the source directory. A directory is the list of names and texts of its files, in the order of
`os.listdir`. -/
def readFile (dir : List (Str × Str)) (fn : Str) : Res Str :=
  match Py.dictGet? dir fn with
  | some t => .ok t
  | none => .error (.exc "FileNotFoundError")

/-- `g.load_faces_calc_data(src_dir + '/' + f)`, merge.py:67. -/
def mergeFile (c : Codec F) (dir : List (Str × Str)) (g : Grid F R) (fn : Str) : Res (Grid F R) := do
  let t ← readFile dir fn
  g.loadCalc c t

/-- Body of the loop over time stamps, merge.py:64-68. The state is the grid object and the files written. -/
def mergeStamp [DecidableEq R] (rc : Vec F → R) (c : Codec F) (dflt : F) (gridText dst nm : Str) (dir : List (Str × Str))
    (s : Grid F R × List (Str × Str)) (p : Str × List Str) : Res (Grid F R × List (Str × Str)) := do
  let g ← Grid.loadText rc c true s.1 gridText
  let g ← p.2.foldlM (mergeFile c dir) g
  let t ← g.storeText c dflt
  pure (g, s.2 ++ [(dst ++ ['/'] ++ nm ++ "_r_".toList ++ p.1 ++ ".dat".toList, t)])

/-- `[fn for fn in all_files if utils.is_filename_correct_crys_txt_file(fn, nm)]`, merge.py:49. -/
def matchFiles (nm : Str) (all : List Str) : Res (List Str) := do
  let bs ← all.mapM (fun fn => Utils.isCorrectTxt fn nm)
  pure (((all.zip bs).filter (·.2)).map Prod.fst)

/-- `merge`, merge.py:46-68: the files written to the destination directory. Not modelled: handling of paths, the check
that the grid file exists, messages and the report file; the sum of `.csv` files (merge.py:70-89) is in `Model/Csv.lean`. -/
def merge [DecidableEq R] [Inhabited F] [Inhabited R] (rc : Vec F → R) (c : Codec F) (dflt : F) (gridText dst nm : Str) (dir : List (Str × Str)) :
    Res (List (Str × Str)) := do
  let fs ← matchFiles nm (dir.map Prod.fst)
  let s ← (Utils.group fs).foldlM (mergeStamp rc c dflt gridText dst nm dir) ((Grid.empty : Grid F R), [])
  pure s.2

end Verif
