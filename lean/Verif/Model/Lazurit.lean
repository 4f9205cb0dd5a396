import Verif.Model.Ansys
import Mathlib.Data.List.Sort

/-! The conversion of LAZURIT files: `convert/lazurit_to_crystal.py`.

A directory is the list of names and texts of its files. Not modelled: messages and the check that the directory exists. The floats
are read by `Codec.parse`; `Codec.fmt` is `str`. -/

namespace Verif
variable {F R : Type}

namespace Lazurit

/-- `leap_lines`, lazurit_to_crystal.py 37-46. -/
def leapLines (lines : List Str) : List Str := lines.flatMap Py.splitWs

/-- The position of the last `B`, lazurit_to_crystal.py 58-60. -/
def lastB : Str → Option Nat
  | [] => none
  | c :: s =>
    match lastB s with
    | some i => some (i + 1)
    | none => if c = 'B' then some 0 else none

/-- `'{0}'.format(get_block_name(s))`, lazurit_to_crystal.py 51-60, 170: without a `B` the name is `None`. -/
def blockName (s : Str) : Str :=
  match lastB s with
  | some i => Py.slice s (some (i : Int)) (some (-4))
  | none => "None".toList

/-- `double_list`, lazurit_to_crystal.py 65-74. -/
def double {α : Type} (l : List α) : List α := l.flatMap (fun e => [e, e])

/-- `double_and_neg_list`, lazurit_to_crystal.py 79-88. -/
def doubleNeg [Neg F] (c : Codec F) (l : List Str) : Res (List Str) := do
  let l ← l.mapM (fun e => do
    let x ← c.parse e
    .ok (c.fmt (-x)))
  .ok (double l)

/-- The links of the cell `(i, j)`, lazurit_to_crystal.py 197-202. -/
def cellLinks (ni i j : Int) : List (List Int) :=
  let n00 := i + j * ni
  let n01 := i + (j + 1) * ni
  let n10 := (i + 1) + j * ni
  let n11 := (i + 1) + (j + 1) * ni
  [[n00 + 1, n01 + 1, n11 + 1], [n00 + 1, n11 + 1, n10 + 1]]

/-- The links of a block, lazurit_to_crystal.py 195-202. -/
def links (ni nj : Int) : List (List Int) :=
  (List.range (ni - 1).toNat).flatMap (fun (i : Nat) =>
    (List.range (nj - 1).toNat).flatMap (fun (j : Nat) => cellLinks ni (i : Int) (j : Int)))

/-- A line of words, lazurit_to_crystal.py 178-192. -/
def wordLine (l : List Str) : Str := Py.join [' '] l ++ ['\n']

/-- The lines of a block, lazurit_to_crystal.py 152-202; `gls` and `sls` are the lines of its two files. -/
def blockLines [Neg F] (c : Codec F) (name : Str) (gls sls : List Str) : Res (List Str) := do
  let ss := Py.splitWs ((gls.drop 3).headD [])
  let s1 ← Py.get ss 1
  let ni ← Py.int s1
  let s3 ← Py.get ss 3
  let nj ← Py.int s3
  let s5 ← Py.get ss 5
  let nk ← Py.int s5
  let nc := ni * nj * nk
  let hec := (ni - 1) * (nj - 1)
  if nk ≠ 1 then .error .assertion
  else do
    let gel := leapLines (gls.drop 6)
    let sel := leapLines (sls.drop 6)
    let tx ← doubleNeg c (Py.slice sel (some (5 * hec)) (some (6 * hec)))
    let ty ← doubleNeg c (Py.slice sel (some (6 * hec)) (some (7 * hec)))
    let tz ← doubleNeg c (Py.slice sel (some (7 * hec)) (some (8 * hec)))
    .ok (["ZONE T=\"".toList ++ name ++ "\"\n".toList,
      "NODES=".toList ++ Py.intStr nc ++ ['\n'],
      "ELEMENTS=".toList ++ Py.intStr (2 * hec) ++ ['\n'],
      "DATAPACKING=BLOCK\n".toList,
      "ZONETYPE=FETRIANGLE\n".toList,
      "VARLOCATION=([4-11]=CELLCENTERED)\n".toList,
      wordLine (Py.slice gel (some 0) (some nc)), wordLine (Py.slice gel (some nc) (some (2 * nc))),
      wordLine (Py.slice gel (some (2 * nc)) (some (3 * nc))),
      wordLine (double (Py.slice sel (some 0) (some hec))), wordLine (double (Py.slice sel (some hec) (some (2 * hec)))),
      wordLine (double (Py.slice sel (some (2 * hec)) (some (3 * hec)))), wordLine (double (Py.slice sel (some (3 * hec)) (some (4 * hec)))),
      wordLine (double (Py.slice sel (some (4 * hec)) (some (5 * hec)))), wordLine tx, wordLine ty, wordLine tz] ++
      (links ni nj).map Grid.connLine)

/-- The head of the file, lazurit_to_crystal.py 127-129. -/
def headLines : List Str :=
  ["# EXPORT_MODE=CHECK_POINT\n".toList, "TITLE=\"FE Surface Data ASCII\"\n".toList,
   "VARIABLES=\"X\", \"Y\", \"Z\", \"T\", \"Hw\", \"Hi\", \"HTC\", \"Beta\", \"TauX\", \"TauY\", \"TauZ\"\n".toList]

/-- Body of the loop over pairs of files, lazurit_to_crystal.py 132-206. -/
def pairLines [Neg F] (c : Codec F) (dir : List (Str × Str)) (files : List Str) (fi : Nat) : Res (List Str) := do
  let gfn ← Py.get files (fi : Int)
  let sfn ← Py.get files ((fi + files.length / 2 : Nat) : Int)
  if Py.slice gfn none (some 14) ≠ "TEC_WALL_Grid_".toList then .error (.exc "файл не является файлом сетки")
  else if Py.slice sfn none (some 18) ≠ "TEC_WALL_Solution_".toList then .error (.exc "файл не является файлом решения")
  else if Py.slice gfn (some 14) none ≠ Py.slice sfn (some 18) none then .error (.exc "файлы не соответствуют одному блоку")
  else
    match Py.dictGet? dir gfn, Py.dictGet? dir sfn with
    | some g, some s => blockLines c (blockName gfn) (Py.readlines g) (Py.readlines s)
    | _, _ => .error (.exc "FileNotFoundError")

/-- `s <= t` for strings: by code points. -/
def leStr : Str → Str → Bool
  | [], _ => true
  | _ :: _, [] => false
  | a :: s, b :: t => decide (a.toNat < b.toNat) || (decide (a = b) && leStr s t)

/-- `sorted` of file names. -/
def sortNames (l : List Str) : List Str := l.insertionSort (fun a b => leStr a b = true)

/-- The text written before it is read back, lazurit_to_crystal.py 119-208. -/
def writeText [Neg F] (c : Codec F) (dir : List (Str × Str)) : Res Str := do
  let files := sortNames ((dir.map Prod.fst).filter (fun fn => Py.contains ".TEC".toList fn))
  if files.length % 2 = 1 then .error (.exc "количество файлов *.TEC во входной директории должно быть четным")
  else do
    let ls ← (List.range (files.length / 2)).mapM (pairLines c dir files)
    .ok (headLines ++ ls.flatten).flatten

/-- The script, lazurit_to_crystal.py 119-213. `out` formats floats with `{0:.18e}`. -/
def toCrystal [Neg F] [OfNat F 0] [DecidableEq R] [Inhabited F] [Inhabited R] (rc : Vec F → R) (c out : Codec F) (dir : List (Str × Str)) :
    Res Str := do
  let t ← writeText c dir
  let g ← Grid.loadText rc c true (Grid.empty : Grid F R) t
  g.storeText out 0

end Lazurit
end Verif
