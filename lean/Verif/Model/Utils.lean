import Verif.Py

/-! Model of `crysgsu/utils.py`. -/

namespace Verif.Utils
open Verif

/-- A Python list whose elements are lists or non-lists. -/
inductive Nest (α : Type) where
  | leaf (a : α)
  | list (l : List (Nest α))

/-- `flatten`, utils.py:14-30. The accumulator `r` is folded into the recursion. -/
def flatten {α : Type} : List (Nest α) → List (Nest α)
  | [] => []
  | .list l :: t => flatten l ++ flatten t
  | .leaf a :: t => .leaf a :: flatten t

/-- The regular expression of `has_filename_timestamp` anchored at the front of the remaining text:
`_`, twelve digits, then `$`, i.e. end of text or a final newline (utils.py:43). -/
def matchHere (s : Str) : Bool :=
  match s with
  | '_' :: t =>
    (t.take 12).length == 12 && (t.take 12).all Py.isDecimal &&
      (t.drop 12 == [] || t.drop 12 == ['\n'])
  | _ => false

/-- `has_filename_timestamp`, utils.py:35-43: `re.search` tries every position. -/
def hasTimestamp (s : Str) : Bool :=
  match s with
  | [] => false
  | c :: cs => matchHere (c :: cs) || hasTimestamp cs

/-- `'000000000000'`. -/
def zeroStamp : Str := List.replicate 12 '0'

/-- `get_filename_and_timestamp_pair`, utils.py:48-61. -/
def nameStampPair (s : Str) : Str × Str :=
  if hasTimestamp s then (Py.slice s none (some (-13)), Py.slice s (some (-12)) none)
  else (s, zeroStamp)

/-- `dummy_split_filename`, utils.py:66-91. `int` may raise on digits it does not accept. -/
def dummySplit (s : Str) : Res (Str × Option Int × Option Int × Str) := do
  let st := Py.slice s none (some (-23))
  let m := Py.slice s (some (-22)) (some (-17))
  let t := Py.slice s (some (-16)) (some (-4))
  let e := Py.slice s (some (-3)) none
  let md ← if Py.isdigit m then (do let v ← Py.int m; pure (some v)) else pure none
  let td ← if Py.isdigit t then (do let v ← Py.int t; pure (some v)) else pure none
  pure (st, md, td, e)

/-- `is_filename_correct_crys_cry_file`, utils.py:96-107 and
`is_filename_correct_crys_txt_file`, utils.py:112-123, which differ in the extension only. -/
def isCorrectFile (ext : Str) (fn stem : Str) : Res Bool := do
  let (s, m, t, e) ← dummySplit fn
  pure (decide (s = stem) && m.isSome && t.isSome && decide (e = ext))

/-- utils.py:96-107. -/
def isCorrectCry (fn stem : Str) : Res Bool := isCorrectFile "cry".toList fn stem

/-- utils.py:112-123. -/
def isCorrectTxt (fn stem : Str) : Res Bool := isCorrectFile "txt".toList fn stem

/-- The time stamp slice `f[-16:-4]`, utils.py:139. -/
def stampOf (f : Str) : Str := Py.slice f (some (-16)) (some (-4))

/-- Body of the loop of `group_txt_files_by_timestamps`, utils.py:138-145. The list under an existing
key is appended to in place. -/
def groupStep (d : List (Str × List Str)) (f : Str) : List (Str × List Str) :=
  match Py.dictGet? d (stampOf f) with
  | some v => Py.dictSet d (stampOf f) (v ++ [f])
  | none => Py.dictSet d (stampOf f) [f]

/-- `group_txt_files_by_timestamps`, utils.py:128-147. -/
def group (fs : List Str) : List (Str × List Str) := fs.foldl groupStep []

/-- Name of an MPI file, grid.py:685: `'{0}_{1:05d}_{2}{3}'` with the suffix written as
dot and extension. -/
def mpiName (base : Str) (zi : Nat) (ts ext : Str) : Str :=
  base ++ ['_'] ++ Py.natStrPad 5 zi ++ ['_'] ++ ts ++ ['.'] ++ ext

end Verif.Utils
