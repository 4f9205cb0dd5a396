import Verif.Model.Calc
import Verif.Model.Drops
import Verif.Model.Explode
import Verif.Model.Mpi

/-! The example programs of crysgsu/test.py. The files are a dictionary from names to texts; a program that raises leaves no
result here. Not modelled: the line each program prints first. The sign functions of `decompose_hierarchical`, which take the
coordinates of the centers of faces, are a parameter `fns`. -/

namespace Verif.Cases
open Verif Grid
variable {F R S : Type} [DecidableEq R] [Inhabited F] [Inhabited R]

/-- Names and texts of files. -/
abbrev Files := List (Str × Str)

/-- What the programs use: rounding of coordinates, text of numbers, the value of a missing variable, sign functions. -/
structure Env (F R S : Type) where
  rc : Vec F → R
  codec : Codec F
  dflt : F
  fns : Grid F R → List (Nat → S)

/-- `'cases/grids/{0}<end>'.format(test)`, for example test.py:25. -/
def path (test ending : Str) : Str := "cases/grids/".toList ++ test ++ ending

/-- `g.load(filename, is_merge_same_nodes)`, grid.py:471-584. -/
def load (E : Env F R S) (merge : Bool) (fs : Files) (g : Grid F R) (fn : Str) : Res (Grid F R) := do
  let t ← readFile fs fn
  Grid.loadText E.rc E.codec merge g t

/-- `g.store(filename)`, grid.py:612-659. -/
def store (E : Env F R S) (g : Grid F R) (fn : Str) (fs : Files) : Res Files := do
  let t ← g.storeText E.codec E.dflt
  .ok (Py.dictSet fs fn t)

/-- `case_001_load_store`, test.py:12-28. -/
def case001 (E : Env F R S) (test : Str) (fs : Files) : Res Files := do
  let g ← load E true fs Grid.empty (path test ".dat".toList)
  let fs ← store E g (path test "_store1.dat".toList) fs
  let g ← load E true fs g (path test "_store1.dat".toList)
  store E g (path test "_store2.dat".toList) fs

/-- One of the blocks `if '<m>' in methods:` of `case_002_decompose`, test.py:51-76. `new_grid_name` and `new_file_name` are
test.py:48-49. -/
def method (E : Env F R S) (test : Str) (methods : List Str) (m : Str) (dec : Grid F R → Option Str → Res (Grid F R))
    (s : Grid F R × Files) : Res (Grid F R × Files) :=
  if m ∈ methods then do
    let g ← load E true s.2 s.1 (path test ".dat".toList)
    let g ← dec g (some (test ++ [' '] ++ m))
    let fs ← store E g (path test (['_'] ++ m ++ ".dat".toList)) s.2
    .ok (g, fs)
  else .ok s

variable [LT S] [LE S] [DecidableLT S] [DecidableLE S]

/-- `case_002_decompose`, test.py:33-76. `rand` gives the numbers drawn by `randint(0, 31)`; the numbers of zones and levels
are the default ones of grid.py:827, 852, 1007, 1049. -/
def case002 (E : Env F R S) (rand : Nat → Nat) (test : Str) (methods : List Str) (fs : Files) : Res Files := do
  let fixed := ["POS1".toList, "POS2".toList]
  let s ← method E test methods "mono".toList (fun g nm => g.decomposeMono nm) (Grid.empty, fs)
  let s ← method E test methods "random".toList (fun g nm => g.decomposeRandom rand 32 nm) s
  let s ← method E test methods "linear".toList (fun g nm => g.decomposeLinear 32 nm) s
  let s ← method E test methods "hierarchical".toList (fun g nm => g.decomposeHierarchical (E.fns g) 6 nm fixed) s
  let s ← method E test methods "farhat".toList (fun g nm => g.decomposeFarhat 32 nm fixed) s
  .ok s.2

/-- `case_005_explode_bunny`, test.py:82-99; `k` is 0.25. -/
def case005 [Field F] [DecidableEq F] (E : Env F R S) (k : F) (test : Str) (fs : Files) : Res Files := do
  let g ← load E true fs Grid.empty (path test ".dat".toList)
  let g ← g.decomposeHierarchical (E.fns g) 5 (some (test ++ " hierarchical".toList))
  let fs ← store E g (path test "_hierarchical.dat".toList) fs
  let g ← load E false fs g (path test "_hierarchical.dat".toList)
  let g ← g.moveFromMeanPoint k
  store E g (path test "_explode.dat".toList) fs

/-- `case_007_store_load_faces_calc_data`, test.py:105-120; `val g f v` is the number written for variable `v` of face `f`. -/
def case007 (E : Env F R S) (val : Grid F R → Nat → Str → F) (test : Str) (fs : Files) : Res Files := do
  let g ← load E true fs Grid.empty (path test ".dat".toList)
  let fs := Py.dictSet fs (path test ".txt".toList) (g.storeCalc E.codec (val g))
  let t ← readFile fs (path test ".txt".toList)
  let g ← g.loadCalc E.codec t
  store E g (path test "_data.dat".toList) fs

/-- `case_009_store_mpi`, test.py:126-140. `store_mpi` writes one file after the other, grid.py:684-738. -/
def case009 (E : Env F R S) (test : Str) (fs : Files) : Res Files := do
  let g ← load E true fs Grid.empty (path test ".dat".toList)
  let g ← g.decomposeHierarchical (E.fns g) 3 (some (test ++ " hierarchical".toList))
  let ms ← g.storeMpi E.dflt
  .ok (ms.zipIdx.foldl (fun fs p => Py.dictSet fs
    (mpiFileName (path test "_mpi".toList) "000000000100".toList ".cry".toList p.2) (p.1.render E.codec.fmt)) fs)

/-- `case_014_convert_grid_stall_to_check_point`, test.py:146-158. -/
def case014 (E : Env F R S) (fs : Files) : Res Files := do
  let g ← load E true fs Grid.empty "cases/drops/cyl/cyl_stall.dat".toList
  let g ← g.stallToCheckPoint
  store E g "cases/drops/cyl/cyl_stall_case_014.dat".toList fs

end Verif.Cases
