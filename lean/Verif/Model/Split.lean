import Verif.Model.Text
import Verif.Model.Mpi
import Verif.Model.Utils

/-! Model of `crysgsu/split.py`. -/

namespace Verif
variable {F R : Type}

/-- `recovery_factor_name`, split.py:67. -/
def recoveryName : Str := "RecoveryFactor".toList

/-- Body of the loop over faces, split.py:69-70. -/
def fillFace (r : F) (d : Nat → List (Str × F)) (f : Nat) : Nat → List (Str × F) :=
  if recoveryName ∈ (d f).map Prod.fst then d else upd d f (Py.dictSet (d f) recoveryName r)

/-- Recovery factor support, split.py:64-70. -/
def fillFactor (g : Grid F R) (r : F) : Grid F R := { g with fData := g.faces.foldl (fillFace r) g.fData }

/-- The check of the names of fixed zones, split.py:59-62. -/
def checkFixed (g : Grid F R) (fixed : List Str) : Res Unit :=
  if fixed.all (fun n => decide (n ∈ g.zones.map g.zName)) then .ok () else .error (.exc "no zone with name")

/-- Reading of the strategy and the decomposition, split.py:73-112. `fns` are the default sign functions of the
hierarchical decomposition. `2 ** k` is compared with 1 only (and printed), so the exponent is compared
with 0; a negative exponent leads to a negative number of levels, which is 0 here and is rejected alike. -/
def splitGrid {S : Type} [LT S] [LE S] [DecidableLT S] [DecidableLE S] (g : Grid F R) (fns : List (Nat → S)) (strategy : Str)
    (fixed : List Str) : Res (Grid F R) :=
  match strategy with
  | [] => .error .index
  | ch :: s =>
    if ch = 'h' then do
      let k ← Py.int s
      if k = 0 ∧ fixed = [] then g.decomposeMono
      else g.decomposeHierarchical fns (k + 1).toNat none fixed
    else if ch = 'n' then do
      let n ← Py.int s
      if n = 1 ∧ fixed = [] then g.decomposeMono
      else if n = 0 then .error (.exc "zero zones count to split")
      else if n ≤ fixed.length then .error (.exc "fixed zones count is more or equal than target zones count")
      else g.decomposeFarhat (n - fixed.length).toNat none fixed
    else .error (.exc "unknown split strategy")

/-- What `split` writes: a grid file or files for MPI programs (names and contents). -/
inductive SplitOut (F : Type) where
  | dat (text : Str)
  | mpi (files : List (Str × MpiFile F))

/-- `split`, split.py:16-134: the returned grid and what is written. `stem` and `sf` are `pp.stem` and `pp.suffix`. Not
modelled: the check that the file exists, making of the directory, messages and the report file. In the code the
sign functions are the coordinates of face centres; they are parameters here. -/
def split {S : Type} [LT S] [LE S] [DecidableLT S] [DecidableLE S] [DecidableEq R] (rc : Vec F → R) (c : Codec F) (dflt : F)
    (new : Grid F R) (fns : Grid F R → List (Nat → S)) (stem sf gridText : Str) (cryDir : Option Str) (outDat : Bool) (strategy : Str)
    (fixed : List Str) (r : F) : Res (Grid F R × SplitOut F) := do
  let (nm, ts) := Utils.nameStampPair stem
  if sf ≠ ".dat".toList then .error (.exc "wrong name of grid file") else
  let g ← Grid.loadText rc c true new gridText
  checkFixed g fixed
  let g := fillFactor g r
  let g ← splitGrid g (fns g) strategy fixed
  if outDat then do
    let t ← g.storeText c dflt
    pure (g, .dat t)
  else
    match cryDir with
    | some dir => do
      let files ← g.storeMpi dflt
      pure (g, .mpi (files.zipIdx.map (fun p => (mpiFileName (dir ++ ['/'] ++ nm) ts ".cry".toList p.2, p.1))))
    | none => .error (.exc "internal error")

end Verif
