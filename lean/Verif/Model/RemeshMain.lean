import Verif.Model.Json
import Verif.Model.Remesh
import Verif.Model.Text

/-! The program `crysgsu/remesh.py` with the options of `TongRemesher`.

Not modelled: `argparse`, messages, the report, the intermediate files of the verbose mode, the checks that files exist; the options
`export_stl`, `remesh_verbose`, `remesh_nss_epsilon` and `remesh_nss_st`, which do not influence the result (the first is never used, the
last two only by the null space smoothing, which always fails). -/

namespace Verif

namespace Py

/-- The loop of `replace`; the first argument bounds the number of rounds. -/
def replaceGo (old new : Str) : Nat → Str → Str
  | 0, s => s
  | _ + 1, [] => []
  | n + 1, ch :: s =>
    if old.isPrefixOf (ch :: s) then new ++ replaceGo old new n ((ch :: s).drop old.length) else ch :: replaceGo old new n s

/-- `s.replace(old, new)` for a non-empty `old`, remesh.py:92. -/
def replace (old new s : Str) : Str := replaceGo old new s.length s

end Py

variable {F R : Type}

/-- An option that is an integer: `try: self.x = data[key] except KeyError: pass`, remeshing.py:217-220. Simplification: a value
that is no integer is a `TypeError` at once; in the code most of them are one later. -/
def Json.optInt (data : Json F) (key : Str) (dflt : Int) : Res Int :=
  match Json.orKey (data.item key) (.int dflt) with
  | .ok (.int i) => .ok i
  | .ok _ => .error .type
  | .error e => .error e

/-- An option that is a number, remeshing.py:229-232, with the same simplification. -/
def Json.optNum [IntCast F] (data : Json F) (key : Str) (dflt : F) : Res F :=
  match Json.orKey (data.item key) (.num dflt) with
  | .ok (.num x) => .ok x
  | .ok (.int i) => .ok (i : F)
  | .ok _ => .error .type
  | .error e => .error e

/-- An option that is used as a condition, remeshing.py:277-280: any value counts as true or false. -/
def Json.optBool [Zero F] [DecidableEq F] (data : Json F) (key : Str) (dflt : Bool) : Res Bool := do
  let j ← Json.orKey (data.item key) (.bool dflt)
  .ok j.truthy

variable [Field F] [LinearOrder F]

/-- `set_default_options`, remeshing.py:168-190. -/
def defaultOptions (sqrt : F → F) (trunc : F → Int) : RemeshPar F :=
  { sqrt := sqrt, trunc := trunc, nstepsMin := 0, nstepsMax := 10, hiSideFact := 1 / 10, ignorePart := 5 / 100, nsmoothSteps := 0,
    nsmoothS := 10, nsmoothK := 15 / 100, hsmoothSteps := 0, hsmoothAlfa := 2 / 10, hsmoothBeta := 1 / 10, redistr := true,
    nssSteps := 0, nssFixNodes := true, pseudo2d := false }

/-- `try_to_read_options`, remeshing.py:194-310. -/
def readOptions (data : Json F) (P : RemeshPar F) : Res (RemeshPar F) := do
  let a ← data.optInt "remesh_nsteps_min".toList P.nstepsMin
  let b ← data.optInt "remesh_nsteps_max".toList P.nstepsMax
  let c ← data.optNum "remesh_nsteps_hi_side_fact".toList P.hiSideFact
  let d ← data.optNum "remesh_nsteps_ignore_part".toList P.ignorePart
  let e ← data.optInt "remesh_nsmooth_steps".toList P.nsmoothSteps
  let f ← data.optNum "remesh_nsmooth_s".toList P.nsmoothS
  let g ← data.optNum "remesh_nsmooth_k".toList P.nsmoothK
  let h ← data.optInt "remesh_hsmooth_steps".toList P.hsmoothSteps
  let i ← data.optNum "remesh_hsmooth_alfa".toList P.hsmoothAlfa
  let j ← data.optNum "remesh_hsmooth_beta".toList P.hsmoothBeta
  let k ← data.optBool "remesh_rest_volume_redistr".toList P.redistr
  let l ← data.optInt "remesh_nss_steps".toList P.nssSteps
  let m ← data.optBool "remesh_nss_fix_nodes".toList P.nssFixNodes
  let n ← data.optBool "remesh_pseudo_2d_oz".toList P.pseudo2d
  .ok { sqrt := P.sqrt, trunc := P.trunc, nstepsMin := a, nstepsMax := b, hiSideFact := c, ignorePart := d, nsmoothSteps := e,
        nsmoothS := f, nsmoothK := g, hsmoothSteps := h, hsmoothAlfa := i, hsmoothBeta := j, redistr := k, nssSteps := l,
        nssFixNodes := m, pseudo2d := n }

/-- The constructor of `TongRemesher`, remeshing.py:137-165. -/
def remeshOptions (sqrt : F → F) (trunc : F → Int) (json : Option (Json F)) : Res (RemeshPar F) :=
  match json with
  | none => .ok (defaultOptions sqrt trunc)
  | some data => readOptions data (defaultOptions sqrt trunc)

/-- The file name of a mesh with the slash before it, remesh.py:84-87. -/
def meshFileName (mesh : Str) : Str :=
  let t := (mesh.reverse.takeWhile (fun ch => ch ≠ '/')).reverse
  if '/' ∈ mesh then '/' :: t else t

/-- The name of the result, remesh.py:92. -/
def remeshName (outdir mesh : Str) : Str := outdir ++ ['/'] ++ Py.replace "_r_".toList "_".toList (meshFileName mesh)

/-- The remeshing of one file, remesh.py:78-93, from text to text. -/
def remeshText [DecidableEq R] [Inhabited F] [Inhabited R] (rc : Vec F → R) (c : Codec F) (sqrt : F → F) (trunc : F → Int)
    (json : Option (Json F)) (text : Str) : Res Str := do
  let g ← Grid.loadText rc c true (Grid.empty : Grid F R) text
  let P ← remeshOptions sqrt trunc json
  let s ← Ice.run P g
  s.g.storeText c 0

/-- The loop over the meshes, remesh.py:75-93: names and texts of the results in the order of writing. The files of the input are
given with their texts; they are supposed not to be overwritten by results. -/
def remeshMain [DecidableEq R] [Inhabited F] [Inhabited R] (rc : Vec F → R) (c : Codec F) (sqrt : F → F) (trunc : F → Int)
    (json : Option (Json F)) (outdir : Str) (meshes : List (Str × Str)) : Res (List (Str × Str)) :=
  (meshes.filter (fun p => ".dat".toList.isSuffixOf p.1)).mapM (fun p => do
    let t ← remeshText (R := R) rc c sqrt trunc json p.2
    .ok (remeshName outdir p.1, t))

end Verif
