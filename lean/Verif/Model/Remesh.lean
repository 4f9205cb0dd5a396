import Verif.Model.Geom
import Verif.Model.Grid
import Verif.Model.Drops
import Mathlib.Data.List.Sort

/-! Remeshing of the iced surface: `crysgsu/remeshing.py`, `geom/utils.py` and the part of `smoothing.py` that can run.

Not modelled: printing and the intermediate files of the verbose mode, time measurement. Options are read in `Model/RemeshMain`.
`sqrt` is `math.sqrt`, `trunc` is `int` of a float. -/

namespace Verif
variable {F R : Type} [Field F] [LinearOrder F]

/-! ### Volumes, `geom/utils.py` -/

/-- `tetrahedron_volume`, geom/utils.py 10-33. -/
def tetraVolume (a b c d : Vec F) : F := |(a.sub d).dot ((b.sub d).cross (c.sub d))| / 6

/-- `displaced_triangle_volume`, geom/utils.py 38-69. -/
def displacedVolume (a b c na nb nc : Vec F) : F :=
  tetraVolume a b c nc + tetraVolume a b nb nc + tetraVolume a na nb nc

/-- `prizmatoid_volume_coefs`, geom/utils.py 74-120: the coefficients `a` and `b`. The third one (118) is not used by the caller;
computing it raises nothing. -/
def prizmatoidCoefs (sqrt : F → F) (v1 v2 v3 n1 n2 n3 n : Vec F) : Res (F × F) := do
  let v21 := v2.sub v1
  let v31 := v3.sub v1
  let u1 ← n1.div (n.dot n1)
  let u2 ← n2.div (n.dot n2)
  let u3 ← n3.div (n.dot n3)
  let u21 := u2.sub u1
  let u31 := u3.sub u1
  .ok (1 / 2 * (v21.cross v31).mod sqrt, 1 / 4 * ((v21.cross u31).add (u21.cross v31)).dot n)

/-- `Triangle.min_side`, triangle.py 506-517. -/
def Tri.minSide (sqrt : F → F) (t : Tri F) : F :=
  min (min ((t.a.sub t.b).mod sqrt) ((t.b.sub t.c).mod sqrt)) ((t.c.sub t.a).mod sqrt)

/-- `sum(vs, Vect())`: the sum from the left. -/
def vecSum (vs : List (Vec F)) : Vec F := vs.foldl Vec.add ⟨0, 0, 0⟩

/-- `wsum`, remeshing.py 45-59. -/
def wsum (a : List (Vec F)) (w : List F) : Res (Vec F) :=
  (vecSum (List.zipWith (fun v k => v.smul k) a w)).div w.sum

/-! ### The remesher -/

/-- The options of `TongRemesher`, remeshing.py 168-187, and the functions of the `math` module. -/
structure RemeshPar (F : Type) where
  sqrt : F → F
  trunc : F → Int
  nstepsMin : Int
  nstepsMax : Int
  hiSideFact : F
  ignorePart : F
  nsmoothSteps : Int
  nsmoothS : F
  nsmoothK : F
  hsmoothSteps : Int
  hsmoothAlfa : F
  hsmoothBeta : F
  redistr : Bool
  nssSteps : Int
  nssFixNodes : Bool
  pseudo2d : Bool

/-- The grid and the attributes that remeshing adds to its faces and nodes. -/
structure Ice (F R : Type) where
  g : Grid F R
  /-- `face.target_ice` -/
  target : Nat → F
  /-- `face.rest_ice` -/
  rest : Nat → F
  /-- `face.actual_ice` -/
  actual : Nat → F
  /-- `face.ice_chunk` -/
  chunk : Nat → F
  /-- `face.loc_ice_chunk` -/
  loc : Nat → F
  /-- `face.ice_shift` -/
  fShift : Nat → F
  /-- `face.ice_dir` -/
  fDir : Nat → Vec F
  /-- `face.saved_area` -/
  saved : Nat → F
  /-- `node.ice_dir` -/
  nDir : Nat → Vec F
  /-- `node.ice_shift` -/
  nShift : Nat → F
  /-- `node.shift` -/
  nMove : Nat → Vec F

namespace Grid

/-- `mark_all_fixed_nodes`, grid.py 1167-1175. The attribute `border` of edges, which nothing reads, is left out. -/
def markFixedNodes (g : Grid F R) : Grid F R :=
  g.edges.foldl (fun g e =>
    if (g.eFaces e).length = 1 then
      (g.eNodes e).foldl (fun g n =>
        if !(g.nBorder n) then { g with nBorder := upd g.nBorder n true, borderCnt := g.borderCnt + 1 } else g) g
    else g) g

/-- The loop that looks for the first value that is no more than `nsteps_max`, remeshing.py 467-473; it starts with `nsteps_max`.
All indices are in range, because `lna[may_ignore]` was. -/
def firstAtMost (nmax : Int) (l : List Int) : Int := (l.find? (fun x => decide (x ≤ nmax))).getD nmax

/-- `calculate_nsteps`, remeshing.py 423-484. -/
def calculateNsteps (P : RemeshPar F) (g : Grid F R) : Res Int := do
  if P.nstepsMin > P.nstepsMax then .error (.exc "nsteps_max can not be less than nsteps_min")
  else
    let lna ← g.faces.mapM (fun f => do
      let t ← g.triangle f
      let q := t.minSide P.sqrt * P.hiSideFact
      if q = 0 then .error .zeroDiv else .ok (P.trunc (g.getData 0 f "Hi".toList / q) + 1))
    let lna := (lna.insertionSort (· ≤ ·)).reverse
    let mayIgnore := P.trunc (lna.length * P.ignorePart)
    let x ← Py.get lna mayIgnore
    let nsteps := if x > P.nstepsMax then P.nstepsMax else firstAtMost P.nstepsMax (lna.take mayIgnore.toNat)
    .ok (if nsteps < P.nstepsMin then P.nstepsMin else nsteps)

end Grid

namespace Ice

/-- `face.get_triangle().area()`. -/
def area (sqrt : F → F) (g : Grid F R) (f : Nat) : Res F := do
  let t ← g.triangle f
  .ok (t.area sqrt)

/-- The beginning of `__call__`, remeshing.py 326-335: the ice to grow on every face. The attributes not yet assigned are given
arbitrary values; they are assigned before they are read. -/
def start (P : RemeshPar F) (g : Grid F R) : Res (Ice F R) :=
  g.faces.foldlM (fun s f => do
    let t := (← area P.sqrt g f) * g.getData 0 f "Hi".toList
    .ok { s with target := upd s.target f t, rest := upd s.rest f t, actual := upd s.actual f 0 })
    ⟨g, fun _ => 0, fun _ => 0, fun _ => 0, fun _ => 0, fun _ => 0, fun _ => 0, fun _ => ⟨0, 0, 0⟩, fun _ => 0, fun _ => ⟨0, 0, 0⟩,
      fun _ => 0, fun _ => ⟨0, 0, 0⟩⟩

/-- `calc_ice_chunks`, remeshing.py 532-546. -/
def calcChunks (n : Int) (s : Ice F R) : Res (Ice F R) :=
  s.g.faces.foldlM (fun s f => if (n : F) = 0 then .error .zeroDiv else .ok { s with chunk := upd s.chunk f (s.rest f / n) }) s

/-- `init_ice_dirs`, remeshing.py 626-639. -/
def initDirs (sqrt : F → F) (s : Ice F R) : Res (Ice F R) := do
  let s ← s.g.faces.foldlM (fun s f => do
    let n ← (← s.g.triangle f).normalOrth sqrt
    .ok { s with fDir := upd s.fDir f n }) s
  s.g.nodes.foldlM (fun s n => do
    let d ← (vecSum ((s.g.nFaces n).map s.fDir)).orth sqrt
    .ok { s with nDir := upd s.nDir n d }) s

/-- One turn of `normals_smoothing`, remeshing.py 654-662. -/
def normalsTurn (P : RemeshPar F) (s : Ice F R) : Res (Ice F R) := do
  let s ← s.g.faces.foldlM (fun s f => do
    let ns := s.g.fNodes f
    let ws := ns.map (fun n => max (P.nsmoothS * (1 - (s.fDir f).dot (s.nDir n))) P.nsmoothK)
    let d ← wsum (ns.map s.nDir) ws
    .ok { s with fDir := upd s.fDir f d }) s
  s.g.nodes.foldlM (fun s n => do
    let ws ← (s.g.nFaces n).mapM (fun f => do
      let a ← area P.sqrt s.g f
      if a = 0 then .error .zeroDiv else .ok (1 / a))
    let d ← wsum ((s.g.nFaces n).map s.fDir) ws
    .ok { s with nDir := upd s.nDir n d }) s

/-- `normals_smoothing`, remeshing.py 643-662. -/
def normalsSmoothing (P : RemeshPar F) (s : Ice F R) : Res (Ice F R) :=
  (List.range P.nsmoothSteps.toNat).foldlM (fun s _ => normalsTurn P s) s

/-- The height that gives the volume `v` by `a * h + b * h * h = v`, remeshing.py 696-707; `h0` if no root is taken. -/
def solveShift (sqrt : F → F) (a b v h0 : F) : F :=
  if |b| > 1 / 10 ^ 10 then
    let d := a * a + 4 * b * v
    if d ≥ 0 then
      let r := sqrt d
      let h1 := (-a + r) / (2 * b)
      let h2 := (-a - r) / (2 * b)
      if h1 ≥ 0 ∧ h2 ≥ 0 then min h1 h2
      else if h1 ≥ 0 then h1
      else if h2 ≥ 0 then h2
      else h0
    else h0
  else h0

/-- The ice shift of a face, remeshing.py 680-707. -/
def faceShift (sqrt : F → F) (s : Ice F R) (f : Nat) : Res F := do
  let t ← s.g.triangle f
  if t.area sqrt = 0 then .error .zeroDiv
  else
    let h0 := s.chunk f / t.area sqrt
    if s.chunk f > 1 / 10 ^ 10 then
      let n0 ← Py.get (s.g.fNodes f) 0
      let n1 ← Py.get (s.g.fNodes f) 1
      let n2 ← Py.get (s.g.fNodes f) 2
      let nf ← t.normalOrth sqrt
      let (a, b) ← prizmatoidCoefs sqrt (s.g.nP n0) (s.g.nP n1) (s.g.nP n2) (s.nDir n0) (s.nDir n1) (s.nDir n2) nf
      .ok (solveShift sqrt a b (s.chunk f) h0)
    else .ok h0

/-- The ice shift of a node, remeshing.py 710-713: the mean over its faces (`statistics.mean` of no numbers raises
`StatisticsError`, a `ValueError`). -/
def nodeShift (s : Ice F R) (n : Nat) : Res F :=
  let hs := (s.g.nFaces n).map s.fShift
  if hs = [] then .error .value
  else
    let m := hs.sum / hs.length
    if m < 0 then .error (.exc "Negative node ice shift.") else .ok m

/-- `define_ice_shifts`, remeshing.py 666-713. -/
def defineShifts (sqrt : F → F) (s : Ice F R) : Res (Ice F R) := do
  let s ← s.g.faces.foldlM (fun s f => do
    let h ← faceShift sqrt s f
    .ok { s with fShift := upd s.fShift f h }) s
  s.g.nodes.foldlM (fun s n => do
    let m ← nodeShift s n
    .ok { s with nShift := upd s.nShift n m }) s

/-- The redistribution of ice over one edge, remeshing.py 735-752. -/
def smoothEdge (P : RemeshPar F) (maxH : F) (s : Ice F R) (e : Nat) : Res (Ice F R) :=
  match s.g.eFaces e with
  | [x, y] => do
    let (f1, f2) := if s.fShift x < s.fShift y then (y, x) else (x, y)
    let midArea ← if s.fShift f1 = 0 then area P.sqrt s.g f1 else .ok (s.chunk f1 / s.fShift f1)
    let deltaV := min (s.fShift f1 - s.fShift f2) (P.hsmoothAlfa * maxH) * midArea
    let s := { s with loc := upd s.loc f1 (s.loc f1 - P.hsmoothBeta * deltaV) }
    .ok { s with loc := upd s.loc f2 (s.loc f2 + P.hsmoothBeta * deltaV) }
  | _ => .ok s

/-- One turn of `heights_smoothing`, remeshing.py 726-759. -/
def heightsTurn (P : RemeshPar F) (s : Ice F R) : Res (Ice F R) := do
  let s := s.g.faces.foldl (fun s f => { s with loc := upd s.loc f (s.chunk f) }) s
  let maxH ← Py.maximum (s.g.faces.map s.fShift)
  let s ← s.g.edges.foldlM (smoothEdge P maxH) s
  let s := s.g.faces.foldl (fun s f => { s with chunk := upd s.chunk f (s.loc f) }) s
  defineShifts P.sqrt s

/-- `heights_smoothing`, remeshing.py 717-759. -/
def heightsSmoothing (P : RemeshPar F) (s : Ice F R) : Res (Ice F R) :=
  (List.range P.hsmoothSteps.toNat).foldlM (fun s _ => heightsTurn P s) s

/-- The volume between the old and the new position of a face, remeshing.py 775-780. -/
def deposit (s : Ice F R) (f : Nat) : Res F := do
  let n1 ← Py.get (s.g.fNodes f) 0
  let n2 ← Py.get (s.g.fNodes f) 1
  let n3 ← Py.get (s.g.fNodes f) 2
  .ok (displacedVolume (s.g.nP n1) (s.g.nP n2) (s.g.nP n3) ((s.g.nP n1).add (s.nMove n1)) ((s.g.nP n2).add (s.nMove n2))
    ((s.g.nP n3).add (s.nMove n3)))

/-- The update of the ice of a face, remeshing.py 774-790. -/
def accrete (P : RemeshPar F) (s : Ice F R) (f : Nat) : Res (Ice F R) := do
  let v ← deposit s f
  let s := if P.redistr then { s with rest := upd s.rest f (if s.rest f - v < 0 then 0 else s.rest f - v) } else s
  .ok { s with actual := upd s.actual f (s.actual f + v) }

/-- `move_nodes`, remeshing.py 763-794. -/
def moveNodes (P : RemeshPar F) (s : Ice F R) : Res (Ice F R) := do
  let s := s.g.nodes.foldl (fun s n => { s with nMove := upd s.nMove n ((s.nDir n).smul (s.nShift n)) }) s
  let s ← s.g.faces.foldlM (accrete P) s
  .ok (s.g.nodes.foldl (fun s n => { s with g := { s.g with nP := upd s.g.nP n ((s.g.nP n).add (s.nMove n)) } }) s)

/-- `remember_current_areas`, remeshing.py 559-562. -/
def rememberAreas (sqrt : F → F) (s : Ice F R) : Res (Ice F R) :=
  s.g.faces.foldlM (fun s f => do
    let a ← area sqrt s.g f
    .ok { s with saved := upd s.saved f a }) s

/-- `null_space_smoothing`, remeshing.py 550-557 with smoothing.py 102-129 and 193-242: the constructor rejects empty grids; a turn
reads the attribute `faces` of the first node, which does not exist. -/
def nullSpace (P : RemeshPar F) (s : Ice F R) : Res (Ice F R) :=
  if s.g.nodes = [] ∨ s.g.faces = [] ∨ s.g.edges = [] then .error .assertion
  else if P.nssSteps > 0 then .error .attr
  else .ok s

/-- `correction_by_area`, remeshing.py 564-571. -/
def correctByArea (sqrt : F → F) (s : Ice F R) : Res (Ice F R) :=
  s.g.faces.foldlM (fun s f => do
    if s.saved f = 0 then .error .assertion
    else
      let a ← area sqrt s.g f
      .ok { s with rest := upd s.rest f (s.rest f * a / s.saved f) }) s

/-- `remesh_step`, remeshing.py 575-606. `correct_coords_for_pseudo_2d_oz` is never reached, see `run`. -/
def step (P : RemeshPar F) (s : Ice F R) : Res (Ice F R) := do
  let s ← initDirs P.sqrt s
  let s ← normalsSmoothing P s
  let s ← defineShifts P.sqrt s
  let s ← heightsSmoothing P s
  let s ← moveNodes P s
  let s ← rememberAreas P.sqrt s
  let s ← nullSpace P s
  correctByArea P.sqrt s

/-- A turn of the loop of `__call__`, remeshing.py 357-358, when `n` steps are left. -/
def turn (P : RemeshPar F) (n : Int) (s : Ice F R) : Res (Ice F R) := do
  let s ← calcChunks n s
  step P s

/-- `TongRemesher.__call__`, remeshing.py 314-389. With the option `pseudo_2d_oz` the attribute `x` of a vector is read for the first
node (499), which does not exist; without nodes `vs[0]` (508) raises `IndexError`. -/
def run (P : RemeshPar F) (g : Grid F R) : Res (Ice F R) := do
  let s ← start P g
  let s := if P.nssFixNodes then { s with g := s.g.markFixedNodes } else s
  let nsteps ← s.g.calculateNsteps P
  if P.pseudo2d then (if s.g.nodes = [] then .error .index else .error .attr)
  else
    let s ← (List.range nsteps.toNat).foldlM (fun s (i : Nat) => turn P (nsteps - i) s) s
    .ok { s with g := s.g.faces.foldl (fun g f => g.setData f "Hi".toList 0) s.g }

end Ice
end Verif
