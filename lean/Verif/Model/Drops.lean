import Verif.Model.Geom
import Verif.Model.Grid

/-! Flight of droplets and secondary impingement, `crysgsu/drops.py`.

Printing is left out; the files are in `Model/DropsFile`, here the velocity field is given as the list of its points and velocities. `sqrt` is `math.sqrt`, `pow` is `math.pow`, `round10` is `round(_, 10)`. -/

namespace Verif
variable {F R : Type} [Field F] [LinearOrder F]

/-- `Space`, drops.py 17-34: the points with velocities and their box. -/
structure Space (F : Type) where
  ds : List (Vec F × Vec F)
  bx : Box F

/-- `Space(ds, ...)`, drops.py 24-34. -/
def Space.make (ds : List (Vec F × Vec F)) : Res (Space F) := do
  let bx ← Box.ofPoints (ds.map Prod.fst)
  .ok ⟨ds, bx⟩

/-- `Space.find_nearest`, drops.py 48-61: the first of the points with the smallest distance (`argmin` returns the first
minimum). -/
def Space.findNearest (sqrt : F → F) (s : Space F) (p : Vec F) : Res (Vec F × Vec F) :=
  match s.ds with
  | [] => .error .value
  | d :: ds => .ok (ds.foldl (fun m e => if (e.1.sub p).mod sqrt < (m.1.sub p).mod sqrt then e else m) d)

/-- `Space.fly_step`, drops.py 77-110. `math.pow` of a negative number and a fraction raises `ValueError`. -/
def flyStep (sqrt : F → F) (pow : F → F → F) (p v vAir : Vec F) (d dt : F) : Res (Vec F × Vec F) := do
  let airDns : F := 1292 / 1000
  let wtrDns : F := 1000
  let airVis : F := 1736 / 10 ^ 8
  let vsm := (v.sub vAir).mod sqrt
  let re := vsm * d / airVis
  let cd ← if re ≤ 350 then
      if re = 0 then .error .zeroDiv
      else if re < 0 then .error .value
      else .ok (24 / re * (1 + 166 / 1000 * pow re (33 / 100)))
    else .ok (178 / 1000 * pow re (217 / 1000))
  if d * wtrDns = 0 then .error .zeroDiv
  else
    let a := (((vAir.sub v).smul (3 / 4)).smul (cd * airDns / (d * wtrDns))).smul vsm
    .ok (p.add (v.smul dt), v.add (a.smul dt))

/-- The result of `fly`, drops.py 124-135: diagnostic, face and the points of the trajectory. -/
structure Flight (F : Type) where
  status : Char
  face : Option Nat
  points : List (Vec F)
deriving DecidableEq

/-- The loop of `fly`, drops.py 142-172, with a bound for the number of turns. The trajectory consists of the points `pre` and
the last point `lp`; `v` is the current velocity. -/
def flyLoop (sqrt : F → F) (pow : F → F → F) (round10 : F → F) (s : Space F) (d dt : F) (cloud : Cloud F) (maxSteps : Int) :
    Nat → List (Vec F) → Vec F → Vec F → Res (Flight F)
  | 0, _, _, _ => .error .runtime
  | n + 1, pre, lp, v =>
    if ((pre ++ [lp]).length : Int) > maxSteps then .ok ⟨'N', none, pre ++ [lp]⟩
    else if !(s.bx.isPointInside lp) then .ok ⟨'O', none, pre ++ [lp]⟩
    else do
      let near ← s.findNearest sqrt lp
      let (fp, v) ← flyStep sqrt pow lp v near.2 d dt
      if fp.isNear sqrt lp (1 / 10 ^ 15) then .ok ⟨'S', none, pre ++ [lp]⟩
      else
        match ← Cloud.first (fun t => t.intersectSegment round10 lp fp) lp fp cloud with
        | some t => .ok ⟨'C', t.back, pre ++ [lp] ++ [fp]⟩
        | none => flyLoop sqrt pow round10 s d dt cloud maxSteps n (pre ++ [lp]) fp v

/-- `Space.fly`, drops.py 114-172. The loop ends after `max_steps + 1` turns at the latest (theorem C46). -/
def fly (sqrt : F → F) (pow : F → F → F) (round10 : F → F) (s : Space F) (p vel : Vec F) (d dt : F) (cloud : Cloud F)
    (maxSteps : Int) : Res (Flight F) :=
  flyLoop sqrt pow round10 s d dt cloud maxSteps (maxSteps.toNat + 1) [] p vel

namespace Grid

/-- `Face.get_triangle`, face.py 137-151. -/
def triangle (g : Grid F R) (f : Nat) : Res (Tri F) := do
  let a ← Py.get (g.fNodes f) 0
  let b ← Py.get (g.fNodes f) 1
  let c ← Py.get (g.fNodes f) 2
  .ok ⟨f, g.nP a, g.nP b, g.nP c, some f⟩

/-- The parameters of `drops` (drops.py 231-232) and the functions of the `math` module. -/
structure DropsPar (F : Type) where
  sqrt : F → F
  pow : F → F → F
  round10 : F → F
  /-- distance of the start point from the face -/
  d : F
  dt : F
  stallThr : F
  maxFlySteps : Int

/-- The flight of the droplet of a wet face, drops.py 278-282. -/
def dropFlight (P : DropsPar F) (air : Space F) (cloud : Cloud F) (g : Grid F R) (f : Nat) : Res (Flight F) := do
  let tri ← g.triangle f
  let n ← tri.normalOrth P.sqrt
  fly P.sqrt P.pow P.round10 air (tri.centroid.add (n.smul P.d))
    ⟨g.getData 0 f "StallVX".toList, g.getData 0 f "StallVY".toList, g.getData 0 f "StallVZ".toList⟩
    (g.getData 0 f "StallD".toList) P.dt cloud P.maxFlySteps

/-- The body of the loop over the faces, drops.py 275-291. A flight that ends with 'C' has the face of a triangle made by
`get_triangle`, so `res[1]` is not `None`; the model raises `AttributeError` as Python would. -/
def dropFace (P : DropsPar F) (air : Space F) (cloud : Cloud F) (g : Grid F R) (f : Nat) : Res (Grid F R) :=
  let stall := g.getData 0 f "Stall".toList
  if stall > P.stallThr then do
    let res ← dropFlight P air cloud g f
    if res.status = 'C' then
      match res.face with
      | none => .error .attr
      | some h => do
        let tri2 ← g.triangle h
        if tri2.area P.sqrt = 0 then .error .zeroDiv
        else .ok (g.setData h "MImp2".toList (stall / tri2.area P.sqrt))
    else .ok g
  else .ok g

/-- `convert_grid_stall_to_check_point`, grid.py 588-596. -/
def stallToCheckPoint (g : Grid F R) : Res (Grid F R) :=
  g.faces.foldlM (fun g f => do
    let d ← ["Stall", "StallD", "StallVX", "StallVY", "StallVZ"].foldlM (fun d k => Py.dictPop d k.toList) (g.fData f)
    .ok { g with fData := upd g.fData f d }) g

/-- `clean_t_hw_hi`, grid.py 600-608. -/
def cleanTHwHi (g : Grid F R) : Grid F R :=
  g.faces.foldl (fun g f => ((g.setData f "T".toList 0).setData f "Hw".toList 0).setData f "Hi".toList 0) g

/-- `drops` between loading and storing, drops.py 262-265, 274-295. -/
def drops (P : DropsPar F) (ds : List (Vec F × Vec F)) (g : Grid F R) : Res (Grid F R) := do
  let tris ← g.faces.mapM g.triangle
  let cloud ← Cloud.ofList tris
  let air ← Space.make ds
  let g ← g.faces.foldlM (dropFace P air cloud) g
  let g ← g.stallToCheckPoint
  .ok g.cleanTHwHi

end Grid
end Verif
