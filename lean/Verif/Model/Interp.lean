import Verif.Model.Geom
import Verif.Model.Drops

/-! Transfer of face data between grids: `convert/interpolate.py` and `convert/lazurit_add_beta_from_ansys.py`. -/

namespace Verif
variable {F R : Type} [Field F] [LinearOrder F]

namespace Interp

/-- `face_centered_interpolation`, interpolate.py 48-76. `query` is `KDTree(points).query(point)[1]`: the number of the nearest of the
points, or the number of points if there is none. -/
def transfer (query : List (Vec F) → Vec F → Nat) (src dst : Grid F R) : Res (Grid F R) := do
  let cs ← src.faces.mapM (fun f => do
    let t ← src.triangle f
    .ok t.centroid)
  let ds ← dst.faces.mapM (fun f => do
    let t ← dst.triangle f
    .ok t.centroid)
  (dst.faces.zip ds).foldlM (fun g p => do
    let s ← Py.get src.faces (query cs p.2 : Int)
    let g := g.setData p.1 "T".toList (src.getData 0 s "T".toList)
    .ok (g.setData p.1 "Hw".toList (src.getData 0 s "Hw".toList))) dst

/-- `a.argmin()`: the first of the smallest numbers; `ValueError` for no numbers. -/
def argmin (l : List F) : Res Nat :=
  match l with
  | [] => .error .value
  | x :: t => .ok ((x :: t).idxOf (t.foldl min x))

/-- `Face.get_center`, face.py 124-133. -/
def center (g : Grid F R) (f : Nat) : Res (Vec F) := do
  let a ← Py.get (g.fNodes f) 0
  let b ← Py.get (g.fNodes f) 1
  let c ← Py.get (g.fNodes f) 2
  let a := g.nP a
  let b := g.nP b
  let c := g.nP c
  .ok ⟨(a.x + b.x + c.x) / 3, (a.y + b.y + c.y) / 3, (a.z + b.z + c.z) / 3⟩

/-- The loop of lazurit_add_beta_from_ansys.py 73-77. -/
def addBeta (src dst : Grid F R) : Res (Grid F R) := do
  let ad ← src.faces.mapM (fun f => do
    let c ← center src f
    .ok (c, src.getData 0 f "Beta".toList))
  dst.faces.foldlM (fun g f => do
    let c ← center g f
    let i ← argmin (ad.map (fun a => (c.sub a.1).mod2))
    let a ← Py.get ad (i : Int)
    .ok (g.setData f "Beta".toList a.2)) dst

end Interp
end Verif
