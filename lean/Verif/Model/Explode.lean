import Verif.Model.Geom
import Verif.Model.Grid

/-! `Grid.move_from_mean_point`, grid.py 1095-1122. Numbers are a field. -/

namespace Verif
variable {F R : Type} [Field F] [DecidableEq F]

namespace Grid

/-- `mean_p`, grid.py 1107-1108: `sum(..., start=Vect()) / len(nodes)`. -/
def meanP (g : Grid F R) (ns : List Nat) : Res (Vec F) :=
  ((ns.map g.nP).foldl Vec.add ⟨0, 0, 0⟩).div (ns.length : F)

/-- `n.P += shift`, grid.py 1122. There is no `__iadd__`, so a new vector is made; `RoundedCoords` is not updated. -/
def shiftNode (shift : Vec F) (g : Grid F R) (n : Nat) : Grid F R := { g with nP := upd g.nP n ((g.nP n).add shift) }

/-- The body of the loop over zones, grid.py 1114-1122. -/
def explodeZone (gMean : Vec F) (k : F) (g : Grid F R) (z : Nat) : Res (Grid F R) := do
  let zMean ← g.meanP (g.zNodes z)
  .ok ((g.zNodes z).foldl (shiftNode ((zMean.sub gMean).smul k)) g)

/-- `move_from_mean_point`, grid.py 1095-1122. -/
def moveFromMeanPoint (g : Grid F R) (k : F) : Res (Grid F R) := do
  let gMean ← g.meanP g.nodes
  g.zones.foldlM (explodeZone gMean k) g

end Grid
end Verif
