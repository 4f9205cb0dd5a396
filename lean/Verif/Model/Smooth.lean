import Verif.Model.Geom
import Verif.Model.Grid

/-! The base class `Smoothing` of `crysgsu/smoothing.py`. (The only subclass is in `Model/Remesh.lean`, `nullSpaceSmoothing`.) -/

namespace Verif
variable {F R : Type}

namespace Smooth

/-- `name_of_iteration`, smoothing.py:35-40. -/
def nameOfIteration (i : Nat) : Str :=
  let s := Py.natStr i
  Py.slice "000".toList none (some (-(s.length : Int))) ++ s

/-- The name of the file of an iteration, smoothing.py:79-80; `nm` is `self.__name__`. -/
def fileName (nm : Str) (i : Nat) : Str := nm ++ "_smoothing_".toList ++ nameOfIteration i ++ ".dat".toList

variable [Field F]

/-- `move_node`, smoothing.py:50-66. `node.P + shift` is a new vector; `RoundedCoords` is not updated. -/
def moveNode (fix : Bool) (g : Grid F R) (p : Nat × Vec F) : Grid F R :=
  if fix = true then
    if g.nBorder p.1 = true then g else { g with nP := upd g.nP p.1 ((g.nP p.1).add p.2) }
  else { g with nP := upd g.nP p.1 ((g.nP p.1).add p.2) }

/-- `apply_shifts`, smoothing.py:84-94. -/
def applyShifts (fix : Bool) (g : Grid F R) (shifts : List (Vec F)) : Res (Grid F R) :=
  if g.nodes.length = shifts.length then .ok ((g.nodes.zip shifts).foldl (moveNode fix) g) else .error .assertion

end Smooth
end Verif
