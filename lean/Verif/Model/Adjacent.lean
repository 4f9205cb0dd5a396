import Verif.Model.Grid

/-! The predicate `is_adjacent_with` of `crysgsu/gsu/edge.py`. -/

namespace Verif.Grid
variable {F R : Type}

/-- `is_adjacent_with`, edge.py:135-148. `==` of nodes compares rounded coordinates (node.py:53-66); an edge without two ends is an `IndexError`. -/
def isAdjacentWith [DecidableEq R] (g : Grid F R) (e e' : Nat) : Res Bool := do
  let a0 ← Py.get (g.eNodes e) 0
  let a1 ← Py.get (g.eNodes e) 1
  let b0 ← Py.get (g.eNodes e') 0
  let b1 ← Py.get (g.eNodes e') 1
  pure (g.nodeEq a0 b0 || g.nodeEq a0 b1 || g.nodeEq a1 b0 || g.nodeEq a1 b1)

end Verif.Grid
