import Verif.Model.Grid
import Mathlib.Data.List.Forall2

/-! What is left of the zones of a grid when its file is cut short. -/

namespace Verif
variable {F R : Type}

/-- Face `f'` of `g'` has the data and, in order, exactly the corner positions of face `f` of `g`. -/
def KeptFace (g g' : Grid F R) (f f' : Nat) : Prop :=
  g'.fData f' = g.fData f ∧ (g'.fNodes f').map g'.nP = (g.fNodes f).map g.nP

/-- Zone `z'` of `g'` has the name of zone `z` of `g` and all its faces. -/
def KeptZone (g g' : Grid F R) (z z' : Nat) : Prop :=
  g'.zName z' = g.zName z ∧ List.Forall₂ (KeptFace g g') (g.zFaces z) (g'.zFaces z')

/-- Zone `z'` of `g'` has the name of zone `z` of `g` and all its faces, but the last number of the file has lost `i` digits:
the third corner of the last face should be node number `k` of the zone (counting from 1) and is node number `k / 10 ^ i`. -/
def ShortZone (g g' : Grid F R) (z z' : Nat) : Prop :=
  g'.zName z' = g.zName z ∧ ∃ fs f fs' f' a b m n k i, g.zFaces z = fs ++ [f] ∧ g'.zFaces z' = fs' ++ [f'] ∧
    List.Forall₂ (KeptFace g g') fs fs' ∧ g'.fData f' = g.fData f ∧
    g.fNodes f = [a, b, m] ∧ 1 ≤ k ∧ (g.zNodes z)[k - 1]? = some m ∧
    1 ≤ k / 10 ^ i ∧ (g.zNodes z)[k / 10 ^ i - 1]? = some n ∧
    (g'.fNodes f').map g'.nP = [g.nP a, g.nP b, g.nP n]

end Verif
