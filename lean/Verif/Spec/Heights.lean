import Verif.Spec.Remesh

/-! What the smoothing of heights has to do, in terms of the ice that goes over the edges. -/

namespace Verif
variable {F R : Type} [Field F] [LinearOrder F]

/-- The ice that goes from the face `x` to the face `y`, `h x ≥ h y`: the part `beta` of the difference of the heights, at most the part
`alfa` of the greatest height, times the area of `x` in the middle of its ice. -/
def passes (P : RemeshPar F) (maxH : F) (s : Ice F R) (x y : Nat) : F :=
  P.hsmoothBeta * (min (s.fShift x - s.fShift y) (P.hsmoothAlfa * maxH) *
    (if s.fShift x = 0 then faceArea P.sqrt s.g x else s.chunk x / s.fShift x))

/-- The ice the face `f` gets over the edge `e`; it is negative if the face gives it away. -/
def getsOver (P : RemeshPar F) (maxH : F) (s : Ice F R) (f e : Nat) : F :=
  match s.g.eFaces e with
  | [x, y] =>
    if f ≠ x ∧ f ≠ y then 0
    else if s.fShift x < s.fShift y then (if f = y then -passes P maxH s y x else passes P maxH s y x)
    else if f = x then -passes P maxH s x y else passes P maxH s x y
  | _ => 0

/-- The greatest height. -/
def Greatest (s : Ice F R) (m : F) : Prop := (∃ f ∈ s.g.faces, s.fShift f = m) ∧ ∀ f ∈ s.g.faces, s.fShift f ≤ m

end Verif
