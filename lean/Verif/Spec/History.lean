import Verif.Model.Grid

/-! Sequences of decompositions. -/

namespace Verif
variable {F R : Type}

/-- A call of one of the decomposition methods with all its arguments; `rand` are the numbers drawn by
`decompose_random`. -/
inductive DecompCall (S : Type) where
  | mono (newName : Option Str)
  | random (rand : Nat → Nat) (count : Nat) (newName : Option Str)
  | linear (count : Int) (newName : Option Str)
  | farhat (count : Nat) (newName : Option Str) (fixed : List Str)
  | hierarchical (fns : List (Nat → S)) (levels : Nat) (newName : Option Str) (fixed : List Str)

/-- The drawn numbers are in the range given to `randint`. -/
def DecompCall.Possible {S : Type} : DecompCall S → Prop
  | .random rand count _ => ∀ i, 0 < count → rand i < count
  | _ => True

/-- Run one call. -/
def DecompCall.run {S : Type} [LT S] [LE S] [DecidableLT S] [DecidableLE S] (g : Grid F R) :
    DecompCall S → Res (Grid F R)
  | .mono nm => g.decomposeMono nm
  | .random rand count nm => g.decomposeRandom rand count nm
  | .linear count nm => g.decomposeLinear count nm
  | .farhat count nm fixed => g.decomposeFarhat count nm fixed
  | .hierarchical fns levels nm fixed => g.decomposeHierarchical fns levels nm fixed

end Verif
