import Verif.Model.Grid
import Mathlib.Order.Defs.LinearOrder

/-! Specification of the median split. -/

namespace Verif

/-- `b` is the element number `len // 2` of the sorted list. -/
def IsMedian {S : Type} [LE S] (l : List S) (b : S) : Prop :=
  ∃ s : List S, s.Perm l ∧ s.Pairwise (· ≤ ·) ∧ s[l.length / 2]? = some b

/-- The sign function `fn` splits the faces `fs` into two non-empty parts: some face is strictly below the
median (the median itself is never below). -/
def Splits {S : Type} [LE S] [LT S] (fs : List Nat) (fn : Nat → S) : Prop :=
  ∃ b, IsMedian (fs.map fn) b ∧ ∃ f ∈ fs, fn f < b

end Verif
