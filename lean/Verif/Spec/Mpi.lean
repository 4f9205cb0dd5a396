import Verif.Model.Mpi

/-! Reading of the numbers in an MPI file. -/

namespace Verif

/-- The local number `x` (from 0) denotes the object `o` of the list. -/
def Denotes (l : List Nat) (x : Int) (o : Nat) : Prop := 0 ≤ x ∧ l[x.toNat]? = some o

end Verif
