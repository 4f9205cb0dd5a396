import Verif.Spec.Calc

/-! Directories in which results of some zones are missing. -/

namespace Verif
variable {F : Type}

/-- The directory has, for each of the times, the results of those zones `i` with `has t i` (of at least one), under the
names derived from the name `nm` of the grid, and possibly other files not looking like results for `nm`. -/
structure SomeResults (c : Codec F) (vars : List Str) (nm : Str) (files : List (MpiFile F)) (times : List Nat)
    (has : Nat → Nat → Prop) (res : Nat → Nat → List F) (dir : List (Str × Str)) : Prop where
  names : (dir.map Prod.fst).Nodup
  one : ∀ t ∈ times, ∃ (i : Nat) (m : MpiFile F), files[i]? = some m ∧ has t i
  all : ∀ t ∈ times, ∀ (i : Nat) (m : MpiFile F), files[i]? = some m → has t i →
    (Utils.mpiName nm i (Py.natStrPad 12 t) "txt".toList, resultText c vars (res t) m) ∈ dir
  only : ∀ p ∈ dir, Utils.isCorrectTxt p.1 nm = .ok false ∨
    ∃ t ∈ times, ∃ (i : Nat) (m : MpiFile F), files[i]? = some m ∧ has t i ∧
      p = (Utils.mpiName nm i (Py.natStrPad 12 t) "txt".toList, resultText c vars (res t) m)

/-- The face with identifier `k` has a result at time `t`. -/
def HasResult (files : List (MpiFile F)) (has : Nat → Nat → Prop) (t k : Nat) : Prop :=
  ∃ (i : Nat) (m : MpiFile F), files[i]? = some m ∧ has t i ∧ k ∈ m.gloIds

/-- The values of `d` for the variables `vs`, `dflt` where there is none. -/
def valuesFor (dflt : F) (vs : List Str) (d : List (Str × F)) : List (Str × F) :=
  vs.map (fun v => (v, (Py.dictGet? d v).getD dflt))

end Verif
