import Verif.Model.CrysMain

/-! The C++ library of `crys.py`, `crysgsu/cpp/src/swim.cpp`. The wrapper (`swim.i`, `numpy.i`) passes the lengths and the memory of three
arrays, which are changed in place. -/

namespace Verif.Swim
variable {F : Type} [Add F]

/-- `a[i] += x`. Access outside of an array is undefined in C++; in the model it is an error. -/
def bump (a : List F) (i : Nat) (x : F) : Res (List F) :=
  match a[i]? with
  | some v => .ok (a.set i (v + x))
  | none => .error .index

/-- One turn of the loop, swim.cpp 18-20. -/
def turn [OfNat F 1] [OfNat F 2] [OfNat F 3] (s : List F × List F × List F) (i : Nat) : Res (List F × List F × List F) := do
  let a ← bump s.1 i 1
  let b ← bump s.2.1 i 2
  let c ← bump s.2.2 i 3
  .ok (a, b, c)

/-- `hi`, swim.cpp 9-23: the number of turns is the length of the first array; the other lengths are not used. -/
def hi [OfNat F 1] [OfNat F 2] [OfNat F 3] (a1 a2 a3 : List F) : Res (List F × List F × List F) :=
  (List.range a1.length).foldlM turn (a1, a2, a3)

/-- The second array after the call `swim.hi(T[0], HIS[0], HW[0])`, crys.py 201. -/
def heights [OfNat F 1] [OfNat F 2] [OfNat F 3] (t his hw : List F) : List F :=
  match hi t his hw with
  | .ok r => r.2.1
  | .error _ => his

end Verif.Swim
