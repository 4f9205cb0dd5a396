import Verif.Py

/-! Points, `crysgsu/geom/vect.py`. -/

namespace Verif

/-- `geom.Vect`, vect.py: three components of an arbitrary number type. -/
structure Vec (F : Type) where
  x : F
  y : F
  z : F
deriving DecidableEq, Repr

/-- `p[i]` of a `Vect` for the three indexes used by the code (vect.py `__getitem__`). -/
def Vec.get {F : Type} (v : Vec F) : Fin 3 → F
  | 0 => v.x
  | 1 => v.y
  | 2 => v.z

end Verif
