import Verif.Model.Grid
import Mathlib.Algebra.Field.Basic

/-! Mean points. -/

namespace Verif
variable {F R : Type} [Field F]

/-- `m` is the arithmetic mean of the points of the nodes. -/
def IsMean (P : Nat → Vec F) (ns : List Nat) (m : Vec F) : Prop :=
  ns ≠ [] ∧ (ns.map (fun n => (P n).x)).sum = ns.length * m.x ∧ (ns.map (fun n => (P n).y)).sum = ns.length * m.y ∧
    (ns.map (fun n => (P n).z)).sum = ns.length * m.z

/-- No node is in two zones. -/
def ZonesApart (g : Grid F R) : Prop := ∀ z ∈ g.zones, ∀ z' ∈ g.zones, z ≠ z' → ∀ n ∈ g.zNodes z, n ∉ g.zNodes z'

end Verif
