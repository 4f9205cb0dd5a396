import Verif.Model.Crys
import Verif.Spec.Zam
import Mathlib.Logic.Relation

/-! What an exchange between processes has to do. -/

namespace Verif
variable {F R : Type}

/-- The face `f` is in the zone number `j` and has a common edge with a face of another zone, number `i`. -/
def GhostOf (g : Grid F R) (i j f : Nat) : Prop :=
  i ≠ j ∧ ∃ zi zj e a, g.zones[i]? = some zi ∧ g.zones[j]? = some zj ∧ e ∈ g.edges ∧
    (g.eFaces e = [a, f] ∨ g.eFaces e = [f, a]) ∧ g.fZone a = some zi ∧ g.fZone f = some zj

/-- The executions of the parallel program. -/
def Run (late : Bool) (dflt : F) : Crys.World F R → Crys.World F R → Prop := Relation.ReflTransGen (Crys.Step late dflt)

/-- The process has finished all exchanges. -/
def Done (p : Crys.Proc F R) : Prop := p.cur = none ∧ p.todo = []

/-- Every zone has a common edge with another zone. -/
def NoneAlone (g : Grid F R) : Prop := ∀ i < g.zones.length, ∃ j f, GhostOf g i j f

end Verif
