import Verif.Model.Zam

/-! Kinds of edges with respect to zones. -/

namespace Verif
variable {F R : Type}

/-- The edge has two faces, one in zone `z0`, the other in zone `z1`. -/
def Between (g : Grid F R) (z0 z1 e : Nat) : Prop :=
  ∃ a b, (g.eFaces e = [a, b] ∨ g.eFaces e = [b, a]) ∧ g.fZone a = some z0 ∧ g.fZone b = some z1

/-- The edge has one face, in zone `z`. -/
def BorderOf (g : Grid F R) (z e : Nat) : Prop := ∃ a, g.eFaces e = [a] ∧ g.fZone a = some z

/-- Every edge has one or two faces, all of them in listed zones. -/
def EdgesIn (g : Grid F R) (es zs : List Nat) : Prop :=
  ∀ e ∈ es, ((g.eFaces e).length = 1 ∨ (g.eFaces e).length = 2) ∧ ∀ f ∈ g.eFaces e, ∃ z ∈ zs, g.fZone f = some z

/-- Element of the matrix. -/
def Zam.entry (a : Zam) (i j : Nat) : Option Nat := (a.m[i]?).bind (fun row => row[j]?)

open Classical in
/-- Number of elements of a list satisfying a property. -/
noncomputable def howMany {α : Type} (p : α → Prop) (l : List α) : Nat := (l.filter (fun x => decide (p x))).length

end Verif
