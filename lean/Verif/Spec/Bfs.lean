import Verif.Model.Grid

/-! Specification of breadth-first paths. -/

namespace Verif
variable {F R : Type}

/-- Two different faces share an edge of the grid. -/
def Adj (g : Grid F R) (f f' : Nat) : Prop := f ≠ f' ∧ ∃ e ∈ g.edges, f ∈ g.eFaces e ∧ f' ∈ g.eFaces e

/-- `b` can be reached from `a` by going from face to adjacent face, all of them satisfying `p`. -/
inductive Reach (adj : Nat → Nat → Prop) (p : Nat → Prop) : Nat → Nat → Prop
  | refl {a : Nat} : p a → Reach adj p a a
  | step {a b c : Nat} : Reach adj p a b → adj b c → p c → Reach adj p a c

/-- Every element of the list but the first is adjacent to an earlier one. -/
def Grown (adj : Nat → Nat → Prop) (l : List Nat) : Prop :=
  ∀ j f, 0 < j → l[j]? = some f → ∃ k f', k < j ∧ l[k]? = some f' ∧ adj f' f

/-- `l` lists exactly one maximal connected group of faces satisfying `p`, growing it face by face. -/
def IsGroup (adj : Nat → Nat → Prop) (p : Nat → Prop) (l : List Nat) : Prop :=
  ∃ h t, l = h :: t ∧ l.Nodup ∧ (∀ f, f ∈ l ↔ Reach adj p h f) ∧ Grown adj l

/-- A path visiting exactly the faces of the grid satisfying `p`, group by group. -/
structure PathOf (g : Grid F R) (p : Nat → Prop) (path : List Nat) : Prop where
  nodup : path.Nodup
  mem : ∀ f, f ∈ path ↔ f ∈ g.faces ∧ p f
  groups : ∃ gs : List (List Nat), path = gs.flatten ∧ ∀ c ∈ gs, IsGroup (Adj g) (fun f => f ∈ g.faces ∧ p f) c

/-- Any two elements of the list are connected inside the list. -/
def Connected (adj : Nat → Nat → Prop) (l : List Nat) : Prop :=
  ∀ a ∈ l, ∀ b ∈ l, Reach adj (· ∈ l) a b

end Verif
