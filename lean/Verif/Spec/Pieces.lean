import Verif.Spec.Bfs
import Verif.Spec.Transform
import Mathlib.Data.Set.Card

/-! Specification of the pieces and of the border of a surface. -/

namespace Verif
variable {F R : Type}

/-- One can go from face `f` to face `h` over edges. -/
def Piece (g : Grid F R) (f h : Nat) : Prop := Reach (Adj g) (· ∈ g.faces) f h

/-- The number of pieces of the surface. -/
noncomputable def pieces (g : Grid F R) : Nat := {S : Set Nat | ∃ f ∈ g.faces, S = {h | Piece g f h}}.ncard

/-- The number of edges with one face. -/
def borders (g : Grid F R) : Nat := (g.edges.filter (fun e => (g.eFaces e).length == 1)).length

/-- All edges have two faces. -/
def Closed (g : Grid F R) : Prop := ∀ e ∈ g.edges, (g.eFaces e).length = 2

/-- The faces `fn` of `g'` take the place of the faces `df` of `g` in a piece of the surface; otherwise the pieces are the same. -/
structure SamePieces (df fn : List Nat) (g g' : Grid F R) : Prop where
  kept : ∀ f ∈ g.faces, f ∉ df → ∀ h ∈ g.faces, h ∉ df → (Piece g' f h ↔ Piece g f h)
  new : ∀ f ∈ g.faces, f ∉ df → ∀ d ∈ df, ∀ k ∈ fn, (Piece g' f k ↔ Piece g f d)
  old_one : ∀ d ∈ df, ∀ d' ∈ df, Piece g d d'
  new_one : ∀ k ∈ fn, ∀ k' ∈ fn, Piece g' k k'

/-- The number of border edges which a transformation adds: an edge with one face is cut in two or three. -/
def Op.newBorders (g : Grid F R) : Op F → Nat
  | .cutSingle e _ => if (g.eFaces e).length = 1 then 1 else 0
  | .cutTwo e _ _ => if (g.eFaces e).length = 1 then 2 else 0
  | _ => 0

/-- `g'` is obtained from `g` by applicable transformations other than `collapse_edge`. -/
inductive Refinement [DecidableEq R] (rc : Vec F → R) (mid : Vec F → Vec F → Vec F) (dist : Vec F → Vec F → F) (gt : F → F → Bool)
    (g : Grid F R) : Grid F R → Prop
  | refl : Refinement rc mid dist gt g g
  | step {g' g'' : Grid F R} (o : Op F) : Refinement rc mid dist gt g g' → (∀ e, o ≠ .shrink e) → o.Applicable rc mid dist gt g' →
      o.run rc mid dist gt g' = .ok g'' → Refinement rc mid dist gt g g''

end Verif
