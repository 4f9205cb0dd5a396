import Verif.Model.Utils

/-! Specifications for the properties about `utils.py`. -/

namespace Verif.Spec
open Verif Verif.Utils

/-- Tokens of the text of a nested list: brackets and atoms. -/
inductive Tok (α : Type) where
  | opn
  | cls
  | atom (a : α)

/-- Text of nested lists: every inner list is surrounded by brackets. -/
def tokens {α : Type} : List (Nest α) → List (Tok α)
  | [] => []
  | .list l :: t => .opn :: (tokens l ++ .cls :: tokens t)
  | .leaf a :: t => .atom a :: tokens t

/-- The atoms of a token text. -/
def atoms {α : Type} (ts : List (Tok α)) : List α :=
  ts.filterMap fun t => match t with | .atom a => some a | _ => none

/-- A string of exactly twelve decimal digits. -/
def IsStamp (t : Str) : Prop := t.length = 12 ∧ ∀ c ∈ t, '0' ≤ c ∧ c ≤ '9'

end Verif.Spec
