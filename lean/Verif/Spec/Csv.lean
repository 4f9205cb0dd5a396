import Verif.Model.Text
import Mathlib.Data.List.OfFn

/-! Tables of numbers and their text. -/

namespace Verif
variable {F : Type}

/-- A table: `n` rows and `m` columns; the first column is the time. -/
abbrev Table (F : Type) (n m : Nat) := Fin n → Fin m → F

/-- The text of a table: a line of names, then a line for every row with the numbers separated by `;`. -/
def Table.text (c : Codec F) {n m : Nat} (head : Str) (T : Table F n m) : Str :=
  head ++ ['\n'] ++ (List.ofFn (fun i => Py.join [';'] (List.ofFn (fun j => c.fmt (T i j))) ++ ['\n'])).flatten

/-- The same for rows of any lengths. -/
def rowsText (c : Codec F) (head : Str) (M : List (List F)) : Str :=
  head ++ ['\n'] ++ (M.map (fun r => Py.join [';'] (r.map c.fmt) ++ ['\n'])).flatten

/-- A line without line ends. -/
def OneLine (s : Str) : Prop := '\n' ∉ s ∧ '\r' ∉ s

/-- The text of a number has no separator and starts no comment. -/
def Codec.NoSep (c : Codec F) : Prop := ∀ x, ';' ∉ c.fmt x ∧ '#' ∉ c.fmt x

/-- The directory has exactly these `.csv` files, in the order in which the names are listed. -/
def HasTables (c : Codec F) {n m : Nat} (dir : List (Str × Str)) (ts : List (Str × Table F n m)) : Prop :=
  List.Forall₂ (fun f t => f.2 = t.2.text c t.1 ∧ OneLine t.1) (dir.filter (fun f => decide (".csv".toList <:+ f.1))) ts

end Verif
