import Verif.Model.Mpi
import Verif.Model.Text

/-! How a program of a zone reads its `.cry` file: lines in a fixed order; the numbers in the head say how many lines
follow. Nothing here uses the writer. -/

namespace Verif.Cry
variable {F : Type}

/-- The value of a line `label value`, without the line end. -/
def field (label : Str) (l : Str) : Option Str :=
  if l.take label.length = label ∧ l.getLast? = some '\n' then some (l.drop label.length).dropLast else none

/-- The number of a line `label=number`. -/
def count (label : Str) (l : Str) : Option Nat :=
  match field label l with
  | none => none
  | some w => match Py.int w with
    | .ok i => if 0 ≤ i then some i.toNat else none
    | .error _ => none

/-- The text between quotes of a line `label"text"`. -/
def quoted (label : Str) (l : Str) : Option Str :=
  match field label l with
  | none => none
  | some w => if 2 ≤ w.length ∧ w.head? = some '"' ∧ w.getLast? = some '"' then some (w.drop 1).dropLast else none

/-- The words of a line, each read by `p`. -/
def row {α : Type} (p : Str → Res α) (l : Str) : Option (List α) :=
  match (Py.splitWs l).mapM p with
  | .ok vs => some vs
  | .error _ => none

/-- A border: `[zone] edge edge …`. -/
def border (l : Str) : Option (Nat × List Int) :=
  match Py.splitWs l with
  | [] => none
  | w :: ws =>
    if 2 ≤ w.length ∧ w.head? = some '[' ∧ w.getLast? = some ']' then
      match Py.int (w.drop 1).dropLast, ws.mapM Py.int with
      | .ok i, .ok es => if 0 ≤ i then some (i.toNat, es) else none
      | _, _ => none
    else none

/-- A natural number. -/
def natural (w : Str) : Res Nat :=
  match Py.int w with
  | .ok i => if 0 ≤ i then .ok i.toNat else .error .value
  | .error e => .error e

/-- The line with the names of variables. -/
def varLine : Str :=
  "VARIABLES=\"X\", \"Y\", \"Z\", \"GloId\", \"T\", \"Hw\", \"Hi\", \"HTC\", \"Beta\", \"MImp2\", \"Vd2\", \"TauX\", \"TauY\", \"TauZ\", \"RecoveryFactor\"\n".toList

/-- What follows after the eleven rows of data. -/
def lists (nf ne : Nat) (ls : List Str) : Option (List (List Int) × List (List Int) × List (List Int) × Nat × List (Nat × List Int)) :=
  match ls with
  | [] => none
  | h1 :: ls => do
    guard (h1 = "FACE-NODE CONNECTIVITY LIST:\n".toList)
    let fn ← (ls.take nf).mapM (row Py.int)
    match ls.drop nf with
    | [] => none
    | h2 :: ls =>
      guard (h2 = "FACE-EDGE CONNECTIVITY LIST:\n".toList)
      let fe ← (ls.take nf).mapM (row Py.int)
      match ls.drop nf with
      | [] => none
      | h3 :: ls =>
        guard (h3 = "EDGE-NODE CONNECTIVITY LIST:\n".toList)
        let en ← (ls.take ne).mapM (row Py.int)
        match ls.drop ne with
        | [] => none
        | h4 :: ls =>
          let nb ← count "MPI-BORDERS=".toList h4
          guard (ls.length = nb)
          let bs ← ls.mapM border
          pure (fn, fe, en, nb, bs)

/-- The contents of the file. -/
def read (c : Codec F) (text : Str) : Option (MpiFile F) :=
  match Py.readlines text with
  | l1 :: l2 :: l3 :: l4 :: l5 :: l6 :: l7 :: l8 :: x :: y :: z :: l12 :: ids :: ls => do
    let title ← quoted "TITLE=".toList l1
    guard (l2 = varLine)
    let mpi ← count "MPI=".toList l3
    let nn ← count "NODES=".toList l4
    let ne ← count "EDGES=".toList l5
    let nx ← count "CROSS-EDGES=".toList l6
    let nf ← count "FACES=".toList l7
    guard (l8 = "NODES COORDINATES:\n".toList)
    let coords ← [x, y, z].mapM (row c.parse)
    guard (∀ r ∈ coords, r.length = nn)
    guard (l12 = "FACES DATA:\n".toList)
    let glo ← row natural ids
    guard (glo.length = nf)
    let data ← (ls.take 11).mapM (row c.parse)
    guard (∀ r ∈ data, r.length = nf)
    let (fn, fe, en, nb, bs) ← lists nf ne (ls.drop 11)
    pure ⟨title, mpi, nn, ne, nx, nf, coords, glo, data, fn, fe, en, nb, bs⟩
  | _ => none

end Verif.Cry
