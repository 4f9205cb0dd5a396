import Verif.Model.Text
import Verif.Spec.Grid

/-! What is assumed of the text of floats, and which names survive being written to a grid file. -/

namespace Verif
variable {F R : Type}

/-- Reading what was written gives the number back, and the text of a number is one word. -/
structure Codec.Lawful (c : Codec F) : Prop where
  roundtrip : ∀ x, c.parse (c.fmt x) = .ok x
  nonempty : ∀ x, c.fmt x ≠ []
  word : ∀ x, ∀ ch ∈ c.fmt x, Py.isWs ch = false

/-- A title or a zone name without `=` and line ends. -/
def PlainName (s : Str) : Prop := '=' ∉ s ∧ '\n' ∉ s ∧ '\r' ∉ s

/-- A variable name: one word without `=`, quotes and commas. -/
def PlainVar (s : Str) : Prop := s ≠ [] ∧ (∀ c ∈ s, Py.isWs c = false) ∧ '=' ∉ s ∧ '"' ∉ s ∧ ',' ∉ s

/-- The data variables of the file: those of the first face of the grid. -/
def Grid.vars (g : Grid F R) : List Str :=
  match g.faces with
  | [] => []
  | f :: _ => (g.fData f).map Prod.fst

/-- Rounded coordinates tell the nodes apart: all of them, or those of each zone. -/
def KeysApart (rc : Vec F → R) (merge : Bool) (g : Grid F R) : Prop :=
  if merge = true then ∀ n ∈ g.nodes, ∀ m ∈ g.nodes, rc (g.nP n) = rc (g.nP m) → n = m
  else ∀ z ∈ g.zones, ∀ n ∈ g.zNodes z, ∀ m ∈ g.zNodes z, rc (g.nP n) = rc (g.nP m) → n = m

/-- A consistent grid with at least one face whose names can be written to a file. -/
structure Storable (g : Grid F R) : Prop where
  wf : Wf g
  lists : ZoneLists g
  ids : GloPerm g
  faces : g.faces ≠ []
  name : PlainName g.name
  zoneNames : ∀ z ∈ g.zones, PlainName (g.zName z)
  vars : ∀ v ∈ g.vars, PlainVar v
  /-- the keys of a dictionary are different -/
  dict : g.vars.Nodup

/-- All faces have the same data variables in the same order. -/
def SameVars (g : Grid F R) : Prop := ∀ f ∈ g.faces, (g.fData f).map Prod.fst = g.vars

end Verif
