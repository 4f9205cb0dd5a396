import Verif.Spec.Transform
import Verif.Spec.History
import Verif.Spec.Text
import Mathlib.Order.Defs.LinearOrder

/-! Sessions: decompositions, transformations, changes of data, and storing and loading, in any order. -/

namespace Verif
open Grid
variable {F R : Type}

/-- Every node is a corner of a face. -/
def Covered (g : Grid F R) : Prop := ∀ n ∈ g.nodes, ∃ f ∈ g.faces, n ∈ g.fNodes f

/-- The surface has no border: every edge has two faces. -/
def ClosedSurface (g : Grid F R) : Prop := ∀ e ∈ g.edges, (g.eFaces e).length = 2

/-- The grid has faces, and its names can be written to a file. -/
structure Named (g : Grid F R) : Prop where
  faces : g.faces ≠ []
  name : PlainName g.name
  zoneNames : ∀ z ∈ g.zones, PlainName (g.zName z)
  vars : ∀ v ∈ g.vars, PlainVar v
  dict : g.vars.Nodup

/-- The functions and constants a session depends on: rounding of points, the middle of two points, the distance of two points,
comparison of numbers, the text of numbers, and the value of missing data. -/
structure World (F R : Type) where
  rc : Vec F → R
  mid : Vec F → Vec F → Vec F
  dist : Vec F → Vec F → F
  gt : F → F → Bool
  codec : Codec F
  dflt : F

/-- `Session w S g b g'`: the grid `g'` can be reached from the grid `g`. The flag `b` tells that no transformation across the
border of two zones was carried out since the last decomposition or loading. -/
inductive Session [DecidableEq R] (w : World F R) (S : Type) [LinearOrder S] (g : Grid F R) : Bool → Grid F R → Prop
  | start : Session w S g true g
  /-- a successful decomposition -/
  | decompose {b : Bool} {g1 g2 : Grid F R} (c : DecompCall S) : Session w S g b g1 → c.Possible → c.run g1 = .ok g2 →
      Session w S g true g2
  /-- a transformation within one zone -/
  | inside {b : Bool} {g1 g2 : Grid F R} (o : Op F) : Session w S g b g1 → o.Applicable w.rc w.mid w.dist w.gt g1 →
      o.InZone w.dist w.gt g1 → o.run w.rc w.mid w.dist w.gt g1 = .ok g2 → Session w S g b g2
  /-- any other transformation -/
  | across {b : Bool} {g1 g2 : Grid F R} (o : Op F) : Session w S g b g1 → o.Applicable w.rc w.mid w.dist w.gt g1 →
      o.run w.rc w.mid w.dist w.gt g1 = .ok g2 → Session w S g false g2
  /-- any change of the data of faces -/
  | data {b : Bool} {g1 : Grid F R} (d : Nat → List (Str × F)) : Session w S g b g1 → Session w S g b { g1 with fData := d }
  /-- storing the grid to a file and loading the file with merging into any grid object -/
  | reload {g1 g2 : Grid F R} (text : Str) (old : Grid F R) : Session w S g true g1 → Named g1 →
      g1.storeText w.codec w.dflt = .ok text → loadText w.rc w.codec true old text = .ok g2 → Session w S g true g2

end Verif
