import Verif.Spec.Cases
import Verif.Spec.Grid
import Mathlib.Data.Set.Function

/-! When two files are the same up to the order of what is in them, and when two grids are the same up to the numbering of objects. -/

namespace Verif
variable {F R : Type}

/-- Both files have the same zones, up to the order of the zones and the order of the faces in a zone, and points at the same places. How
the points are numbered and how often they are repeated does not matter: a face is given by its data and the places of its corners. -/
structure SameContents (rc : Vec F → R) (l l' : List (ZoneBlock F)) : Prop where
  zones : ∃ m, m.Perm (contents rc l) ∧ List.Forall₂ (fun a b => a.1 = b.1 ∧ a.2.Perm b.2) m (contents rc l')
  places : ∀ k, (∃ b ∈ l, ∃ p ∈ b.pts, rc p = k) ↔ ∃ b ∈ l', ∃ p ∈ b.pts, rc p = k

/-- `n`, `e`, `f`, `z` number the nodes, edges, faces and zones of `g` as those of `h`; everything else is the same, coordinates up to
rounding. -/
structure Renumbers (rc : Vec F → R) (g h : Grid F R) (n e f z : Nat → Nat) : Prop where
  nodes : Set.BijOn n {x | x ∈ g.nodes} {x | x ∈ h.nodes}
  edges : Set.BijOn e {x | x ∈ g.edges} {x | x ∈ h.edges}
  faces : Set.BijOn f {x | x ∈ g.faces} {x | x ∈ h.faces}
  zones : Set.BijOn z {x | x ∈ g.zones} {x | x ∈ h.zones}
  place : ∀ x ∈ g.nodes, rc (h.nP (n x)) = rc (g.nP x)
  corners : ∀ x ∈ g.faces, h.fNodes (f x) = (g.fNodes x).map n
  data : ∀ x ∈ g.faces, h.fData (f x) = g.fData x
  zone : ∀ x ∈ g.faces, h.fZone (f x) = (g.fZone x).map z
  names : ∀ x ∈ g.zones, h.zName (z x) = g.zName x
  ends : ∀ y ∈ g.edges, ∀ x ∈ g.nodes, n x ∈ h.eNodes (e y) ↔ x ∈ g.eNodes y
  sides : ∀ y ∈ g.edges, ∀ x ∈ g.faces, f x ∈ h.eFaces (e y) ↔ x ∈ g.eFaces y

end Verif
