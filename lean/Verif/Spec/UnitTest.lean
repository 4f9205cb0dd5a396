import Verif.Spec.Transform
import Verif.Spec.Session
import Verif.Model.UnitTest

/-! Specification of the unit test of transformations. -/

namespace Verif
variable {F R : Type}

/-- `f` is the first face in the list whose first edge has `k` faces, and `e` is this edge. -/
def FirstWith (g : Grid F R) (k f e : Nat) : Prop :=
  ∃ l1 l2 es, g.faces = l1 ++ f :: l2 ∧ g.fEdges f = e :: es ∧ (g.eFaces e).length = k ∧
    ∀ h ∈ l1, ∀ e' es', g.fEdges h = e' :: es' → (g.eFaces e').length ≠ k

/-- `p` is the centre of gravity of the corners of `f`. -/
def IsCentroid [Field F] (g : Grid F R) (f : Nat) (p : Vec F) : Prop :=
  ∃ a b c, g.fNodes f = [a, b, c] ∧ p.x = ((g.nP a).x + (g.nP b).x + (g.nP c).x) / 3 ∧
    p.y = ((g.nP a).y + (g.nP b).y + (g.nP c).y) / 3 ∧ p.z = ((g.nP a).z + (g.nP b).z + (g.nP c).z) / 3

/-- The three assertions of a part of the test, for nodes, edges and faces: the number of objects has changed by the given number, and
the identifiers after the transformation pass the check. -/
def Passes (g g' : Grid F R) (dn de df : Int) : Prop :=
  UnitTest.checkGloId (g.nodes.map g.nGlo) (g'.nodes.map g'.nGlo) dn = true ∧
  UnitTest.checkGloId (g.edges.map g.eGlo) (g'.edges.map g'.eGlo) de = true ∧
  UnitTest.checkGloId (g.faces.map g.fGlo) (g'.faces.map g'.fGlo) df = true

end Verif
