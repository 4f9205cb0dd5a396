import Verif.Model.Grid

/-! Model of `crysgsu/gsu/zones_adjacency_matrix.py` and of the edge predicates of `crysgsu/gsu/edge.py`. -/

namespace Verif
variable {F R : Type}

namespace Grid

/-- `is_border`, edge.py:44-54. -/
def isBorder (g : Grid F R) (e : Nat) : Bool := decide ((g.eFaces e).length = 1)

/-- `is_cross`, edge.py:58-76. -/
def isCross (g : Grid F R) (e : Nat) : Res Bool :=
  match g.eFaces e with
  | [_] => .ok false
  | [a, b] => .ok (decide (g.fZone a ≠ g.fZone b))
  | _ => .error (.exc "Edge cannot has {0} neighbours faces.")

/-- `is_inner`, edge.py:80-98. -/
def isInner (g : Grid F R) (e : Nat) : Res Bool :=
  match g.eFaces e with
  | [_] => .ok false
  | [a, b] => .ok (decide (g.fZone a = g.fZone b))
  | _ => .error (.exc "Edge cannot has {0} neighbours faces.")

/-- `is_outer`, edge.py:102-111. -/
def isOuter (g : Grid F R) (e : Nat) : Res Bool := do
  let b ← g.isInner e
  pure (!b)

/-- `is_connect_zones`, edge.py:115-131, for two zone objects. -/
def isConnectZones (g : Grid F R) (e z0 z1 : Nat) : Bool :=
  match g.eFaces e with
  | [a, b] => (decide (some z0 = g.fZone a) && decide (some z1 = g.fZone b)) ||
              (decide (some z0 = g.fZone b) && decide (some z1 = g.fZone a))
  | _ => false

end Grid

/-- `ZonesAdjacencyMatrix`: zones count and matrix. -/
structure Zam where
  n : Nat
  m : List (List Nat)

namespace Zam

/-- `M[i][j] += 1`. Both indexes are always within the matrix (they come from `zs.index` or are
`ZonesCount`). -/
def bump (m : List (List Nat)) (i j : Nat) : List (List Nat) := m.modify i (fun row => row.modify j (· + 1))

/-- `inc`, zones_adjacency_matrix.py:59-70. -/
def inc (a : Zam) (i j : Nat) : Zam :=
  let m := bump a.m i j
  { a with m := if i ≠ j then bump m j i else m }

/-- `inc_border`, zones_adjacency_matrix.py:74-81. -/
def incBorder (a : Zam) (i : Nat) : Zam := a.inc i a.n

/-- `zs.index(f.Zone)`; `None` and foreign zones are not in the list. -/
def zoneIndex (g : Grid F R) (zs : List Nat) (f : Nat) : Res Nat :=
  match g.fZone f with
  | none => .error .value
  | some z => Py.index zs z

/-- Loop body of the constructor, zones_adjacency_matrix.py:44-55. -/
def addEdge (g : Grid F R) (zs : List Nat) (a : Zam) (e : Nat) : Res Zam :=
  match g.eFaces e with
  | [f0] => do
    let z0 ← zoneIndex g zs f0
    pure (a.incBorder z0)
  | [f0, f1] => do
    let z0 ← zoneIndex g zs f0
    let z1 ← zoneIndex g zs f1
    pure (a.inc z0 z1)
  | _ => .error (.exc "Wrong edge faces count")

/-- `ZonesAdjacencyMatrix(es, zs)`, zones_adjacency_matrix.py:27-55. -/
def make (g : Grid F R) (es zs : List Nat) : Res Zam :=
  es.foldlM (addEdge g zs) ⟨zs.length, List.replicate (zs.length + 1) (List.replicate (zs.length + 1) 0)⟩

/-- `M[i]` for a row number known to be in range. -/
def row (a : Zam) (i : Nat) : List Nat := (a.m[i]?).getD []

/-- Counts of `edges_statistics`, zones_adjacency_matrix.py:101-115: border, inner and cross edges. -/
def counts (a : Zam) : Nat × Nat × Nat :=
  (List.range a.n).foldl (fun (s : Nat × Nat × Nat) i =>
    (s.1 + ((a.row i)[a.n]?).getD 0, s.2.1 + ((a.row i)[i]?).getD 0,
     s.2.2 + (((a.row i).take a.n).drop (i + 1)).sum)) (0, 0, 0)

/-- `edges_statistics`, zones_adjacency_matrix.py:85-120, percentages computed in the number type `K`. -/
def edgesStatistics {K : Type} [NatCast K] [Mul K] [Div K] [OfNat K 100] (a : Zam) :
    Res (Nat × Nat × Nat × Nat × K × K × K) :=
  let c := a.counts
  let ec := c.1 + c.2.1 + c.2.2
  if ec = 0 then .error .zeroDiv
  else .ok (ec, c.1, c.2.1, c.2.2, 100 * (c.1 : K) / (ec : K), 100 * (c.2.1 : K) / (ec : K), 100 * (c.2.2 : K) / (ec : K))

/-- `zone_cross_edges_array`, zones_adjacency_matrix.py:139-152. -/
def crossArray (a : Zam) (zi : Nat) : List Nat := ((a.row zi).set zi 0).set a.n 0

/-- `zone_cross_edges_count`, zones_adjacency_matrix.py:179-187. -/
def crossCount (a : Zam) (zi : Nat) : Nat := (a.crossArray zi).sum

/-- `zone_cross_borders_count`, zones_adjacency_matrix.py:191-199. -/
def crossBorders (a : Zam) (zi : Nat) : Nat := ((a.crossArray zi).filter (fun x => decide (0 < x))).length

/-- `zone_max_cross_border_len`, zones_adjacency_matrix.py:156-164: `max` of a non-empty list. -/
def maxBorder (a : Zam) (zi : Nat) : Nat := (a.crossArray zi).foldl max 0

/-- `max_cross_border_len`, zones_adjacency_matrix.py:168-175; `max([])` raises `ValueError`. -/
def maxBorderAll (a : Zam) : Res Nat :=
  if a.n = 0 then .error .value
  else .ok (((List.range a.n).map a.maxBorder).foldl max 0)

end Zam
end Verif
