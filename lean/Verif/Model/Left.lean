import Verif.Spec.History

/-! The decompositions once more, this time with the grid they leave behind when they raise.

Every method changes the objects of the grid as it goes, so a caller that catches the exception still holds a grid, half way
through the change.  The results here are either a value or an exception together with that grid.  That the two models agree on
the value and on the exception is proved (`Verif.Proofs.Left`). -/

namespace Verif
variable {F R : Type}

/-- Result of a method that may raise: the value, or the exception and the grid as it is then. -/
abbrev Left (F R : Type) (α : Type) := Except (Err × Grid F R) α

namespace Grid

/-- A step which, if it raises, raises before it has changed anything. -/
def here (g : Grid F R) {α : Type} (r : Res α) : Left F R α :=
  match r with
  | .ok a => .ok a
  | .error e => .error (e, g)

/-- `unlink_faces_from_zones`, grid.py:772-779. -/
def unlinkFacesFromZonesX (g : Grid F R) : Left F R (Grid F R) :=
  g.faces.foldlM (fun g f => g.here (g.unlinkStep f)) g

/-- Body of the first loop of `link_nodes_and_edges_to_zones`, grid.py:758-760. -/
def linkNodeToZonesX (g : Grid F R) (n : Nat) : Left F R (Grid F R) := do
  let ids ← g.here (g.zoneIds (g.nFaces n))
  (dedup ids).foldlM (fun g zid => do
    let z ← g.here (Py.get g.zones zid)
    pure (g.zoneAddNode z n)) g

/-- Body of the second loop of `link_nodes_and_edges_to_zones`, grid.py:764-766. -/
def linkEdgeToZonesX (g : Grid F R) (e : Nat) : Left F R (Grid F R) := do
  let ids ← g.here (g.zoneIds (g.eFaces e))
  (dedup ids).foldlM (fun g zid => do
    let z ← g.here (Py.get g.zones zid)
    pure (g.zoneAddEdge z e)) g

/-- `link_nodes_and_edges_to_zones`, grid.py:744-768. -/
def linkNodesAndEdgesToZonesX (g : Grid F R) : Left F R (Grid F R) := do
  let g := { g with
    zNodes := g.zones.foldl (fun m z => upd m z []) g.zNodes
    zEdges := g.zones.foldl (fun m z => upd m z []) g.zEdges }
  let g := g.setZonesIds
  let g ← g.nodes.foldlM linkNodeToZonesX g
  let g ← g.edges.foldlM linkEdgeToZonesX g
  pure g.resetZonesIds

/-- `post_decompose`, grid.py:794-801. -/
def postDecomposeX (g : Grid F R) : Left F R (Grid F R) := do
  let g ← g.linkNodesAndEdgesToZonesX
  g.here g.checkFacesLinked
  pure g.setZonesIds

/-- `decompose_mono`, grid.py:805-823. `Zone.add_face` (zone.py:166-183) raises, if at all, in its first action. -/
def decomposeMonoX (g : Grid F R) (newName : Option Str := none) : Left F R (Grid F R) := do
  let g := g.rename newName
  let g := { g with zones := [] }
  let g ← g.unlinkFacesFromZonesX
  let z := g.zNext
  let g := g.pushZone "mono".toList
  let g ← g.faces.foldlM (fun g f => g.here (g.zoneAddFace z f)) g
  g.postDecomposeX

/-- `decompose_random`, grid.py:827-848. -/
def decomposeRandomX (g : Grid F R) (rand : Nat → Nat) (count : Nat) (newName : Option Str := none) :
    Left F R (Grid F R) := do
  let g := g.rename newName
  let g := { g with zones := [] }
  let g ← g.unlinkFacesFromZonesX
  let g := g.pushZones (numbered "random ".toList count)
  let g ← g.faces.zipIdx.foldlM (fun (g : Grid F R) (p : Nat × Nat) => do
    if count = 0 then .error (.value, g)
    else
      let z ← g.here (Py.get g.zones (rand p.2 : Int))
      g.here (g.zoneAddFace z p.1)) g
  g.postDecomposeX

/-- Loop of `decompose_linear` over the zones, grid.py:877-883. -/
def linearStepX (fcpz fcrm : Nat) (s : Grid F R × Nat) (p : Nat × Nat) : Left F R (Grid F R × Nat) := do
  let toAdd := if p.2 < fcrm then fcpz + 1 else fcpz
  let g ← (List.range' s.2 toAdd).foldlM (fun (g : Grid F R) (j : Nat) => do
    let f ← g.here (Py.get g.faces (j : Int))
    g.here (g.zoneAddFace p.1 f)) s.1
  pure (g, s.2 + toAdd)

/-- `decompose_linear`, grid.py:852-887. -/
def decomposeLinearX (g : Grid F R) (count : Int) (newName : Option Str := none) : Left F R (Grid F R) := do
  let g := g.rename newName
  let fc := g.faces.length
  if count = 0 then .error (.zeroDiv, g)
  else
    let n := count.toNat
    let fcpz := fc / n
    let fcrm := fc % n
    let g := { g with zones := [] }
    let g ← g.unlinkFacesFromZonesX
    let g := g.pushZones (numbered "linear ".toList n)
    let (g, cur) ← g.zones.zipIdx.foldlM (linearStepX fcpz fcrm) (g, 0)
    if cur ≠ fc then .error (.exc "Wrong linera distribution mathematics.", g)
    else g.postDecomposeX

/-- One round of the loop of `decompose_farhat`, grid.py:1082-1089. Simplification: if `bfs_path` raises, the marks it has set
until then are left out (every `bfs_path` starts with resetting the marks, grid.py:456-458). -/
def farhatStepX (s : Grid F R × Nat) (p : Nat × Nat) : Left F R (Grid F R × Nat) := do
  let (g, path) ← s.1.here (s.1.bfsPath s.2 (fun f => decide (s.1.fZone f = none)))
  let g ← (List.range p.2).foldlM (fun (g : Grid F R) (fi : Nat) => do
    let f ← g.here (Py.get path (fi : Int))
    g.here (g.zoneAddFace p.1 f)) g
  pure (g, (path[p.2]?).getD s.2)

/-- `decompose_farhat`, grid.py:1049-1091. -/
def decomposeFarhatX (g : Grid F R) (count : Nat) (newName : Option Str := none)
    (fzNames : List Str := []) : Left F R (Grid F R) := do
  let g := g.markFixed fzNames
  let g := g.rename newName
  let g := { g with zones := g.zones.filter (fun z => g.zFixed z) }
  let fzCount := g.zones.length
  let g ← g.unlinkFacesFromZonesX
  let g := g.pushZones (numbered "farhat ".toList count)
  let fc := g.faces.length - g.facesCountInFixedZones
  let sizes := (List.range count).map (fun i => fc / count + (if i < fc % count then 1 else 0))
  let start ← g.here (Py.get g.faces 0)
  let (g, _) ← ((g.zones.drop fzCount).zip sizes).foldlM farhatStepX (g, start)
  g.postDecomposeX

/-- All the metrics, grid.py:971-972. `split_zone_metric` (grid.py:891-936) raises, if at all, before it changes links: the sign
functions of the caller are assumed not to raise. -/
def splitMetricsX {S : Type} [LT S] [LE S] [DecidableLT S] [DecidableLE S] (zone zl zr : Nat) :
    List (Nat → S) → Grid F R → Left F R (Grid F R × List (Option Nat))
  | [], g => .ok (g, [])
  | fn :: fns, g => do
    let (g, m) ← g.here (g.splitZoneMetric zone zl zr fn)
    let (g, ms) ← splitMetricsX zone zl zr fns g
    pure (g, m :: ms)

/-- `split_zone`, grid.py:940-999. -/
def splitZoneX {S : Type} [LT S] [LE S] [DecidableLT S] [DecidableLE S] (g : Grid F R) (zone : Nat)
    (fns : List (Nat → S)) : Left F R (Grid F R) := do
  if g.zFixed zone = true then
    let l ← g.here (Py.remove g.zones zone)
    pure { g with zones := l ++ [zone] }
  else if (g.zFaces zone).length < 2 then
    let l ← g.here (Py.remove g.zones zone)
    pure { g with zones := l ++ [zone] }
  else
    let zl := g.zNext
    let g := g.newZone (g.zName zone ++ ['l'])
    let zr := g.zNext
    let g := g.newZone (g.zName zone ++ ['r'])
    let l ← g.here (Py.remove g.zones zone)
    let g := { g with zones := l ++ [zl] ++ [zr] }
    let (g, ms) ← splitMetricsX zone zl zr fns g
    if fns.isEmpty then .error (.value, g)   -- min() of an empty list
    else match bestMetric ms 0 with
    | none =>
      let l ← g.here (Py.remove g.zones zone)
      pure { g with zones := l ++ [zone] }
    | some (_, i) =>
      match fns[i]? with
      | none => .error (.index, g)
      | some fn =>
        let fs := g.zFaces zone
        let blade ← g.here (median (fs.map fn))
        let lf := fs.filter (fun f => decide (fn f < blade))
        let rf := fs.filter (fun f => decide (blade ≤ fn f))
        let g ← lf.foldlM (fun g f => g.here (g.zoneAddFace zl f)) g
        rf.foldlM (fun g f => g.here (g.zoneAddFace zr f)) g

/-- One level of `decompose_hierarchical`, grid.py:1039-1043. -/
def splitLevelX {S : Type} [LT S] [LE S] [DecidableLT S] [DecidableLE S] (fns : List (Nat → S)) :
    Nat → Grid F R → Left F R (Grid F R)
  | 0, g => .ok g
  | c + 1, g => do
    let z ← g.here (Py.get g.zones 0)
    let g ← g.splitZoneX z fns
    splitLevelX fns c g

/-- The levels loop, grid.py:1038-1043. -/
def splitLevelsX {S : Type} [LT S] [LE S] [DecidableLT S] [DecidableLE S] (fns : List (Nat → S)) :
    Nat → Grid F R → Left F R (Grid F R)
  | 0, g => .ok g
  | k + 1, g => do
    let g ← splitLevelX fns g.zones.length g
    splitLevelsX fns k g

/-- `decompose_hierarchical`, grid.py:1003-1045. -/
def decomposeHierarchicalX {S : Type} [LT S] [LE S] [DecidableLT S] [DecidableLE S] (g : Grid F R)
    (fns : List (Nat → S)) (levels : Nat) (newName : Option Str := none) (fixedZones : List Str := []) :
    Left F R (Grid F R) := do
  let g := g.markFixed fixedZones
  let g := g.rename newName
  let g := { g with zones := g.zones.filter (fun z => g.zFixed z) }
  let g ← g.unlinkFacesFromZonesX
  if levels < 1 then .error (.exc "It must be at least 1 level.", g)
  else
    let z := g.zNext
    let g := g.pushZone "h".toList
    let g ← g.faces.foldlM (fun (g : Grid F R) f => if g.fZone f = none then g.here (g.zoneAddFace z f) else .ok g) g
    let g ← splitLevelsX fns (levels - 1) g
    g.postDecomposeX

end Grid

/-- Run one call, keeping the grid when it raises. -/
def DecompCall.runX {S : Type} [LT S] [LE S] [DecidableLT S] [DecidableLE S] (g : Grid F R) :
    DecompCall S → Left F R (Grid F R)
  | .mono nm => g.decomposeMonoX nm
  | .random rand count nm => g.decomposeRandomX rand count nm
  | .linear count nm => g.decomposeLinearX count nm
  | .farhat count nm fixed => g.decomposeFarhatX count nm fixed
  | .hierarchical fns levels nm fixed => g.decomposeHierarchicalX fns levels nm fixed

/-- The grid the caller has after the call, whether it returned or raised. -/
def DecompCall.after {S : Type} [LT S] [LE S] [DecidableLT S] [DecidableLE S] (g : Grid F R) (c : DecompCall S) :
    Grid F R :=
  match c.runX g with
  | .ok g' => g'
  | .error (_, g') => g'

end Verif
