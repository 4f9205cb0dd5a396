import Verif.Model.Drops
import Verif.Model.Text

/-! The files of `crysgsu/drops.py`: the velocity field, the trajectories and the whole program.

Printing, the time measurement and the checks that the files exist (drops.py:246-252) are left out. -/

namespace Verif
variable {F R : Type}

/-- A node line of the air file, drops.py:200-204: point from columns 0-2, velocity from columns 5-7. -/
def airLine (c : Codec F) (l : Str) : Res (Vec F × Vec F) := do
  let d := Py.splitWs l
  let x ← Py.get d 0 >>= c.parse
  let y ← Py.get d 1 >>= c.parse
  let z ← Py.get d 2 >>= c.parse
  let u ← Py.get d 5 >>= c.parse
  let v ← Py.get d 6 >>= c.parse
  let w ← Py.get d 7 >>= c.parse
  .ok (⟨x, y, z⟩, ⟨u, v, w⟩)

/-- The loop of `read_vel_field_from_file` over the lines, drops.py:189-219. The first argument bounds the number of rounds; every
round takes at least one line. The data is collected in `ds`. Simplification: the node lines of a zone are all read before they are
converted. -/
def readAir (c : Codec F) : Nat → List (Vec F × Vec F) → List Str → Res (List (Vec F × Vec F))
  | 0, ds, _ => .ok ds
  | _ + 1, ds, [] => .ok ds
  | n + 1, ds, l :: ls =>
    if Py.contains "TITLE=".toList l then readAir c n ds ls
    else if Py.contains "VARIABLES=".toList l then readAir c n ds ls
    else if Py.contains "ZONE".toList l then do
      let ss := Py.slice (Py.splitWs l) (some 1) none
      let s0 ← Py.get ss 0
      if Py.contains "FEBRICK".toList s0 then do
        let ns ← Py.get ss 5 >>= Py.int
        let es ← Py.get ss 8 >>= Py.int
        let nl := Grid.readlines ns.toNat ls
        let new ← nl.1.mapM (airLine c)
        let el := Grid.readlines es.toNat nl.2
        readAir c n (ds ++ new) el.2
      else do
        let ns ← Py.get ss 4 >>= Py.int
        let es ← Py.get ss 7 >>= Py.int
        readAir c n ds (Grid.readlines (ns + es).toNat ls).2
    else readAir c n ds ls

/-- `read_vel_field_from_file`, drops.py:177-219, up to the creation of `Space` (`Space.make`): points with velocities. -/
def readAirText (c : Codec F) (text : Str) : Res (List (Vec F × Vec F)) :=
  readAir c (Py.readlines text).length [] (Py.readlines text)

/-- `Trajectory.dump`, trajectory.py:94-116. `str` is `str(x)` of a float. A trajectory has at least one point (trajectory.py:14-21),
so `pc - 1` is not negative. -/
def dumpLines (str : F → Str) (name : Str) (pts : List (Vec F)) : List Str :=
  ["ZONE T=\"".toList ++ name ++ "\"\n".toList,
   "NODES=".toList ++ Py.natStr pts.length ++ ['\n'],
   "ELEMENTS=".toList ++ Py.natStr (pts.length - 1) ++ ['\n'],
   "DATAPACKING=BLOCK\n".toList,
   "ZONETYPE=FETRIANGLE\n".toList,
   "VARLOCATION=([4-3]=CELLCENTERED)\n".toList,
   Py.join [' '] (pts.map (fun p => str p.x)) ++ ['\n'],
   Py.join [' '] (pts.map (fun p => str p.y)) ++ ['\n'],
   Py.join [' '] (pts.map (fun p => str p.z)) ++ ['\n']] ++
  (List.range (pts.length - 1)).map (fun i => Py.natStr (i + 1) ++ [' '] ++ Py.natStr (i + 2) ++ [' '] ++ Py.natStr (i + 2) ++ ['\n'])

/-- The head of the file with trajectories, drops.py:269-271. -/
def trajHead : List Str := ["# Trajectories file.\n".toList, "TITLE=\"Trajectories\"\n".toList, "VARIABLES=\"X\", \"Y\", \"Z\"\n".toList]

variable [Field F] [LinearOrder F]

namespace Grid

/-- What the loop of `drops` writes to the file with trajectories for one face, drops.py:275-285. -/
def dropDump (str : F → Str) (P : DropsPar F) (air : Space F) (cloud : Cloud F) (g : Grid F R) (f : Nat) : Res (List Str) :=
  if g.getData 0 f "Stall".toList > P.stallThr then do
    let res ← dropFlight P air cloud g f
    .ok (dumpLines str ("Trajectory-".toList ++ Py.natStr (g.fGlo f)) res.points)
  else .ok []

/-- The body of the loop over the faces together with the file of trajectories, drops.py:274-291. In the code the flight is
calculated once for both. -/
def dropFaceFile (str : F → Str) (P : DropsPar F) (air : Space F) (cloud : Cloud F) (s : Grid F R × List Str) (f : Nat) :
    Res (Grid F R × List Str) := do
  let ls ← dropDump str P air cloud s.1 f
  let g ← dropFace P air cloud s.1 f
  .ok (g, s.2 ++ ls)

/-- `drops`, drops.py:230-299, on the texts of the files: from the grid and the air to the grid with the secondary impingement and
the trajectories. -/
def dropsText [DecidableEq R] [Inhabited F] [Inhabited R] (rc : Vec F → R) (c : Codec F) (str : F → Str) (P : DropsPar F)
    (stallText airText : Str) : Res (Str × Str) := do
  let g ← loadText rc c true (empty : Grid F R) stallText
  let tris ← g.faces.mapM g.triangle
  let cloud ← Cloud.ofList tris
  let ds ← readAirText c airText
  let air ← Space.make ds
  let s ← g.faces.foldlM (dropFaceFile str P air cloud) (g, trajHead)
  let g ← s.1.stallToCheckPoint
  let text ← g.cleanTHwHi.storeText c 0
  .ok (text, s.2.flatten)

end Grid
end Verif
