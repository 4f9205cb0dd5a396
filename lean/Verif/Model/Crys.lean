import Verif.Model.Mpi

/-! The parallel driver: `crysgsu/crys.py` and `Zone.get_real_face`, `Zone.get_ghost_face` (zone.py:253-303).

Every process has its own copy of the grid. Not modelled: the pool of workers, the call of the library `swim` and the options of the
remesher (see `Model/Remesh.lean` for the remesher). -/

namespace Verif
variable {F R : Type}

namespace Crys

/-- The attribute `Zone` of a face: `None`, a zone object or, after crys.py:211-212, a number. -/
inductive ZoneVal where
  | none
  | zone (z : Nat)
  | num (i : Int)
deriving DecidableEq

/-- `f.Zone` of a face of a decomposed grid. -/
def zoneVal (g : Grid F R) (f : Nat) : ZoneVal :=
  match g.fZone f with
  | some z => .zone z
  | Option.none => .none

/-- `f.Zone` after the loop of crys.py:211-212 over the faces of zone `z`. -/
def marked (g : Grid F R) (z f : Nat) : ZoneVal := if f ∈ g.zFaces z then .num (g.zId z) else zoneVal g f

/-- `get_real_face`, zone.py:253-276; `zv` gives the attribute `Zone`. A zone object is not equal to a number. -/
def realFace (g : Grid F R) (zv : Nat → ZoneVal) (z : Nat) (e : Int) : Res Nat := do
  let e ← Py.get (g.zEdges z) e
  match g.eFaces e with
  | [f1, f2] =>
    if zv f1 = .num (g.zId z) then .ok f1
    else if zv f2 = .num (g.zId z) then .ok f2
    else .error .runtime
  | _ => .error .assertion

/-- `get_ghost_face`, zone.py:278-301. -/
def ghostFace (g : Grid F R) (zv : Nat → ZoneVal) (z : Nat) (e : Int) : Res Nat := do
  let e ← Py.get (g.zEdges z) e
  match g.eFaces e with
  | [f1, f2] =>
    if zv f1 = .num (g.zId z) then .ok f2
    else if zv f2 = .num (g.zId z) then .ok f1
    else .error .runtime
  | _ => .error .assertion

/-- `get_mpi_borders`, crys.py:31-67: numbers of neighbours and local numbers of edges, in the order of the dictionary. -/
def mpiBorders (g : Grid F R) (zam : Zam) (rank z : Nat) : Res (List (Nat × List Int)) := do
  let eids ← number g.eGlo (List.replicate g.edges.length (-1)) (g.zEdges z)
  ((zam.crossArray rank).zipIdx.filter (fun q => decide (0 < q.1))).mapM (g.borderList eids z)

/-- A process. Of the rows of the buffers only the parts that are sent or received are kept (the rest of a row is never read).
`recv` is `none` in a row that has not arrived yet in the current exchange. -/
structure Proc (F R : Type) where
  g : Grid F R
  zv : Nat → ZoneVal
  z : Nat
  borders : List (Nat × List Int)
  send : List (List F)
  recv : List (Option (List F))
  /-- variables that are still to be exchanged -/
  todo : List Str
  /-- the variable of the exchange that is going on -/
  cur : Option Str

/-- `put_to_superbuffer`, crys.py:87-101. -/
def put (p : Proc F R) (dflt : F) (v : Str) : Res (List (List F)) :=
  p.borders.mapM (fun b => b.2.mapM (fun e => do
    let f ← realFace p.g p.zv p.z e
    .ok (p.g.getData dflt f v)))

/-- One value of `get_from_superbuffer`, crys.py:144. -/
def takeOne (p : Proc F R) (v : Str) (g : Grid F R) (q : Int × F) : Res (Grid F R) := do
  let f ← ghostFace g p.zv p.z q.1
  .ok (g.setData f v q.2)

/-- `get_from_superbuffer`, crys.py:130-144. -/
def takeAll (p : Proc F R) (v : Str) (rows : List (List F)) : Res (Grid F R) :=
  (p.borders.zip rows).foldlM (fun g b => (b.1.2.zip b.2).foldlM (takeOne p v) g) p.g

/-- The process number `rank` before its first exchange, crys.py:193-212; `max` of no lengths raises `ValueError`. -/
def startProc (g : Grid F R) (vars : List Str) (rank : Nat) : Res (Proc F R) := do
  let zam ← Zam.make g g.edges g.zones
  let z ← Py.get g.zones (rank : Int)
  let borders ← mpiBorders g zam rank z
  if borders = [] then .error .value
  else .ok { g := g, zv := marked g z, z := z, borders := borders, send := [], recv := [], todo := vars, cur := Option.none }

/-- A message that was sent: its contents were copied, or they are read from the row of the buffer of the sender when they arrive.
MPI allows both for `Isend`; `crys.py` never waits for the end of a send and uses the same buffer for the next exchange. -/
inductive Msg (F : Type) where
  | copied (l : List F)
  | row (k : Nat)

/-- All processes and the messages on their way from one process to another. -/
structure World (F R : Type) where
  n : Nat
  procs : Nat → Proc F R
  chan : Nat → Nat → List (Msg F)

/-- What is received when the message from process `a` arrives now. -/
def World.read (w : World F R) (a : Nat) : Msg F → List F
  | .copied l => l
  | .row k => ((w.procs a).send[k]?).getD []

/-- The messages of an exchange to process `b`. -/
def posted (borders : List (Nat × List Int)) (rows : List (List F)) (copy : Nat → Bool) (b : Nat) : List (Msg F) :=
  borders.zipIdx.filterMap (fun q =>
    if q.1.1 = b then some (if copy q.2 then .copied ((rows[q.2]?).getD []) else .row q.2) else Option.none)

/-- A step of the parallel program. With `late = false` the contents of every message are copied when it is sent.
* `start`: `put_to_superbuffer` and the calls of `Isend` and `Irecv`, crys.py:83, 115-125 (the buffer does not change between these
  calls, so messages arriving in between are the same as messages arriving later).
* `deliver`: one `Irecv` is completed with the oldest message of its source; a message of another length is not received.
* `finish`: after `Waitall` (127) `get_from_superbuffer`. `Ibarrier` (128) does not wait. -/
inductive Step (late : Bool) (dflt : F) : World F R → World F R → Prop
  | start (w : World F R) (i : Nat) (v : Str) (vs : List Str) (rows : List (List F)) (copy : Nat → Bool)
      (hi : i < w.n) (hc : (w.procs i).cur = Option.none) (ht : (w.procs i).todo = v :: vs) (hp : put (w.procs i) dflt v = .ok rows)
      (hm : ∀ k, copy k = false → late = true) :
      Step late dflt w
        { w with
          procs := upd w.procs i { w.procs i with send := rows, recv := List.replicate (w.procs i).borders.length Option.none, todo := vs, cur := some v }
          chan := fun a b => if a = i then w.chan a b ++ posted (w.procs i).borders rows copy b else w.chan a b }
  | deliver (w : World F R) (i k src : Nat) (ids : List Int) (v : Str) (m : Msg F) (ms : List (Msg F))
      (hi : i < w.n) (hc : (w.procs i).cur = some v) (hb : (w.procs i).borders[k]? = some (src, ids))
      (hr : (w.procs i).recv[k]? = some Option.none) (hq : w.chan src i = m :: ms) (hl : (w.read src m).length = ids.length) :
      Step late dflt w
        { w with
          procs := upd w.procs i { w.procs i with recv := (w.procs i).recv.set k (some (w.read src m)) }
          chan := fun a b => if a = src ∧ b = i then ms else w.chan a b }
  | finish (w : World F R) (i : Nat) (v : Str) (rows : List (List F)) (g : Grid F R)
      (hi : i < w.n) (hc : (w.procs i).cur = some v) (hr : (w.procs i).recv = rows.map some)
      (hg : takeAll (w.procs i) v rows = .ok g) :
      Step late dflt w { w with procs := upd w.procs i { w.procs i with g := g, cur := Option.none } }

/-- The beginning: process `i` has the grid `g` with its own data, no messages are on the way. -/
def Start (g : Grid F R) (data : Nat → Nat → List (Str × F)) (vars : List Str) (w : World F R) : Prop :=
  w.n = g.zones.length ∧ (∀ i < w.n, startProc { g with fData := data i } vars i = .ok (w.procs i)) ∧ ∀ a b, w.chan a b = []

/-- The gathered array and the loop of `remesh`, crys.py:158-173; `his` are the arrays of the processes. Slices of arrays are like slices
of lists. -/
def scatter (g : Grid F R) (his : List (List F)) : Grid F R :=
  g.zones.zipIdx.foldl (fun g q =>
    let c : Int := ((his[q.2]?).getD []).length
    ((g.zFaces q.1).zip (Py.slice his.flatten (some ((q.2 : Int) * c)) (some (((q.2 : Int) + 1) * c)))).foldl
      (fun g p => g.setData p.1 "Hi".toList p.2) g) g

end Crys
end Verif
