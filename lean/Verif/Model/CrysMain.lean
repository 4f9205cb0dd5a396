import Verif.Model.Crys
import Verif.Model.Split
import Verif.Model.Remesh

/-! The parallel program `crysgsu/crys.py` as a whole, lines 146-218.

Every process calls `split` for the same file and gets an equal grid, so one grid stands for all of them. The library `swim` is a function from
the three arrays to the new contents of the array with the ice heights. `gather` and `Gatherv` (158-166) give process 0 the arrays of all
processes in the order of their numbers. Not modelled: the pool of workers (`map` is the same), printing, the file names. -/

namespace Verif
variable {F R : Type}

namespace Crys

/-- The number of processes as a strategy, `'n{}'.format(size)`, crys.py:192. -/
def strategy (size : Nat) : Str := 'n' :: Py.natStr size

/-- `get_data` for all faces of a zone, crys.py:15-29 and 197-199: a missing variable is a `KeyError`. -/
def faceColumn (g : Grid F R) (z : Nat) (v : Str) : Res (List F) :=
  (g.zFaces z).mapM (fun f => match Py.dictGet? (g.fData f) v with
    | some x => .ok x
    | none => .error .key)

/-- The array with the ice heights of process `rank` that is gathered later, crys.py:194 and 197-201. -/
def solve (swim : List F → List F → List F → List F) (g : Grid F R) (rank : Nat) : Res (List F) := do
  let z ← Py.get g.zones (rank : Int)
  let his ← faceColumn g z "Hi".toList
  let t ← faceColumn g z "T".toList
  let hw ← faceColumn g z "Hw".toList
  .ok (swim t his hw)

/-- The variables that are exchanged, crys.py:214-216. -/
def exchanged : List Str := ["T".toList, "Hi".toList, "Hw".toList]

/-- A complete run up to line 168: all processes have computed their arrays `his`, all have finished their exchanges if there is more than one
process (203), and process 0 has the grid `root`. -/
structure Whole [Zero F] (late : Bool) (swim : List F → List F → List F → List F) (g : Grid F R) (his : List (List F)) (root : Grid F R) : Prop where
  work : List.Forall₂ (fun i h => solve swim g i = .ok h) (List.range g.zones.length) his
  one : g.zones.length ≤ 1 → root = g
  many : 1 < g.zones.length → ∃ w w' : World F R, Start g (fun _ => g.fData) exchanged w ∧ Relation.ReflTransGen (Step late 0) w w' ∧
    (∀ i < g.zones.length, (w'.procs i).cur = Option.none ∧ (w'.procs i).todo = []) ∧ root = (w'.procs 0).g

/-- The end of `remesh` in process 0, crys.py:170-176: the gathered heights are put on the faces, the grid is remeshed and stored. The zone of
a face may be a number here (211-212); neither the remesher nor `store` looks at it. -/
def rootEnd [Field F] [LinearOrder F] [Inhabited F] (P : RemeshPar F) (c : Codec F) (root : Grid F R) (his : List (List F)) : Res Str := do
  let s ← Ice.run P (scatter root his)
  s.g.storeText c 0

end Crys
end Verif
