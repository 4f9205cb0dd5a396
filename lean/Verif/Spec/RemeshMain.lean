import Verif.Spec.SplitMain
import Verif.Spec.Remesh

/-! The documented options of the remesher. -/

namespace Verif
variable {F : Type}

/-- The integer option `key` has the value `v`; `d` is the default. -/
def OptInt (json : Option (Json F)) (key : Str) (d v : Int) : Prop :=
  match json with
  | none => v = d
  | some data => data.Has key (.int v) ∨ data.Lacks key ∧ v = d

/-- The number option `key` has the value `v`. -/
def OptNum [IntCast F] (json : Option (Json F)) (key : Str) (d v : F) : Prop :=
  match json with
  | none => v = d
  | some data => data.Has key (.num v) ∨ (∃ i : Int, data.Has key (.int i) ∧ v = (i : F)) ∨ data.Lacks key ∧ v = d

/-- The switch `key` has the value `v`. -/
def OptBool (json : Option (Json F)) (key : Str) (d v : Bool) : Prop :=
  match json with
  | none => v = d
  | some data => data.Has key (.bool v) ∨ data.Lacks key ∧ v = d

/-- The options of the remesher with their names in the JSON file and their defaults. -/
structure OptionsOf [Field F] [LinearOrder F] (json : Option (Json F)) (P : RemeshPar F) : Prop where
  nstepsMin : OptInt json "remesh_nsteps_min".toList 0 P.nstepsMin
  nstepsMax : OptInt json "remesh_nsteps_max".toList 10 P.nstepsMax
  hiSideFact : OptNum json "remesh_nsteps_hi_side_fact".toList (1 / 10) P.hiSideFact
  ignorePart : OptNum json "remesh_nsteps_ignore_part".toList (1 / 20) P.ignorePart
  nsmoothSteps : OptInt json "remesh_nsmooth_steps".toList 0 P.nsmoothSteps
  nsmoothS : OptNum json "remesh_nsmooth_s".toList 10 P.nsmoothS
  nsmoothK : OptNum json "remesh_nsmooth_k".toList (15 / 100) P.nsmoothK
  hsmoothSteps : OptInt json "remesh_hsmooth_steps".toList 0 P.hsmoothSteps
  hsmoothAlfa : OptNum json "remesh_hsmooth_alfa".toList (1 / 5) P.hsmoothAlfa
  hsmoothBeta : OptNum json "remesh_hsmooth_beta".toList (1 / 10) P.hsmoothBeta
  redistr : OptBool json "remesh_rest_volume_redistr".toList true P.redistr
  nssSteps : OptInt json "remesh_nss_steps".toList 0 P.nssSteps
  nssFixNodes : OptBool json "remesh_nss_fix_nodes".toList true P.nssFixNodes
  pseudo2d : OptBool json "remesh_pseudo_2d_oz".toList false P.pseudo2d

/-- The variables of the file that the remesher writes: `Hi` is one of them. -/
def iceVars (vars : List Str) : List Str := vars ++ if "Hi".toList ∈ vars then [] else ["Hi".toList]

end Verif
