import Verif.Model.Json
import Verif.Model.Split

/-! The main program of `crysgsu/split.py`: options from the command line and from a JSON file.

Not modelled: `argparse`, the checks that files exist. -/

namespace Verif
variable {F R : Type}

/-- `extract_strategy_from_json`, split.py:139-156. -/
def extractStrategy (data : Json F) : Res (Json F) :=
  Json.orKey (data.item "split_strategy".toList) (.str "n1".toList)

/-- `extract_fixed_zones_from_json`, split.py:162-181. -/
def extractFixedZones (data : Json F) : Res (List (Json F)) :=
  Json.orKey (do
    let hs ← data.item "heating_system".toList
    let els ← hs.item "elements".toList
    let es ← els.iter
    es.mapM (fun e => e.item "zone".toList)) []

/-- `extract_recovery_factor_from_json`, split.py:186-204. -/
def extractRecoveryFactor [One F] (data : Json F) : Res (Json F) :=
  Json.orKey (data.item "recovery_factor".toList) (.num 1)

/-- A string as an argument of `split`. -/
def Json.asStr (j : Json F) : Res Str :=
  match j with
  | .str s => .ok s
  | _ => .error .type

/-- A number as an argument of `split`; `ofInt` turns an integer into a number. -/
def Json.asNum [IntCast F] (j : Json F) : Res F :=
  match j with
  | .num x => .ok x
  | .int i => .ok (i : F)
  | _ => .error .type

/-- The strategy, split.py:227-232. -/
def chooseStrategy (strategy : Option Str) (json : Option (Json F)) : Res (Json F) :=
  match strategy, json with
  | some s, _ => .ok (.str s)
  | none, some data => extractStrategy data
  | none, none => .ok (.str "n1".toList)

/-- The fixed zones, split.py:235-238. -/
def chooseFixed (json : Option (Json F)) : Res (List (Json F)) :=
  match json with
  | some data => extractFixedZones data
  | none => .ok []

/-- The recovery factor, split.py:241-244. -/
def chooseFactor [One F] (json : Option (Json F)) : Res (Json F) :=
  match json with
  | some data => extractRecoveryFactor data
  | none => .ok (.num 1)

/-- The main program, split.py:226-251. The two options for the result exclude each other and one is needed (split.py:217-219): a
directory (`some dir`) or a file (`none`). Simplification: a strategy or a zone name that is no string, or a recovery factor that is
no number, is a `TypeError` here at once; in the code it is an exception later (`TypeError`, or "no such zone" for a zone name), and the
factor does not matter if all faces have one. -/
def splitMain {S : Type} [LT S] [LE S] [DecidableLT S] [DecidableLE S] [DecidableEq R] [One F] [IntCast F] (rc : Vec F → R) (c : Codec F)
    (dflt : F) (new : Grid F R) (fns : Grid F R → List (Nat → S)) (stem sf gridText : Str) (cryDir : Option Str)
    (strategy : Option Str) (json : Option (Json F)) : Res (Grid F R × SplitOut F) := do
  let st ← chooseStrategy strategy json
  let fz ← chooseFixed json
  let rf ← chooseFactor json
  let st ← st.asStr
  let fz ← fz.mapM Json.asStr
  let rf ← rf.asNum
  split rc c dflt new fns stem sf gridText cryDir cryDir.isNone st fz rf

end Verif
