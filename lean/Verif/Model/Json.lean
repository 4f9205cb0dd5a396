import Verif.Py

/-! JSON data as `json.load` gives it. The parser itself is not modelled. -/

namespace Verif

/-- What `json.load` (split.py:150, remeshing.py:158) returns. An object is a dictionary in insertion order with different keys. -/
inductive Json (F : Type) where
  | null
  | bool (b : Bool)
  | int (i : Int)
  | num (x : F)
  | str (s : Str)
  | arr (l : List (Json F))
  | obj (l : List (Str × Json F))

namespace Json
variable {F : Type}

/-- `data[key]` with a string `key`, split.py:153: `KeyError` for a dictionary without it, `TypeError` for everything else. -/
def item (j : Json F) (key : Str) : Res (Json F) :=
  match j with
  | .obj l =>
    match Py.dictGet? l key with
    | some v => .ok v
    | none => .error .key
  | _ => .error .type

/-- What `for e in j` runs over, split.py:178: the elements of a list, the keys of a dictionary, the characters of a string. -/
def iter (j : Json F) : Res (List (Json F)) :=
  match j with
  | .arr l => .ok l
  | .obj l => .ok (l.map (fun p => .str p.1))
  | .str s => .ok (s.map (fun ch => .str [ch]))
  | _ => .error .type

/-- `try: return x; except KeyError: return d`, split.py:152-155. -/
def orKey {α : Type} (x : Res α) (d : α) : Res α :=
  match x with
  | .error .key => .ok d
  | r => r

/-- `if j`, remeshing.py:340: whether a value counts as true. `zero` is the number `0.0`. -/
def truthy [Zero F] [DecidableEq F] (j : Json F) : Bool :=
  match j with
  | .null => false
  | .bool b => b
  | .int i => i != 0
  | .num x => !decide (x = 0)
  | .str s => !s.isEmpty
  | .arr l => !l.isEmpty
  | .obj l => !l.isEmpty

end Json
end Verif
