import Verif.Model.Json
import Mathlib.Data.List.Forall2

/-! What the JSON file of a project says about splitting. -/

namespace Verif
variable {F : Type}

/-- An object with the value `v` of the key `k`. -/
def Json.Has (j : Json F) (k : Str) (v : Json F) : Prop := ∃ l, j = .obj l ∧ Py.dictGet? l k = some v

/-- An object without the key `k`. -/
def Json.Lacks (j : Json F) (k : Str) : Prop := ∃ l, j = .obj l ∧ ∀ v, (k, v) ∉ l

/-- The elements of the heating system. -/
def Heaters (data : Json F) (es : List (Json F)) : Prop :=
  ∃ hs, data.Has "heating_system".toList hs ∧ hs.Has "elements".toList (.arr es)

/-- There is no heating system, or it has no list of elements. -/
def NoHeaters (data : Json F) : Prop :=
  data.Lacks "heating_system".toList ∨ ∃ hs, data.Has "heating_system".toList hs ∧ hs.Lacks "elements".toList

/-- The zones of the heating elements, one for each of them. -/
def HeatingZones (data : Json F) (names : List Str) : Prop :=
  (NoHeaters data ∧ names = []) ∨
    ∃ es, Heaters data es ∧ List.Forall₂ (fun e n => e.Has "zone".toList (.str n)) es names

/-- The strategy: of the command line, else of the JSON file, else `n1`. -/
def ChosenStrategy (cmd : Option Str) (json : Option (Json F)) (s : Str) : Prop :=
  cmd = some s ∨ cmd = none ∧
    ((∃ data, json = some data ∧ (data.Has "split_strategy".toList (.str s) ∨ data.Lacks "split_strategy".toList ∧ s = "n1".toList)) ∨
      json = none ∧ s = "n1".toList)

/-- The recovery factor: of the JSON file, else 1. -/
def ChosenFactor [One F] [IntCast F] (json : Option (Json F)) (r : F) : Prop :=
  (∃ data, json = some data ∧ (data.Has "recovery_factor".toList (.num r) ∨
    (∃ i : Int, data.Has "recovery_factor".toList (.int i) ∧ r = (i : F)) ∨ data.Lacks "recovery_factor".toList ∧ r = 1)) ∨
    json = none ∧ r = 1

end Verif
