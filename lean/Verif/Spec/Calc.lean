import Verif.Model.Calc
import Verif.Spec.Load

/-! What a line of calculation data says, and what the programs of zones leave in a directory. -/

namespace Verif
variable {F : Type}

/-- The line consists of a number and values, separated by white space. -/
def Says (c : Codec F) (line : Str) (r : Int × List F) : Prop :=
  ∃ w ws, Py.splitWs line = w :: ws ∧ Py.int w = .ok r.1 ∧ ws.mapM c.parse = .ok r.2

/-- The number `k` names the face at position `i` of `n` (Python accepts negative positions too). -/
def Names (n : Nat) (k : Int) (i : Nat) : Prop := k = i ∨ k = (i : Int) - n

instance (n : Nat) (k : Int) (i : Nat) : Decidable (Names n k i) := by unfold Names; infer_instance

/-- The values of the last line naming position `i`. -/
def lastFor (n : Nat) (recs : List (Int × List F)) (i : Nat) : Option (List F) :=
  (recs.reverse.find? (fun r => decide (Names n r.1 i))).map Prod.snd

/-- The file a program working on one zone writes: one line for every identifier of its `.cry` file. -/
def resultText (c : Codec F) (vars : List Str) (res : Nat → List F) (m : MpiFile F) : Str :=
  calcText c vars (m.gloIds.map (fun i => (i, res i)))

/-- The reader finds this title and these zones in the text. -/
def GridFile (c : Codec F) (text title : Str) (blocks : List (ZoneBlock F)) : Prop :=
  ∀ old, ∃ vs, Grid.parseFile c (Py.readlines text).length ⟨old, [], []⟩ (Py.readlines text) = .ok ⟨title, vs, blocks⟩

/-- The directory has the results of all zones at the given times, under the names derived from the name `nm` of the
grid, and possibly other files not looking like results for `nm`. -/
structure ResultDir (c : Codec F) (vars : List Str) (nm : Str) (files : List (MpiFile F)) (times : List Nat)
    (res : Nat → Nat → List F) (dir : List (Str × Str)) : Prop where
  names : (dir.map Prod.fst).Nodup
  all : ∀ t ∈ times, ∀ (i : Nat) (m : MpiFile F), files[i]? = some m →
    (Utils.mpiName nm i (Py.natStrPad 12 t) "txt".toList, resultText c vars (res t) m) ∈ dir
  only : ∀ p ∈ dir, Utils.isCorrectTxt p.1 nm = .ok false ∨
    ∃ t ∈ times, ∃ (i : Nat) (m : MpiFile F), files[i]? = some m ∧
      p = (Utils.mpiName nm i (Py.natStrPad 12 t) "txt".toList, resultText c vars (res t) m)

end Verif
