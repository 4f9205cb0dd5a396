import Verif.Model.Split
import Verif.Proofs.Merge

/-! The splitting script. -/

namespace Verif
open Grid
variable {F R : Type}

/-- Every strategy is one of the decompositions. -/
theorem splitGrid_ok {S : Type} [LinearOrder S] {g g' : Grid F R} (hw : Wf g) {fns : List (Nat → S)} {strategy : Str} {fixed : List Str}
    (h : splitGrid g fns strategy fixed = .ok g') : DecompOk g g' := by
  have hmono : g.decomposeMono = .ok g' → DecompOk g g' := fun h => by
    exact call_ok (S := S) g g' hw (.mono none) trivial h
  unfold splitGrid at h
  split at h
  · cases h
  · split at h
    · simp only [res_bind_eq_ok] at h
      obtain ⟨k, -, h⟩ := h
      split at h
      · exact hmono h
      · exact call_ok g g' hw (.hierarchical fns _ none fixed) trivial h
    · split at h
      · simp only [res_bind_eq_ok] at h
        obtain ⟨k, -, h⟩ := h
        split at h
        · exact hmono h
        · split at h
          · cases h
          · split at h
            · cases h
            · exact call_ok (S := S) g g' hw (.farhat _ none fixed) trivial h
      · cases h

/-- What a successful run consists of. -/
theorem split_ok {S : Type} [LinearOrder S] [DecidableEq R] {rc : Vec F → R} {c : Codec F} {dflt : F} {new : Grid F R}
    {fns : Grid F R → List (Nat → S)} {stem sf gridText : Str} {cryDir : Option Str} {outDat : Bool}
    {strategy : Str} {fixed : List Str} {r : F} {g' : Grid F R} {out : SplitOut F}
    (h : split rc c dflt new fns stem sf gridText cryDir outDat strategy fixed r = .ok (g', out)) :
    ∃ g, loadText rc c true new gridText = .ok g ∧ checkFixed g fixed = .ok () ∧
      splitGrid (fillFactor g r) (fns (fillFactor g r)) strategy fixed = .ok g' := by
  unfold split at h
  simp only at h
  split at h
  · cases h
  · simp only [res_bind_eq_ok] at h
    obtain ⟨g, h1, u, h2, g2, h3, h4⟩ := h
    refine ⟨g, h1, h2, ?_⟩
    rw [h3]
    split at h4
    · simp only [res_bind_eq_ok] at h4
      obtain ⟨t, -, h4⟩ := h4
      have := Except.ok.inj h4
      rw [(Prod.mk.inj this).1]
    · split at h4
      · simp only [res_bind_eq_ok] at h4
        obtain ⟨t, -, h4⟩ := h4
        have := Except.ok.inj h4
        rw [(Prod.mk.inj this).1]
      · cases h4

end Verif
