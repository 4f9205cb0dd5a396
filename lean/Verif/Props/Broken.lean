import Verif.Proofs.Broken
import Verif.Props.Collapse
import Verif.Props.Stream
import Verif.Props.Calc

/-! Properties C113 and C114: results and stored files after an exception. -/

namespace Verif.Props
open Verif Grid
variable {F R : Type}

/-! ## C113 A results file that cannot be read

The property would be: a results file is applied completely, or the grid is left as it was. It does not hold. -/

/-- Forgetting what is left, this is the reading of results of C24. -/
theorem C113_agrees (c : Codec F) (g g' : Grid F R) (text : Str) (e : Err) :
    (loadCalcX c g (some text) = .ok g' ↔ g.loadCalc c text = .ok g') ∧
    ((∃ left, loadCalcX c g (some text) = .error (e, left)) ↔ g.loadCalc c text = .error e) := by
  rw [← loadCalc_plain]
  cases loadCalcX c g (some text) with
  | ok a => simp [Left.plain]
  | error x => obtain ⟨e', l⟩ := x; simp [Left.plain]

/-- A results file that cannot be opened changes nothing. -/
theorem C113_missing_file (c : Codec F) (g : Grid F R) : loadCalcX c g none = .error (.os, g) := rfl

/-- If reading raises then there is a first line which does not say anything about a face of the grid. All lines before it have
been applied: every face named there has the values of the last of these lines naming it. All other faces have the data they
had, and nothing else has changed. (Partial: the file has been applied up to this line, not completely and not at all.) -/
theorem C113_left_partial (c : Codec F) (g : Grid F R) (hn : g.faces.Nodup) (text : Str) (e : Err) (left : Grid F R)
    (h : loadCalcX c g (some text) = .error (e, left)) :
    ∃ head pre bad post vars recs d, Py.readlines text = head :: (pre ++ bad :: post) ∧ calcVars head = .ok vars ∧
      List.Forall₂ (Says c) pre recs ∧ (∀ r ∈ recs, ∃ i < g.faces.length, Names g.faces.length r.1 i) ∧
      (¬ ∃ r, Says c bad r ∧ ∃ i < g.faces.length, Names g.faces.length r.1 i) ∧
      left = { g with fData := d } ∧ (∀ f, f ∉ g.faces → d f = g.fData f) ∧
      ∀ (i f : Nat), g.faces[i]? = some f → d f = match lastFor g.faces.length recs i with
        | some v => Py.dictOf (vars.zip v)
        | none => g.fData f :=
  calc_left c g hn text e left h

/-- Reading the file as far as it is good, and going on with the repaired file, gives the same as reading the repaired file in the
first place, if that names every face the bad one did. -/
theorem C113_again (c : Codec F) (g left : Grid F R) (hn : g.faces.Nodup) (text text' head : Str) (ls : List Str) (vars : List Str)
    (recs : List (Int × List F)) (e : Err) (h : loadCalcX c g (some text) = .error (e, left)) (ht : Py.readlines text' = head :: ls)
    (hh : calcVars head = .ok vars) (hl : List.Forall₂ (Says c) ls recs)
    (hr : ∀ r ∈ recs, ∃ i < g.faces.length, Names g.faces.length r.1 i)
    (hall : ∀ i < g.faces.length, ∃ r ∈ recs, Names g.faces.length r.1 i) :
    ∃ d, g.loadCalc c text' = .ok { g with fData := d } ∧ left.loadCalc c text' = .ok { left with fData := d } := by
  obtain ⟨_, _, _, _, _, _, d0, _, _, _, _, _, h1, h2, _⟩ := calc_left c g hn text e left h
  obtain ⟨d1, h3, h4, h5⟩ := C24_last_line c g hn text' head ls vars recs ht hh hl hr
  subst h1
  obtain ⟨d2, h6, h7, h8⟩ := C24_last_line c { g with fData := d0 } hn text' head ls vars recs ht hh hl hr
  refine ⟨d1, h3, ?_⟩
  rw [h6]
  suffices hd : d2 = d1 by rw [hd]
  funext f
  by_cases hf : f ∈ g.faces
  · obtain ⟨i, hi⟩ := List.mem_iff_getElem?.1 hf
    have e1 := h5 i f hi
    have e2 := h8 i f hi
    obtain ⟨r, hr1, hr2⟩ := hall i (List.getElem?_eq_some_iff.1 hi).1
    have hs : ∃ v, lastFor g.faces.length recs i = some v := by
      unfold lastFor
      cases hq : recs.reverse.find? (fun r => decide (Names g.faces.length r.1 i)) with
      | some v => exact ⟨_, rfl⟩
      | none =>
        have := List.find?_eq_none.1 hq r (by simpa using hr1)
        simp [hr2] at this
    obtain ⟨v, hv⟩ := hs
    simp only [hv] at e1 e2
    rw [e1, e2]
  · rw [h4 f hf, h7 f hf]; exact h2 f hf

/-- Results of an earlier and of a later time are mixed in a grid with three faces: the second file ends in the middle of a
line, its first line has been applied. -/
theorem C113_mixed_violation : ∃ (text text2 : Str) (e : Err) (g1 left : Grid Int (Int × Int × Int)),
    loadCalcX intCodec Sample.grid (some text) = .ok g1 ∧ loadCalcX intCodec g1 (some text2) = .error (e, left) ∧
    left.faces.map (fun f => Py.dictGet? (left.fData f) "T".toList) = [some 8, some 7, some 7] := by
  have h : (match loadCalcX intCodec Sample.grid (some "VARIABLES=\"GloId\", \"T\"\n0 7\n1 7\n2 7\n".toList) with
      | .ok g1 => leftAnd (loadCalcX intCodec g1 (some "VARIABLES=\"GloId\", \"T\"\n0 8\n1 x".toList)) (fun left =>
          decide (left.faces.map (fun f => Py.dictGet? (left.fData f) "T".toList) = [some 8, some 7, some 7]))
      | .error _ => false) = true := by decide +kernel
  cases hg : loadCalcX intCodec Sample.grid (some "VARIABLES=\"GloId\", \"T\"\n0 7\n1 7\n2 7\n".toList) with
  | error x => rw [hg] at h; cases h
  | ok g1 =>
    rw [hg] at h
    obtain ⟨e, left, hl, hq⟩ := leftAnd_elim h
    exact ⟨_, _, e, g1, left, hg, hl, of_decide_eq_true hq⟩

/-! ## C114 A store that fails

The property would be: if `store` raises, the file has the content it had before. It does not hold. -/

/-- Forgetting the content of the file, this is `store`. -/
theorem C114_agrees (c : Codec F) (dflt : F) (g : Grid F R) (t : Str) (e : Err) :
    (g.storeX c dflt = .ok t ↔ g.storeText c dflt = .ok t) ∧
    ((∃ left, g.storeX c dflt = .error (e, left)) ↔ g.storeText c dflt = .error e) := by
  rw [← store_bare]
  cases g.storeX c dflt with
  | ok a => simp [bare]
  | error x => obtain ⟨e', l⟩ := x; simp [bare]

/-- A grid with no faces is refused before the file is opened: the file is as it was. -/
theorem C114_no_faces (c : Codec F) (dflt : F) (g : Grid F R) (h : g.faces = []) : g.storeX c dflt = .error (.index, none) := by
  unfold storeX
  rw [h]
  rfl

/-- `store` writes a complete file exactly if the grid has a face, and all identifiers of nodes of zones and of corners of
faces in zones are less than the number of nodes. -/
theorem C114_returns_iff (c : Codec F) (dflt : F) (g : Grid F R) :
    (∃ t, g.storeX c dflt = .ok t) ↔ g.faces ≠ [] ∧ ∀ z ∈ g.zones, ZoneNumbered g z := by
  constructor
  · rintro ⟨t, ht⟩
    have hf : g.faces ≠ [] := fun h => by rw [C114_no_faces c dflt g h] at ht; cases ht
    refine ⟨hf, ?_⟩
    rcases store_cases g c dflt hf with ⟨h, _⟩ | ⟨_, _, _, _, _, _, _, _, _, h, _⟩
    · exact h
    · rw [ht] at h; cases h
  · rintro ⟨hf, h⟩
    rcases store_cases g c dflt hf with ⟨_, h⟩ | ⟨pre, z, post, _, _, hz, _, hn, _⟩
    · exact h
    · exact absurd (h z (by rw [hz]; simp)) hn

/-- Otherwise the content the file had is lost. The file has the zones before the first bad one, written completely, then the
beginning of that zone. (Partial: only a grid without faces leaves the file as it was, `C114_no_faces`.) -/
theorem C114_lost_partial (c : Codec F) (dflt : F) (g : Grid F R) (e : Err) (left : Option Str) (h : g.storeX c dflt = .error (e, left)) :
    e = .index ∧ (g.faces = [] ∧ left = none ∨ g.faces ≠ [] ∧
      ∃ pre z post t0 t, g.zones = pre ++ z :: post ∧ (∀ z ∈ pre, ZoneNumbered g z) ∧ ¬ ZoneNumbered g z ∧
        ({ g with zones := pre } : Grid F R).storeText c dflt = .ok t0 ∧ left = some t ∧
        t0 ++ "ZONE T=\"".toList ++ g.zName z ++ "\"\n".toList <+: t) := by
  by_cases hf : g.faces = []
  · rw [C114_no_faces c dflt g hf] at h
    cases h
    exact ⟨rfl, .inl ⟨hf, rfl⟩⟩
  · rcases store_cases g c dflt hf with ⟨_, t, h'⟩ | ⟨pre, z, post, t0, t, h1, h2, h3, h4, h5, h6⟩
    · rw [h] at h'; cases h'
    · rw [h] at h5
      cases h5
      exact ⟨rfl, .inr ⟨hf, pre, z, post, t0, t, h1, h2, h3, h4, rfl, h6⟩⟩

/-- A grid whose identifiers count its nodes, and whose zones list nodes and faces of the grid, can always be stored: only
transformations which break the identifiers lead to a lost file. -/
theorem C114_counted (c : Codec F) (dflt : F) (g : Grid F R) (hf : g.faces ≠ []) (hg : ∀ n ∈ g.nodes, g.nGlo n < g.nodes.length)
    (hz : ∀ z ∈ g.zones, (∀ n ∈ g.zNodes z, n ∈ g.nodes) ∧ ∀ f ∈ g.zFaces z, ∀ n ∈ g.fNodes f, n ∈ g.nodes) :
    ∃ t, g.storeX c dflt = .ok t :=
  (C114_returns_iff c dflt g).2 ⟨hf, fun z h => ⟨fun n hn => hg n ((hz z h).1 n hn), fun f hf n hn => hg n ((hz z h).2 f hf n hn)⟩⟩

/-- The tetrahedron can be stored, and the file can be loaded. Then its edge 3 is shrunk, which succeeds, and storing the result
over the first file raises. The file now has the start of a zone only, and cannot be loaded. -/
theorem C114_destroyed_violation : ∃ (t0 t : Str) (g0 g' : Grid Int (Int × Int × Int)) (e : Err),
    Sample.tetraGrid.storeX intCodec 0 = .ok t0 ∧ loadText Sample.rc intCodec true Sample.new t0 = .ok g0 ∧
    Sample.tetraGrid.collapseEdge Sample.rc Sample.mid 3 = .ok (g', true) ∧
    g'.storeX intCodec 0 = .error (.index, some t) ∧ loadText Sample.rc intCodec true Sample.new t = .error e := by
  have h1 : (match Sample.tetraGrid.storeX intCodec 0 with
      | .ok t0 => (loadText Sample.rc intCodec true Sample.new t0).isOk
      | .error _ => false) = true := by decide +kernel
  have h2 : (match Sample.tetraGrid.collapseEdge Sample.rc Sample.mid 3 with
      | .ok (g', b) => b && (match g'.storeX intCodec 0 with
        | .error (.index, some t) => !(loadText Sample.rc intCodec true Sample.new t).isOk
        | _ => false)
      | .error _ => false) = true := by decide +kernel
  cases hs : Sample.tetraGrid.storeX intCodec 0 with
  | error x => rw [hs] at h1; cases h1
  | ok t0 =>
    rw [hs] at h1
    cases hl : loadText Sample.rc intCodec true Sample.new t0 with
    | error x => simp only [hl] at h1; cases h1
    | ok g0 =>
      cases hc : Sample.tetraGrid.collapseEdge Sample.rc Sample.mid 3 with
      | error x => rw [hc] at h2; cases h2
      | ok r =>
        obtain ⟨g', b⟩ := r
        rw [hc] at h2
        simp only [Bool.and_eq_true] at h2
        obtain ⟨rfl, h2⟩ := h2
        split at h2
        · rename_i t ht
          cases hq : loadText Sample.rc intCodec true Sample.new t with
          | ok a => rw [hq] at h2; cases h2
          | error e => exact ⟨t0, t, g0, g', e, rfl, hl, rfl, ht, hq⟩
        · cases h2

/-- The sample grid meets the conditions of `C114_counted`. -/
example : ∃ t, Sample.grid.storeX intCodec 0 = .ok t :=
  C114_counted intCodec 0 Sample.grid (by decide +kernel) (by decide +kernel) (by decide +kernel)

/-- A grid with no zone for its faces: a file with no zones is written. -/
example : ∃ t, ({ Sample.grid with zones := [] } : Grid Int (Int × Int × Int)).storeX intCodec 0 = .ok t :=
  (C114_returns_iff intCodec 0 _).2 ⟨by decide +kernel, fun _ h => by cases h⟩

/-- The conditions of `C113_again` are met by the two files of the violation and a repaired one. -/
example : ∃ (left : Grid Int (Int × Int × Int)) (e : Err) (d : Nat → List (Str × Int)),
    loadCalcX intCodec Sample.grid (some "VARIABLES=\"GloId\", \"T\"\n0 8\n1 x".toList) = .error (e, left) ∧
    left.loadCalc intCodec "VARIABLES=\"GloId\", \"T\"\n0 8\n1 9\n2 9\n".toList = .ok { left with fData := d } := by
  have h : leftAnd (loadCalcX intCodec Sample.grid (some "VARIABLES=\"GloId\", \"T\"\n0 8\n1 x".toList)) (fun _ => true) = true := by
    decide +kernel
  obtain ⟨e, left, hl, _⟩ := leftAnd_elim h
  obtain ⟨d, _, h2⟩ := C113_again intCodec Sample.grid left (by decide +kernel) _ "VARIABLES=\"GloId\", \"T\"\n0 8\n1 9\n2 9\n".toList
    "VARIABLES=\"GloId\", \"T\"\n".toList ["0 8\n".toList, "1 9\n".toList, "2 9\n".toList] ["T".toList] [(0, [8]), (1, [9]), (2, [9])] e hl
    (by decide +kernel) (by decide +kernel)
    (by
      refine .cons ⟨['0'], [['8']], by decide +kernel⟩ (.cons ⟨['1'], [['9']], by decide +kernel⟩ (.cons ⟨['2'], [['9']], by decide +kernel⟩ .nil)))
    (by decide +kernel) (by decide +kernel)
  exact ⟨left, e, d, hl, h2⟩

end Verif.Props
