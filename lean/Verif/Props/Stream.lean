import Verif.Proofs.Stream2
import Verif.Props.Cut

/-! Property C112: loads that raise. -/

namespace Verif.Props
open Verif Grid
variable {F R : Type} [DecidableEq R]

/-! ## C112 A load that fails

The property would be: a call of `load` that raises leaves the grid as it was. It does not hold. -/

/-- Reading and building line by line, as `load` does, gives a grid exactly when reading the whole file first and building
afterwards does, and it is the same grid. -/
theorem C112_agrees (rc : Vec F → R) (c : Codec F) (merge : Bool) (g g' : Grid F R) (text : Str) :
    loadX rc c merge g (some text) = .ok g' ↔ loadText rc c merge g text = .ok g' := by
  have h := load_both rc c merge g text
  rw [← opt_eq_some, ← h]
  cases loadX rc c merge g (some text) with
  | ok a => simp
  | error e => simp

/-- A file that cannot be opened empties the grid: nothing but its name is left. -/
theorem C112_missing_file_violation (rc : Vec F → R) (c : Codec F) (merge : Bool) (g : Grid F R) :
    ∃ left, loadX rc c merge g none = .error (.os, left) ∧ left.name = g.name ∧ left.nodes = [] ∧ left.edges = [] ∧ left.faces = [] ∧
      left.zones = [] :=
  ⟨g.clear, rfl, rfl, rfl, rfl, rfl, rfl⟩

/-- Whenever `load` raises, nothing of the grid loaded before is left, and the grid is in one of two states. Either the file
was not read to its end, and the grid has no edges, and faces of its last zone may have no corners. Or all zones of the
file are there, and an edge got a third face. (Partial: the grid is not as it was.) -/
theorem C112_left_partial (rc : Vec F → R) (c : Codec F) (merge : Bool) (g left : Grid F R) (text : Str) (e : Err)
    (h : loadX rc c merge g (some text) = .error (e, left)) :
    AllNew g left ∧ (HalfRead left ∨ e = .exc "Too many faces linking with this edge" ∧
      ∃ blocks, FileZones c text blocks ∧ List.Forall₂ (Represents rc merge left) blocks left.zones) :=
  load_leaves rc c merge g text e left h

/-- Nothing that was left by a failure matters for the next load: whether it returns depends on the file only, and it then
returns the grid of the file. -/
theorem C112_next (rc : Vec F → R) (c : Codec F) (merge : Bool) (text : Str) (blocks : List (ZoneBlock F)) (hb : FileZones c text blocks)
    (hd : NonDegenerate rc merge blocks) (hp : merge = false → ∀ b ∈ blocks, (b.pts.map rc).Nodup) :
    ((∀ left : Grid F R, ∃ nm g', loadText rc c merge left text = .ok g' ∧
        Loaded rc merge blocks { left with name := nm } g') ∨
      (∀ left : Grid F R, ∃ x, loadText rc c merge left text = .error x)) := by
  by_cases hall : ∀ b ∈ blocks, b.Valid
  · by_cases ho : OverShared rc merge blocks
    · right
      intro left
      obtain ⟨s, h1, h2⟩ := (fileZones_iff left.name).1 hb
      unfold loadText
      rcases load_spec rc merge { left with name := s.name } blocks hall hd hp with ⟨_, h⟩ | ⟨h, _⟩
      · exact ⟨_, by simp only [h1, res_bind_ok, h2]; exact h⟩
      · exact absurd ho h
    · left
      intro left
      obtain ⟨s, h1, h2⟩ := (fileZones_iff left.name).1 hb
      unfold loadText
      rcases load_spec rc merge { left with name := s.name } blocks hall hd hp with ⟨h, _⟩ | ⟨_, g', h, hl⟩
      · exact absurd h ho
      · exact ⟨s.name, g', by simp only [h1, res_bind_ok, h2]; exact h, hl⟩
  · right
    intro left
    obtain ⟨s, h1, h2⟩ := (fileZones_iff left.name).1 hb
    unfold loadText
    simp only [h1, res_bind_ok, h2]
    cases hr : loadBlocks rc merge { left with name := s.name } blocks with
    | error x => exact ⟨x, rfl⟩
    | ok g' => exact absurd (load_valid rc merge _ _ _ hr) hall

/-- The raised value, if the test holds of it. -/
def leftAnd (r : Left Int (Int × Int × Int) (Grid Int (Int × Int × Int))) (q : Grid Int (Int × Int × Int) → Bool) : Bool :=
  match r with
  | .ok _ => false
  | .error x => q x.2

theorem leftAnd_elim {r : Left Int (Int × Int × Int) (Grid Int (Int × Int × Int))} {q : Grid Int (Int × Int × Int) → Bool}
    (h : leftAnd r q = true) : ∃ e left, r = .error (e, left) ∧ q left = true := by
  cases r with
  | ok a => cases h
  | error x => exact ⟨x.1, x.2, rfl, h⟩

/-- A stored file without its last line is refused. The grid it was loaded into then has three faces in two zones, but no
edges, and one face has no corners. It can be stored without complaint, and the new file cannot be loaded. -/
theorem C112_half_violation : ∃ (text p text2 : Str) (e e2 : Err) (left : Grid Int (Int × Int × Int)),
    Sample.grid.storeText intCodec 0 = .ok text ∧ p <+: text ∧ loadX Sample.rc intCodec true Sample.grid (some p) = .error (e, left) ∧
    left.faces.length = 3 ∧ left.zones.length = 2 ∧ left.edges = [] ∧ left.faces.map (fun f => (left.fNodes f).length) = [3, 3, 0] ∧
    left.storeText intCodec 0 = .ok text2 ∧ loadText Sample.rc intCodec true Sample.new text2 = .error e2 := by
  obtain ⟨text, ht, hq⟩ := okAnd_elim (r := Sample.grid.storeText intCodec 0) (q := fun text =>
    leftAnd (loadX Sample.rc intCodec true Sample.grid (some (text.take (text.length - 6)))) (fun left =>
      decide (left.faces.length = 3 ∧ left.zones.length = 2 ∧ left.edges = [] ∧ left.faces.map (fun f => (left.fNodes f).length) = [3, 3, 0]) &&
      okAnd (left.storeText intCodec 0) (fun text2 => !(loadText Sample.rc intCodec true Sample.new text2).isOk)))
    (by decide +kernel)
  obtain ⟨e, left, hl, hq⟩ := leftAnd_elim hq
  rw [Bool.and_eq_true] at hq
  obtain ⟨h1, h2, h3, h4⟩ := of_decide_eq_true hq.1
  obtain ⟨text2, ht2, hq2⟩ := okAnd_elim hq.2
  cases hr : loadText Sample.rc intCodec true Sample.new text2 with
  | ok g' => rw [hr] at hq2; cases hq2
  | error e2 => exact ⟨text, _, text2, e, e2, left, ht, List.take_prefix _ _, hl, h1, h2, h3, h4, ht2, hr⟩

/-- A file which is read to its end and then refused: three triangles with a common side. -/
example : ∃ (text : Str) (left : Grid Int (Int × Int × Int)),
    loadX Sample.rc intCodec true Sample.grid (some text) = .error (.exc "Too many faces linking with this edge", left) ∧
    left.faces.length = 3 ∧ left.edges ≠ [] := by
  have h : leftAnd (loadX Sample.rc intCodec true Sample.grid (some
      "VARIABLES=\"X\", \"Y\", \"Z\"\nZONE T=\"a\"\nNODES=5\nELEMENTS=3\nDATAPACKING=BLOCK\nZONETYPE=FETRIANGLE\nVARLOCATION=([4-3]=CELLCENTERED)\n0 1 0 1 2\n0 0 1 1 0\n0 0 0 1 5\n1 2 3\n1 2 4\n2 1 5\n".toList))
      (fun left => decide (left.faces.length = 3 ∧ left.edges ≠ [])) = true := by decide +kernel
  obtain ⟨e, left, hl, hq⟩ := leftAnd_elim h
  obtain ⟨h1, h2⟩ := of_decide_eq_true hq
  have hh := (C112_left_partial _ _ _ _ _ _ _ hl).2
  rcases hh with hh | ⟨rfl, _⟩
  · exact absurd hh.no_edges h2
  · exact ⟨_, left, hl, h1, h2⟩

namespace StreamSample
deriving instance DecidableEq for ZoneBlock
end StreamSample
open StreamSample

/-- A file with two zones that meets the conditions of `C112_next`, and is loaded whatever was in the grid. -/
example : ∃ text, FileZones intCodec text Sample.blocks ∧ NonDegenerate Sample.rc true Sample.blocks ∧
    ∀ left : Grid Int (Int × Int × Int), ∃ g', loadText Sample.rc intCodec true left text = .ok g' := by
  obtain ⟨text, _, hq⟩ := okAnd_elim (r := Sample.grid.storeText intCodec 0) (q := fun text =>
    okAnd (parseFile intCodec (Py.readlines text).length ⟨[], [], []⟩ (Py.readlines text)) (fun s => decide (s.blocks = Sample.blocks)) &&
    (loadText Sample.rc intCodec true Sample.new text).isOk) (by decide +kernel)
  rw [Bool.and_eq_true] at hq
  obtain ⟨s, h1, h2⟩ := okAnd_elim hq.1
  have hz : FileZones intCodec text Sample.blocks := ⟨s, h1, of_decide_eq_true h2⟩
  have hd : NonDegenerate Sample.rc true Sample.blocks := by decide +kernel
  refine ⟨text, hz, hd, fun left => ?_⟩
  rcases C112_next (R := Int × Int × Int) Sample.rc intCodec true text Sample.blocks hz hd (by intro h; cases h) with h | h
  · obtain ⟨_, g', h, _⟩ := h left
    exact ⟨g', h⟩
  · obtain ⟨x, h⟩ := h Sample.new
    rw [h] at hq
    cases hq.2

end Verif.Props
