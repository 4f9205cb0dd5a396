import Verif.Proofs.Smooth
import Verif.Props.Remesh

/-! Property C103: moving of nodes by the smoothing class, and its files. -/

namespace Verif.Props
open Verif Smooth
variable {F R : Type}

/-! ## C103 Shifts of nodes -/

/-- The name of an iteration has at least three characters, is read back as the number, and numbers below 1000 are ordered as strings like
numbers; so the files of an animation are in the right order. The name of a file is the name of the smoothing, `_smoothing_`, the name of
the iteration and `.dat`. -/
theorem C103_names (i j : Nat) : Py.int (nameOfIteration i) = .ok (i : Int) ∧ 3 ≤ (nameOfIteration i).length ∧
    (∀ nm, fileName nm i = nm ++ "_smoothing_".toList ++ nameOfIteration i ++ ".dat".toList) ∧
    (∀ nm, fileName nm i = fileName nm j ↔ i = j) ∧ (i < 1000 → j < 1000 → (nameOfIteration i < nameOfIteration j ↔ i < j)) := by
  have h1 : ∀ k, Py.int (nameOfIteration k) = .ok (k : Int) := fun k => by rw [name_eq]; exact Py.int_natStrPad 3 k
  refine ⟨h1 i, ?_, fun _ => rfl, ?_, ?_⟩
  · rw [name_eq]
    unfold Py.natStrPad
    rw [List.length_append, List.length_replicate]
    omega
  · intro nm
    refine ⟨fun h => ?_, fun h => by rw [h]⟩
    unfold fileName at h
    have h2 := List.append_cancel_left (List.append_cancel_right h)
    have h3 := h1 i
    rw [h2, h1 j] at h3
    simpa using h3.symm
  · intro hi hj
    rw [name_eq, name_eq]
    exact lex_iff (Py.natStrPad_allDec 3 i) (Py.natStrPad_allDec 3 j)
      (by rw [Py.natStrPad_length 3 i (by omega) (by simpa using hi), Py.natStrPad_length 3 j (by omega) (by simpa using hj)])
      (pad_parse 3 i) (pad_parse 3 j)

/-- From 1000 on the order of names is not the order of numbers. -/
theorem C103_names_violation : nameOfIteration 1000 < nameOfIteration 101 := by decide +kernel

example : nameOfIteration 7 = "007".toList ∧ nameOfIteration 42 = "042".toList ∧ nameOfIteration 999 = "999".toList := by decide +kernel

variable [Field F]

/-- With one shift for every node each node moves by its shift, except the nodes marked as border nodes if these are to be kept; nothing else of
the grid changes. Another number of shifts is an `AssertionError`. -/
theorem C103_shifts (fix : Bool) (g : Grid F R) (hn : g.nodes.Nodup) (shifts : List (Vec F)) :
    (g.nodes.length ≠ shifts.length → applyShifts fix g shifts = .error .assertion) ∧
    (g.nodes.length = shifts.length → ∃ q, applyShifts fix g shifts = .ok { g with nP := q } ∧ (∀ n ∉ g.nodes, q n = g.nP n) ∧
      ∀ (i n : Nat) (s : Vec F), g.nodes[i]? = some n → shifts[i]? = some s →
        q n = if fix = true ∧ g.nBorder n = true then g.nP n else ⟨(g.nP n).x + s.x, (g.nP n).y + s.y, (g.nP n).z + s.z⟩) := by
  constructor
  · intro h
    unfold applyShifts
    rw [if_neg h]
  · intro h
    have e : (g.nodes.zip shifts).map Prod.fst = g.nodes := List.map_fst_zip (by omega)
    obtain ⟨q, h1, h2, h3⟩ := moves fix (g.nodes.zip shifts) (by rw [e]; exact hn) g
    refine ⟨q, ?_, ?_, ?_⟩
    · unfold applyShifts
      rw [if_pos h, h1]
    · rw [e] at h2
      exact h2
    · intro i n s hi hs
      have : (n, s) ∈ g.nodes.zip shifts := by
        apply List.mem_iff_getElem?.2
        exact ⟨i, by rw [List.getElem?_zip_eq_some]; exact ⟨hi, hs⟩⟩
      exact h3 (n, s) this

/-- With border nodes marked by `mark_all_fixed_nodes` before, exactly the ends of edges with one face are kept. -/
theorem C103_fixed_partial [LinearOrder F] {g : Grid F R} (hm : Mesh g) (h0 : ∀ n ∈ g.nodes, g.nBorder n = false) (hc : g.borderCnt = 0) (shifts : List (Vec F))
    (hl : g.nodes.length = shifts.length) :
    ∃ g', applyShifts true g.markFixedNodes shifts = .ok g' ∧ ∀ (i n : Nat) (s : Vec F), g.nodes[i]? = some n → shifts[i]? = some s →
      ((∃ e ∈ g.edges, (g.eFaces e).length = 1 ∧ n ∈ g.eNodes e) → g'.nP n = g.nP n) ∧
      ((¬ ∃ e ∈ g.edges, (g.eFaces e).length = 1 ∧ n ∈ g.eNodes e) → g'.nP n = ⟨(g.nP n).x + s.x, (g.nP n).y + s.y, (g.nP n).z + s.z⟩) := by
  obtain ⟨k1, -, -, k4⟩ := C53_marked hm h0 hc
  have e1 : g.markFixedNodes.nodes = g.nodes := by rw [k4]
  have e2 : g.markFixedNodes.nP = g.nP := by rw [k4]
  obtain ⟨q, h1, -, h3⟩ := (C103_shifts true g.markFixedNodes (by rw [e1]; exact hm.nodes_nodup) shifts).2 (by rw [e1]; exact hl)
  refine ⟨_, h1, fun i n s hi hs => ?_⟩
  have h4 := h3 i n s (by rw [e1]; exact hi) hs
  rw [e2] at h4
  have hb := k1 n (List.mem_of_getElem? hi)
  constructor
  · intro h
    rw [if_pos ⟨rfl, hb.2 h⟩] at h4
    exact h4
  · intro h
    rw [if_neg (fun x => h (hb.1 x.2))] at h4
    exact h4

theorem moves_same (ps : List (Nat × Vec F)) (g : Grid F R) (h : ∀ p ∈ ps, g.nBorder p.1 = false) :
    ps.foldl (moveNode true) g = ps.foldl (moveNode false) g := by
  induction ps generalizing g with
  | nil => rfl
  | cons p ps ih =>
    rw [List.foldl_cons, List.foldl_cons]
    have : moveNode true g p = moveNode false g p := by
      unfold moveNode
      simp [h p (by simp)]
    rw [this, ih]
    intro x hx
    show (moveNode false g p).nBorder x.1 = false
    unfold moveNode
    exact h x (List.mem_cons_of_mem _ hx)

/-- `fix_boundary_nodes` alone keeps nothing: nodes are not marked when a grid is loaded, and the smoothing class does not mark them either. For every
grid without marked nodes the option makes no difference. -/
theorem C103_fixed_violation (g : Grid F R) (h0 : ∀ n ∈ g.nodes, g.nBorder n = false) (shifts : List (Vec F)) :
    applyShifts true g shifts = applyShifts false g shifts := by
  unfold applyShifts
  split
  · rw [moves_same]
    intro p hp
    exact h0 p.1 (List.of_mem_zip hp).1
  · rfl

/-- A square: all its nodes are ends of edges with one face. They move in spite of the option, and stay after marking. -/
example : (∀ n ∈ Sample.flatGrid.nodes, Sample.flatGrid.nBorder n = false ∧
      ∃ e ∈ Sample.flatGrid.edges, (Sample.flatGrid.eFaces e).length = 1 ∧ n ∈ Sample.flatGrid.eNodes e) ∧ Sample.flatGrid.borderCnt = 0 ∧
    (do let g ← applyShifts true Sample.flatGrid (List.replicate 4 ⟨1, 2, 3⟩); pure (g.nodes.map g.nP)) =
      .ok [⟨1, 2, 3⟩, ⟨2, 2, 3⟩, ⟨1, 3, 3⟩, ⟨2, 3, 3⟩] ∧
    (do let g ← applyShifts true Sample.flatGrid.markFixedNodes (List.replicate 4 ⟨1, 2, 3⟩); pure (g.nodes.map g.nP)) =
      .ok [⟨0, 0, 0⟩, ⟨1, 0, 0⟩, ⟨0, 1, 0⟩, ⟨1, 1, 0⟩] := by decide +kernel

/-- A moved node keeps its old `RoundedCoords`: the key by which nodes are found is the one of the old place. -/
theorem C103_key_violation : ∃ g, applyShifts false Sample.flatGrid (List.replicate 4 ⟨1, 2, 3⟩) = .ok g ∧
    ∀ n ∈ g.nodes, g.nKey n ≠ Sample.rcq (g.nP n) := by
  have h : (do let g ← applyShifts false Sample.flatGrid (List.replicate 4 ⟨1, 2, 3⟩); pure (decide (∀ n ∈ g.nodes, g.nKey n ≠ Sample.rcq (g.nP n)))) =
      .ok true := by decide +kernel
  cases e : applyShifts false Sample.flatGrid (List.replicate 4 ⟨1, 2, 3⟩) with
  | error x => rw [e] at h; exact absurd h (by simp [Bind.bind, Except.bind])
  | ok g =>
    rw [e, res_bind_ok] at h
    refine ⟨g, rfl, ?_⟩
    have : decide (∀ n ∈ g.nodes, g.nKey n ≠ Sample.rcq (g.nP n)) = true := by
      simpa [pure, Except.pure] using h
    exact of_decide_eq_true this

end Verif.Props
