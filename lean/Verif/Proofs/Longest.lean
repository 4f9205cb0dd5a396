import Verif.Spec.Transform
import Verif.Proofs.Basic
import Verif.Proofs.PyLemmas
import Mathlib.Order.Basic
import Mathlib.Order.Defs.LinearOrder

/-! `max_edge_from_face` gives the first longest edge. -/

namespace Verif
namespace Grid
variable {F R : Type}

theorem lenEdge_eq (dist : Vec F → Vec F → F) (g : Grid F R) {e a b : Nat} (h : g.eNodes e = [a, b]) :
    g.lenEdge dist e = .ok (dist (g.nP a) (g.nP b)) := by
  unfold lenEdge
  rw [h, if_neg (by simp)]
  rfl

theorem eNodes_pair {g : Grid F R} (m : Mesh g) {e : Nat} (he : e ∈ g.edges) : ∃ a b, g.eNodes e = [a, b] :=
  List.length_eq_two.1 (m.edge_nodes e he).1

/-- For any comparison the result is an edge of the face. -/
theorem maxEdge_ok (dist : Vec F → Vec F → F) (gt : F → F → Bool) {g : Grid F R} (m : Mesh g) {f : Nat} (hf : f ∈ g.faces) :
    ∃ e ∈ g.fEdges f, g.maxEdge dist gt f = .ok e := by
  obtain ⟨hl, -, he⟩ := m.face_edges f hf
  obtain ⟨x, y, z, hx⟩ := List.length_eq_three.1 hl
  have len : ∀ e ∈ g.fEdges f, ∃ l, g.lenEdge dist e = .ok l := fun e h => by
    obtain ⟨a, b, hab⟩ := eNodes_pair m (he e h)
    exact ⟨_, lenEdge_eq dist g hab⟩
  unfold maxEdge maxEdgeStep
  rw [hx] at len ⊢
  obtain ⟨lx, h1⟩ := len x (by simp)
  obtain ⟨ly, h2⟩ := len y (by simp)
  obtain ⟨lz, h3⟩ := len z (by simp)
  cases c1 : gt ly lx
  · cases c2 : gt lz lx
    · refine ⟨x, by simp, ?_⟩
      show (g.lenEdge dist x >>= _) = _
      simp [h1, h2, h3, res_bind_ok, c1, c2]
    · refine ⟨z, by simp, ?_⟩
      show (g.lenEdge dist x >>= _) = _
      simp [h1, h2, h3, res_bind_ok, c1, c2]
  · cases c2 : gt lz ly
    · refine ⟨y, by simp, ?_⟩
      show (g.lenEdge dist x >>= _) = _
      simp [h1, h2, h3, res_bind_ok, c1, c2]
    · refine ⟨z, by simp, ?_⟩
      show (g.lenEdge dist x >>= _) = _
      simp [h1, h2, h3, res_bind_ok, c1, c2]

theorem maxEdge_longest [LinearOrder F] (dist : Vec F → Vec F → F) {g : Grid F R} (m : Mesh g) {f : Nat} (hf : f ∈ g.faces) :
    ∃ e ∈ g.fEdges f, g.maxEdge dist (fun x y => decide (y < x)) f = .ok e ∧
      (∀ e' ∈ g.fEdges f, ∀ a b a' b', g.eNodes e = [a, b] → g.eNodes e' = [a', b'] →
        dist (g.nP a') (g.nP b') ≤ dist (g.nP a) (g.nP b)) ∧
      ∃ l1 l2, g.fEdges f = l1 ++ e :: l2 ∧ ∀ e' ∈ l1, ∀ a b a' b', g.eNodes e = [a, b] → g.eNodes e' = [a', b'] →
        dist (g.nP a') (g.nP b') < dist (g.nP a) (g.nP b) := by
  obtain ⟨hl, -, he⟩ := m.face_edges f hf
  obtain ⟨x, y, z, hx⟩ := List.length_eq_three.1 hl
  obtain ⟨len, hlen⟩ : ∃ len : Nat → F, ∀ e ∈ g.fEdges f, g.lenEdge dist e = .ok (len e) := by
    refine ⟨fun e => match g.eNodes e with | a :: b :: _ => dist (g.nP a) (g.nP b) | _ => dist (g.nP 0) (g.nP 0), ?_⟩
    intro e h
    obtain ⟨a, b, hab⟩ := eNodes_pair m (he e h)
    simp only [lenEdge_eq dist g hab, hab]
  have hlen' : ∀ e ∈ g.fEdges f, ∀ a b, g.eNodes e = [a, b] → dist (g.nP a) (g.nP b) = len e := by
    intro e h a b hab
    have := hlen e h
    rw [lenEdge_eq dist g hab] at this
    exact Except.ok.inj this
  have key : ∃ e ∈ g.fEdges f, g.maxEdge dist (fun x y => decide (y < x)) f = .ok e ∧ (∀ e' ∈ g.fEdges f, len e' ≤ len e) ∧
      ∃ l1 l2, g.fEdges f = l1 ++ e :: l2 ∧ ∀ e' ∈ l1, len e' < len e := by
    unfold maxEdge maxEdgeStep
    rw [hx] at hlen ⊢
    have h1 := hlen x (by simp)
    have h2 := hlen y (by simp)
    have h3 := hlen z (by simp)
    by_cases c1 : len x < len y
    · by_cases c2 : len y < len z
      · refine ⟨z, by simp, ?_, ?_, ⟨[x, y], [], rfl, by simp only [List.mem_cons, List.not_mem_nil, or_false, forall_eq_or_imp, forall_eq]; exact ⟨c1.trans c2, c2⟩⟩⟩
        · show (g.lenEdge dist x >>= _) = _
          simp [h1, h2, h3, res_bind_ok, c1, c2]
        · simp only [List.mem_cons, List.not_mem_nil, or_false, forall_eq_or_imp, forall_eq]
          exact ⟨(c1.trans c2).le, c2.le, le_refl _⟩
      · refine ⟨y, by simp, ?_, ?_, ⟨[x], [z], rfl, by simpa using c1⟩⟩
        · show (g.lenEdge dist x >>= _) = _
          simp [h1, h2, h3, res_bind_ok, c1, c2]
        · simp only [List.mem_cons, List.not_mem_nil, or_false, forall_eq_or_imp, forall_eq]
          exact ⟨c1.le, le_refl _, not_lt.1 c2⟩
    · by_cases c2 : len x < len z
      · refine ⟨z, by simp, ?_, ?_, ⟨[x, y], [], rfl, by simp only [List.mem_cons, List.not_mem_nil, or_false, forall_eq_or_imp, forall_eq]; exact ⟨c2, (not_lt.1 c1).trans_lt c2⟩⟩⟩
        · show (g.lenEdge dist x >>= _) = _
          simp [h1, h2, h3, res_bind_ok, c1, c2]
        · simp only [List.mem_cons, List.not_mem_nil, or_false, forall_eq_or_imp, forall_eq]
          exact ⟨c2.le, (not_lt.1 c1).trans c2.le, le_refl _⟩
      · refine ⟨x, by simp, ?_, ?_, ⟨[], [y, z], rfl, by simp⟩⟩
        · show (g.lenEdge dist x >>= _) = _
          simp [h1, h2, h3, res_bind_ok, c1, c2]
        · simp only [List.mem_cons, List.not_mem_nil, or_false, forall_eq_or_imp, forall_eq]
          exact ⟨le_refl _, not_lt.1 c1, not_lt.1 c2⟩
  obtain ⟨e, h1, h2, h3, l1, l2, h4, h5⟩ := key
  refine ⟨e, h1, h2, fun e' he' a b a' b' ha ha' => ?_, l1, l2, h4, fun e' he' a b a' b' ha ha' => ?_⟩
  · rw [hlen' e h1 a b ha, hlen' e' he' a' b' ha']
    exact h3 e' he'
  · rw [hlen' e h1 a b ha, hlen' e' (by rw [h4]; simp [he']) a' b' ha']
    exact h5 e' he'

end Grid
end Verif
