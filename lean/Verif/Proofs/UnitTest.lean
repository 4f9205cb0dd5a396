import Verif.Proofs.Steps
import Verif.Spec.UnitTest
import Mathlib.Tactic.Ring

/-! Lemmas on the unit test of transformations. -/

namespace Verif
open Grid
variable {F R : Type}

theorem zipIdx_all (s : List Nat) : s.zipIdx.all (fun p => decide (p.2 = p.1)) = true ↔ s = List.range s.length := by
  rw [List.all_eq_true]
  constructor
  · intro h
    apply List.ext_getElem (by simp)
    intro i h1 h2
    have := h (s[i], i) (by rw [List.mem_zipIdx_iff_getElem?]; simp [h1])
    simp at this
    simp [← this]
  · intro h p hp
    rw [List.mem_zipIdx_iff_getElem?] at hp
    have hl := (List.getElem?_eq_some_iff.1 hp).1
    rw [h, List.getElem?_range hl] at hp
    simpa using Option.some.inj hp

theorem sorted_range_iff (l : List Nat) : l.mergeSort (fun a b => decide (a ≤ b)) = List.range (l.mergeSort (fun a b => decide (a ≤ b))).length ↔
    l.Perm (List.range l.length) := by
  have hp := List.mergeSort_perm l (fun a b => decide (a ≤ b))
  have hs : (l.mergeSort (fun a b => decide (a ≤ b))).Pairwise (fun a b => decide (a ≤ b) = true) :=
    List.pairwise_mergeSort (by simp only [decide_eq_true_eq]; omega) (by simp; omega) l
  rw [hp.length_eq]
  constructor
  · intro h
    rw [← h]; exact hp.symm
  · intro h
    refine (hp.trans h).eq_of_pairwise (fun a b _ _ h1 h2 => ?_) hs ?_
    · simp only [decide_eq_true_eq] at h1 h2; omega
    · exact List.pairwise_le_range.imp (by simp)

theorem check_iff (old new : List Nat) (d : Int) : UnitTest.checkGloId old new d = true ↔
    (new.length : Int) = old.length + d ∧ new.Perm (List.range new.length) := by
  unfold UnitTest.checkGloId
  split
  · rename_i h
    rw [zipIdx_all, sorted_range_iff]
    exact ⟨fun k => ⟨h, k⟩, fun k => k.2⟩
  · rename_i h
    exact ⟨fun k => (by cases k), fun k => absurd k.1 h⟩

theorem passes_iff {g g' : Grid F R} {dn de df : Int} : Passes g g' dn de df ↔ GloPerm g' ∧
    (g'.nodes.length : Int) = g.nodes.length + dn ∧ (g'.edges.length : Int) = g.edges.length + de ∧
    (g'.faces.length : Int) = g.faces.length + df := by
  unfold Passes
  simp only [check_iff, List.length_map]
  exact ⟨fun ⟨⟨a, b⟩, ⟨c, d⟩, e, f⟩ => ⟨⟨b, d, f⟩, a, c, e⟩, fun ⟨⟨b, d, f⟩, a, c, e⟩ => ⟨⟨a, b⟩, ⟨c, d⟩, e, f⟩⟩

theorem findFace_spec {g : Grid F R} {k : Nat} (fs : List Nat) (hn : ∀ f ∈ fs, g.fEdges f ≠ []) :
    (UnitTest.findFace g k fs = .error .index ∧ ∀ h ∈ fs, ∀ e' es', g.fEdges h = e' :: es' → (g.eFaces e').length ≠ k) ∨
    ∃ f e l1 l2 es, UnitTest.findFace g k fs = .ok (f, e) ∧ fs = l1 ++ f :: l2 ∧ g.fEdges f = e :: es ∧ (g.eFaces e).length = k ∧
      ∀ h ∈ l1, ∀ e' es', g.fEdges h = e' :: es' → (g.eFaces e').length ≠ k := by
  induction fs with
  | nil => left; exact ⟨rfl, fun h hh => by cases hh⟩
  | cons f fs ih =>
    have hf := hn f (by simp)
    cases he : g.fEdges f with
    | nil => exact absurd he hf
    | cons e es =>
      have hg : Py.get (g.fEdges f) 0 = .ok e := by rw [he]; rfl
      rw [UnitTest.findFace, hg, res_bind_ok]
      by_cases hk : (g.eFaces e).length = k
      · right
        refine ⟨f, e, [], fs, es, ?_, rfl, he, hk, fun h hh => by cases hh⟩
        rw [if_pos hk]
      · rw [if_neg hk]
        have hx : ∀ e' es', g.fEdges f = e' :: es' → (g.eFaces e').length ≠ k := by
          intro e' es' h
          rw [he] at h
          obtain ⟨rfl, rfl⟩ := List.cons.inj h
          exact hk
        rcases ih (fun f hf => hn f (by simp [hf])) with ⟨h1, h2⟩ | ⟨f', e', l1, l2, es', h1, h2, h3, h4, h5⟩
        · left
          refine ⟨h1, fun h hh => ?_⟩
          rcases List.mem_cons.1 hh with rfl | hh
          · exact hx
          · exact h2 h hh
        · right
          refine ⟨f', e', f :: l1, l2, es', h1, by rw [h2]; rfl, h3, h4, fun h hh => ?_⟩
          rcases List.mem_cons.1 hh with rfl | hh
          · exact hx
          · exact h5 h hh

theorem firstWith_unique {g : Grid F R} {k f e f' e' : Nat} (h : FirstWith g k f e) (h' : FirstWith g k f' e') :
    f = f' ∧ e = e' := by
  obtain ⟨l1, l2, es, h1, h2, h3, h4⟩ := h
  obtain ⟨m1, m2, es', k1, k2, k3, k4⟩ := h'
  have hff : f = f' := by
    rw [h1] at k1
    rcases List.append_eq_append_iff.1 k1 with ⟨c, c1, c2⟩ | ⟨c, c1, c2⟩
    · cases c with
      | nil => exact (List.cons.inj c2).1
      | cons x c =>
        obtain ⟨rfl, -⟩ := List.cons.inj c2
        exact absurd h3 (k4 f (by rw [c1]; simp) e es h2)
    · cases c with
      | nil => exact (List.cons.inj c2).1.symm
      | cons x c =>
        obtain ⟨rfl, -⟩ := List.cons.inj c2
        exact absurd k3 (h4 f' (by rw [c1]; simp) e' es' k2)
  subst hff
  rw [h2] at k2
  exact ⟨rfl, (List.cons.inj k2).1⟩

theorem fEdges_ne {g : Grid F R} (m : Mesh g) : ∀ f ∈ g.faces, g.fEdges f ≠ [] := by
  intro f hf h
  have := (m.face_edges f hf).1
  rw [h] at this
  simp at this

theorem findFace_ok {g : Grid F R} (m : Mesh g) {k f e : Nat} :
    UnitTest.findFace g k g.faces = .ok (f, e) ↔ FirstWith g k f e := by
  rcases findFace_spec (k := k) g.faces (fEdges_ne m) with ⟨h1, h2⟩ | ⟨f', e', l1, l2, es, h1, h2, h3, h4, h5⟩
  · rw [h1]
    refine ⟨fun h => (nomatch h), fun ⟨l1, l2, es, k1, k2, k3, _⟩ => ?_⟩
    exact absurd k3 (h2 f (by rw [k1]; simp) e es k2)
  · have hw : FirstWith g k f' e' := ⟨l1, l2, es, h2, h3, h4, h5⟩
    rw [h1]
    constructor
    · intro h
      obtain ⟨rfl, rfl⟩ := Prod.mk.inj (Except.ok.inj h)
      exact hw
    · intro h
      obtain ⟨rfl, rfl⟩ := firstWith_unique hw h
      rfl

theorem findFace_error {g : Grid F R} (m : Mesh g) {k : Nat} :
    UnitTest.findFace g k g.faces = .error .index ↔ ∀ f e, ¬ FirstWith g k f e := by
  rcases findFace_spec (k := k) g.faces (fEdges_ne m) with ⟨h1, h2⟩ | ⟨f', e', l1, l2, es, h1, h2, h3, h4, h5⟩
  · rw [h1]
    refine ⟨fun _ f e h => ?_, fun _ => rfl⟩
    obtain ⟨l1, l2, es, k1, k2, k3, _⟩ := h
    exact absurd k3 (h2 f (by rw [k1]; simp) e es k2)
  · rw [h1]
    exact ⟨fun h => (nomatch h), fun h => absurd ⟨l1, l2, es, h2, h3, h4, h5⟩ (h f' e')⟩

theorem FirstWith.face {g : Grid F R} {k f e : Nat} (h : FirstWith g k f e) : f ∈ g.faces := by
  obtain ⟨l1, l2, es, h1, _⟩ := h
  rw [h1]; simp

theorem FirstWith.edge {g : Grid F R} (m : Mesh g) {k f e : Nat} (h : FirstWith g k f e) : e ∈ g.edges := by
  have hf := h.face
  obtain ⟨l1, l2, es, h1, h2, _⟩ := h
  exact (m.face_edges f hf).2.2 e (by rw [h2]; simp)

theorem FirstWith.count {g : Grid F R} {k f e : Nat} (h : FirstWith g k f e) : (g.eFaces e).length = k := by
  obtain ⟨l1, l2, es, _, _, h3, _⟩ := h
  exact h3

theorem centre_ok [Field F] [LinearOrder F] [DecidableEq R] {g : Grid F R} (m : Mesh g) {f : Nat} (hf : f ∈ g.faces) :
    ∃ p, UnitTest.centroid g f = .ok p ∧ IsCentroid g f p := by
  obtain ⟨a, b, c, hn⟩ := List.length_eq_three.1 (m.face_nodes f hf).1
  have h0 : Py.get (g.fNodes f) 0 = .ok a := by rw [hn]; rfl
  have h1 : Py.get (g.fNodes f) 1 = .ok b := by rw [hn]; rfl
  have h2 : Py.get (g.fNodes f) 2 = .ok c := by rw [hn]; rfl
  refine ⟨Tri.centroid ⟨f, g.nP a, g.nP b, g.nP c, some f⟩, ?_, a, b, c, hn, ?_⟩
  · unfold UnitTest.centroid triangle
    rw [h0, h1, h2]; rfl
  · simp only [Tri.centroid, Vec.add, Vec.smul]
    refine ⟨?_, ?_, ?_⟩ <;> ring

end Verif
