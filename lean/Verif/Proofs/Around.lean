import Verif.Proofs.Pieces
import Mathlib.Combinatorics.Enumerative.DoubleCounting
import Mathlib.Algebra.BigOperators.Group.Finset.Basic
import Mathlib.Algebra.Order.BigOperators.Group.Finset

/-! Going around a node. -/

namespace Verif
open Grid
variable {F R : Type}

/-- A face has two edges at each of its corners. -/
theorem two_at {g : Grid F R} (m : Mesh g) {k n : Nat} (hk : k ∈ g.faces) (hn : n ∈ g.fNodes k) :
    ∃ x y, x ≠ y ∧ ∀ w, (w ∈ g.fEdges k ∧ n ∈ g.eNodes w) ↔ w = x ∨ w = y := by
  obtain ⟨hl, hnd, _⟩ := m.face_nodes k hk
  obtain ⟨p, hp, hpn⟩ : ∃ p ∈ g.fNodes k, p ≠ n := by
    obtain ⟨a, b, c, habc⟩ := List.length_eq_three.1 hl
    rw [habc] at hnd hn ⊢
    simp at hnd hn ⊢
    rcases hn with rfl | rfl | rfl
    · exact Or.inr (Or.inl fun h => hnd.1.1 h.symm)
    · exact Or.inl hnd.1.1
    · exact Or.inl hnd.1.2
  obtain ⟨e, he, e1, e2⟩ := m.sides k hk n hn p hp hpn.symm
  have heg := (m.face_edges k hk).2.2 e he
  obtain ⟨a, b, hab⟩ := List.length_eq_two.1 (m.edge_nodes e heg).1
  obtain ⟨c, e13, e23, t⟩ := corner m hk he hab
  rcases (t.j0 n).1 e1 with rfl | rfl
  · refine ⟨e, e13, t.ed1, fun w => ?_⟩
    rw [t.edges]
    constructor
    · rintro ⟨rfl | rfl | rfl, h⟩
      · exact Or.inl rfl
      · exact Or.inr rfl
      · rcases (t.j23 _).1 h with h | h
        · exact absurd h t.n12
        · exact absurd h t.n13
    · rintro (rfl | rfl)
      · exact ⟨Or.inl rfl, e1⟩
      · exact ⟨Or.inr (Or.inl rfl), (t.j13 _).2 (Or.inl rfl)⟩
  · refine ⟨e, e23, t.ed2, fun w => ?_⟩
    rw [t.edges]
    constructor
    · rintro ⟨rfl | rfl | rfl, h⟩
      · exact Or.inl rfl
      · rcases (t.j13 _).1 h with h | h
        · exact absurd h t.n12.symm
        · exact absurd h t.n23
      · exact Or.inr rfl
    · rintro (rfl | rfl)
      · exact ⟨Or.inl rfl, e1⟩
      · exact ⟨Or.inr (Or.inr rfl), (t.j23 _).2 (Or.inl rfl)⟩

/-- Two faces have a common edge at the node `n`, other than `e`. -/
def AroundStep (g : Grid F R) (n e k k' : Nat) : Prop :=
  ∃ x ∈ g.edges, x ≠ e ∧ n ∈ g.eNodes x ∧ k ∈ g.eFaces x ∧ k' ∈ g.eFaces x

/-- If all edges at a node have two faces, one can go from one face at such an edge to the other one around the node. -/
theorem around {g : Grid F R} (m : Mesh g) {e f h n : Nat} (he : e ∈ g.edges) (hf : g.eFaces e = [f, h]) (hn : n ∈ g.eNodes e)
    (all : ∀ x ∈ g.edges, n ∈ g.eNodes x → (g.eFaces x).length = 2) : Reach (AroundStep g n e) (fun _ => True) f h := by
  classical
  by_contra hno
  have hfe := (m.edge_face e he f).1 (by simp [hf])
  have hhe := (m.edge_face e he h).1 (by simp [hf])
  have hfn := m.edge_in_face f hfe.1 e hfe.2 n hn
  let S : Finset Nat := g.faces.toFinset.filter (fun k => n ∈ g.fNodes k ∧ Reach (AroundStep g n e) (fun _ => True) f k)
  let T : Finset Nat := g.edges.toFinset.filter (fun x => x ≠ e ∧ n ∈ g.eNodes x)
  have memS : ∀ k, k ∈ S ↔ k ∈ g.faces ∧ n ∈ g.fNodes k ∧ Reach (AroundStep g n e) (fun _ => True) f k := by
    intro k; simp only [S, Finset.mem_filter, List.mem_toFinset]
  have memT : ∀ x, x ∈ T ↔ x ∈ g.edges ∧ x ≠ e ∧ n ∈ g.eNodes x := by
    intro k; simp only [T, Finset.mem_filter, List.mem_toFinset]
  have hfS : f ∈ S := (memS f).2 ⟨hfe.1, hfn, .refl trivial⟩
  have count := Finset.sum_card_bipartiteAbove_eq_sum_card_bipartiteBelow (s := S) (t := T) (fun k x => x ∈ g.fEdges k)
  have left : ∑ k ∈ S, ((T.bipartiteAbove (fun k x => x ∈ g.fEdges k) k).card + if k = f then 1 else 0) = ∑ _k ∈ S, 2 := by
    refine Finset.sum_congr rfl fun k hk => ?_
    obtain ⟨k1, k2, k3⟩ := (memS k).1 hk
    obtain ⟨x, y, hxy, hw⟩ := two_at m k1 k2
    have key : ∀ w, w ∈ T.bipartiteAbove (fun k x => x ∈ g.fEdges k) k ↔ (w = x ∨ w = y) ∧ w ≠ e := by
      intro w
      rw [Finset.mem_bipartiteAbove, memT, ← hw]
      constructor
      · rintro ⟨⟨_, a, b⟩, c⟩; exact ⟨⟨c, b⟩, a⟩
      · rintro ⟨⟨c, b⟩, a⟩; exact ⟨⟨(m.face_edges k k1).2.2 w c, a, b⟩, c⟩
    by_cases hkf : k = f
    · subst hkf
      have hex := (hw e).1 ⟨hfe.2, hn⟩
      rw [if_pos rfl]
      have : T.bipartiteAbove (fun k x => x ∈ g.fEdges k) k = {if e = x then y else x} := by
        ext w
        rw [key, Finset.mem_singleton]
        rcases hex with rfl | rfl
        · rw [if_pos rfl]; exact ⟨fun h => h.1.resolve_left h.2, fun h => ⟨Or.inr h, h ▸ hxy.symm⟩⟩
        · rw [if_neg hxy.symm]; exact ⟨fun h => h.1.resolve_right h.2, fun h => ⟨Or.inl h, h ▸ hxy⟩⟩
      rw [this]; simp
    · rw [if_neg hkf]
      have hke : k ∉ g.eFaces e := by
        rw [hf]
        simp only [List.mem_cons, List.not_mem_nil, or_false]
        rintro (h' | h')
        · exact hkf h'
        · exact hno (h' ▸ k3)
      have hne : ∀ w, (w = x ∨ w = y) → w ≠ e := by
        rintro w hww rfl
        exact hke ((m.edge_face w he k).2 ⟨k1, ((hw w).2 hww).1⟩)
      have : T.bipartiteAbove (fun k x => x ∈ g.fEdges k) k = {x, y} := by
        ext w
        rw [key, Finset.mem_insert, Finset.mem_singleton]
        exact ⟨fun h => h.1, fun h => ⟨h, hne w h⟩⟩
      rw [this, Finset.card_pair hxy]
  rw [Finset.sum_add_distrib, Finset.sum_ite_eq' S f, if_pos hfS, count] at left
  have right : 2 ∣ ∑ x ∈ T, (S.bipartiteBelow (fun k x => x ∈ g.fEdges k) x).card := by
    refine Finset.dvd_sum fun x hx => ?_
    obtain ⟨x1, x2, x3⟩ := (memT x).1 hx
    obtain ⟨u, v, huv⟩ := List.length_eq_two.1 (all x x1 x3)
    have hne : u ≠ v := by have := (m.edge_faces x x1).2; rw [huv] at this; simpa using this
    have hu := (m.edge_face x x1 u).1 (by simp [huv])
    have hv := (m.edge_face x x1 v).1 (by simp [huv])
    have key : ∀ w, w ∈ S.bipartiteBelow (fun k x => x ∈ g.fEdges k) x ↔ w ∈ S ∧ (w = u ∨ w = v) := by
      intro w
      rw [Finset.mem_bipartiteBelow]
      refine and_congr_right fun hw => ?_
      have := m.edge_face x x1 w
      rw [huv] at this
      simp only [List.mem_cons, List.not_mem_nil, or_false] at this
      rw [this]
      exact ⟨fun h => ⟨((memS w).1 hw).1, h⟩, fun h => h.2⟩
    have both : u ∈ S ↔ v ∈ S := by
      constructor
      · intro h
        obtain ⟨_, _, h3⟩ := (memS u).1 h
        exact (memS v).2 ⟨hv.1, m.edge_in_face v hv.1 x hv.2 n x3, h3.step ⟨x, x1, x2, x3, by simp [huv], by simp [huv]⟩ trivial⟩
      · intro h
        obtain ⟨_, _, h3⟩ := (memS v).1 h
        exact (memS u).2 ⟨hu.1, m.edge_in_face u hu.1 x hu.2 n x3, h3.step ⟨x, x1, x2, x3, by simp [huv], by simp [huv]⟩ trivial⟩
    by_cases hus : u ∈ S
    · have : S.bipartiteBelow (fun k x => x ∈ g.fEdges k) x = {u, v} := by
        ext w
        rw [key, Finset.mem_insert, Finset.mem_singleton]
        refine ⟨fun h => h.2, fun h => ⟨?_, h⟩⟩
        rcases h with rfl | rfl
        · exact hus
        · exact both.1 hus
      rw [this, Finset.card_pair hne]
    · have : S.bipartiteBelow (fun k x => x ∈ g.fEdges k) x = ∅ := by
        ext w
        rw [key]
        simp only [Finset.notMem_empty, iff_false, not_and, not_or]
        intro hw
        exact ⟨fun h => hus (h ▸ hw), fun h => hus (both.2 (h ▸ hw))⟩
      rw [this]; simp
  have c2 : S.card • 2 = S.card * 2 := rfl
  rw [Finset.sum_const, c2] at left
  omega

end Verif
