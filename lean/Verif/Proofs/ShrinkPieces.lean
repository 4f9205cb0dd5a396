import Verif.Proofs.Around
import Verif.Proofs.Transform

/-! Pieces of the surface when an edge is shrunk. -/

namespace Verif
open Grid
variable {F R : Type}

section
variable {rc : Vec F → R} {mid : Vec F → Vec F → Vec F} {g g' : Grid F R} {e n1 n2 : Nat} {p : Vec F}

theorem Shrinks.face (s : Shrinks g g' e n1 n2 p) (k : Nat) : k ∈ g'.faces ↔ k ∈ g.faces ∧ k ∉ g.eFaces e := by
  rw [s.faces]; unfold leftFaces; simp

/-- A remaining face does not have both ends of the edge as corners. -/
theorem Shrinks.one_end (s : Shrinks g g' e n1 n2 p) (m : Mesh g) (he : e ∈ g.edges) (hn : g.eNodes e = [n1, n2]) {k : Nat}
    (hk : k ∈ g'.faces) : ¬ (n1 ∈ g.fNodes k ∧ n2 ∈ g.fNodes k) := by
  rintro ⟨h1, h2⟩
  obtain ⟨k1, k2⟩ := (s.face k).1 hk
  have hab : n1 ≠ n2 := by have := (m.edge_nodes e he).2.1; rw [hn] at this; simpa using this
  obtain ⟨x, hx, x1, x2⟩ := m.sides k k1 n1 h1 n2 h2 hab
  have hx' := (m.face_edges k k1).2.2 x hx
  have j := joins_of m hx' x1 x2 hab
  obtain rfl := m.edge_unique e he x hx' (fun n => by rw [j, hn]; simp)
  exact k2 ((m.edge_face e he k).2 ⟨k1, hx⟩)

/-- Remaining faces with a common side keep it. -/
theorem Shrinks.side (s : Shrinks g g' e n1 n2 p) (m : Mesh g) (m' : Mesh g') (he : e ∈ g.edges) (hn : g.eNodes e = [n1, n2])
    {k k' x y : Nat} (hk : k ∈ g'.faces) (hk' : k' ∈ g'.faces) (hxy : x ≠ y) (kx : x ∈ g.fNodes k) (ky : y ∈ g.fNodes k)
    (kx' : x ∈ g.fNodes k') (ky' : y ∈ g.fNodes k') : Piece g' k k' := by
  have hab : n1 ≠ n2 := by have := (m.edge_nodes e he).2.1; rw [hn] at this; simpa using this
  have one := s.one_end m he hn hk
  have img : ∀ w k, k ∈ g'.faces → w ∈ g.fNodes k → (if w = n2 then n1 else w) ∈ g'.fNodes k := by
    intro w k hk hw
    rw [s.corners k hk]
    split
    · rename_i h; subst h; exact ⟨hab, Or.inr ⟨rfl, hw⟩⟩
    · rename_i h; exact ⟨h, Or.inl hw⟩
  refine Piece.side m' hk hk' (a := if x = n2 then n1 else x) (b := if y = n2 then n1 else y) ?_ (img x k hk kx) (img y k hk ky)
    (img x k' hk' kx') (img y k' hk' ky')
  split
  · rename_i h
    subst h
    rw [if_neg hxy.symm]
    rintro rfl
    exact one ⟨ky, kx⟩
  · split
    · rename_i h1 h2
      subst h2
      rintro rfl
      exact one ⟨kx, ky⟩
    · exact hxy

/-- Shrinking an edge does not join pieces. -/
theorem shrink_not_join (m : Mesh g) (C : Collapsible rc mid g e n1 n2) (s : Shrinks g g' e n1 n2 p) (m' : Mesh g') {k k' : Nat}
    (h : Piece g' k k') : Piece g k k' := by
  have hab : n1 ≠ n2 := by have := (m.edge_nodes e C.edge).2.1; rw [C.ends] at this; simpa using this
  unfold Piece at h
  induction h with
  | refl h => exact .refl ((s.face _).1 h).1
  | @step b c q ad hc ih =>
    refine Piece.trans ih ?_
    have hb := q.target
    have hbg := ((s.face b).1 hb).1
    have hcg := ((s.face c).1 hc).1
    obtain ⟨_, x, y, hxy, bx, yb, cx, cy⟩ := (adj_iff m' hb hc).1 ad
    rw [s.corners b hb] at bx yb
    rw [s.corners c hc] at cx cy
    -- a side from `n1` after the change
    have key : ∀ y, y ≠ n1 → y ∈ g.fNodes b → y ∈ g.fNodes c → (n1 ∈ g.fNodes b ∨ n2 ∈ g.fNodes b) → (n1 ∈ g.fNodes c ∨ n2 ∈ g.fNodes c) →
        y ≠ n2 → Piece g b c := by
      intro y hy yb cy hb' hc' hy2
      have far : ∀ u v, u ∈ g.faces → v ∈ g.faces → y ∈ g.fNodes u → y ∈ g.fNodes v → n1 ∈ g.fNodes u → n2 ∈ g.fNodes v → Piece g u v := by
        intro u v hu hv uy vy u1 v2
        obtain ⟨w, hw, w1, w2⟩ := m.sides u hu n1 u1 y uy hy.symm
        obtain ⟨w', hw', w1', w2'⟩ := m.sides v hv n2 v2 y vy hy2.symm
        have gw := (m.face_edges u hu).2.2 w hw
        have gw' := (m.face_edges v hv).2.2 w' hw'
        obtain ⟨d, hd, dy⟩ := C.link y w gw w' gw' (joins_of m gw w1 w2 hy.symm) (joins_of m gw' w1' w2' hy2.symm)
        obtain ⟨d1, d2⟩ := (m.edge_face e C.edge d).1 hd
        have dn1 := m.edge_in_face d d1 e d2 n1 (by simp [C.ends])
        have dn2 := m.edge_in_face d d1 e d2 n2 (by simp [C.ends])
        exact (Piece.side m hu d1 hy.symm u1 uy dn1 dy).trans (Piece.side m d1 hv hy2.symm dn2 dy v2 vy)
      rcases hb' with b1 | b2 <;> rcases hc' with c1 | c2
      · exact Piece.side m hbg hcg hy.symm b1 yb c1 cy
      · exact far b c hbg hcg yb cy b1 c2
      · exact (far c b hcg hbg cy yb c1 b2).symm
      · exact Piece.side m hbg hcg hy2.symm b2 yb c2 cy
    by_cases hx1 : x = n1
    · subst hx1
      have yb' : y ∈ g.fNodes b := yb.2.resolve_right fun h => hxy h.1.symm
      have cy' : y ∈ g.fNodes c := cy.2.resolve_right fun h => hxy h.1.symm
      exact key y hxy.symm yb' cy' (bx.2.imp_right And.right) (cx.2.imp_right And.right) yb.1
    · have bx' : x ∈ g.fNodes b := bx.2.resolve_right fun h => hx1 h.1
      have cx' : x ∈ g.fNodes c := cx.2.resolve_right fun h => hx1 h.1
      by_cases hy1 : y = n1
      · subst hy1
        exact key x hxy bx' cx' (yb.2.imp_right And.right) (cy.2.imp_right And.right) bx.1
      · exact Piece.side m hbg hcg hxy bx' (yb.2.resolve_right fun h => hy1 h.1) cx' (cy.2.resolve_right fun h => hy1 h.1)

/-- Every face has a remaining face in its piece; more exactly, the faces at the edge have a neighbour which remains. -/
theorem shrink_neighbour (G : Good rc g) (C : Collapsible rc mid g e n1 n2) (s : Shrinks g g' e n1 n2 p) {d : Nat} (hd : d ∈ g.eFaces e) :
    ∃ k ∈ g'.faces, ∃ a b, a ≠ b ∧ a ∈ g.fNodes k ∧ b ∈ g.fNodes k ∧ a ∈ g.fNodes d ∧ b ∈ g.fNodes d := by
  obtain ⟨x, hx, hxe, hl⟩ := C.sides d hd
  have m := G.mesh
  have hdg := ((m.edge_face e C.edge d).1 hd)
  have hxg := (m.face_edges d hdg.1).2.2 x hx
  obtain ⟨u, v, huv⟩ := List.length_eq_two.1 hl
  have hnd := (m.edge_faces x hxg).2
  have hdx : d ∈ g.eFaces x := (m.edge_face x hxg d).2 ⟨hdg.1, hx⟩
  obtain ⟨k, hkx, hkd⟩ : ∃ k ∈ g.eFaces x, k ≠ d := by
    rw [huv] at hdx hnd ⊢
    simp at hdx hnd ⊢
    rcases hdx with rfl | rfl
    · exact Or.inr (Ne.symm hnd)
    · exact Or.inl hnd
  obtain ⟨k1, k2⟩ := (m.edge_face x hxg k).1 hkx
  have hke : k ∉ g.eFaces e := by
    intro hke
    obtain ⟨f, h, hf⟩ := List.length_eq_two.1 C.inner
    obtain ⟨c, c', e13, e23, e14, e24, t⟩ := corner2 m G.simple C.edge hf C.ends
    have a1 : ∀ x, x ∈ g.fEdges f → x ∈ g.fEdges h → x = e := by
      intro x h1 h2
      rcases (t.c.edges x).1 h1 with h1 | h1 | h1 <;> rcases (t.d.edges x).1 h2 with h2 | h2 | h2 <;> try assumption
      · exact absurd (h1.symm.trans h2) t.x1
      · exact absurd (h1.symm.trans h2) t.x2
      · exact absurd (h1.symm.trans h2) t.x3
      · exact absurd (h1.symm.trans h2) t.x4
    rw [hf] at hke hd
    simp only [List.mem_cons, List.not_mem_nil, or_false] at hke hd
    rcases hke with rfl | rfl <;> rcases hd with rfl | rfl
    · exact hkd rfl
    · exact hxe (a1 x k2 hx)
    · exact hxe (a1 x hx k2)
    · exact hkd rfl
  obtain ⟨a, b, hab⟩ := List.length_eq_two.1 (m.edge_nodes x hxg).1
  have hne : a ≠ b := by have := (m.edge_nodes x hxg).2.1; rw [hab] at this; simpa using this
  exact ⟨k, (s.face k).2 ⟨k1, hke⟩, a, b, hne, m.edge_in_face k k1 x k2 a (by simp [hab]), m.edge_in_face k k1 x k2 b (by simp [hab]),
    m.edge_in_face d hdg.1 x hx a (by simp [hab]), m.edge_in_face d hdg.1 x hx b (by simp [hab])⟩

theorem shrink_onto (G : Good rc g) (C : Collapsible rc mid g e n1 n2) (s : Shrinks g g' e n1 n2 p) {d : Nat} (hd : d ∈ g.faces) :
    ∃ k ∈ g'.faces, Piece g k d := by
  by_cases h : d ∈ g.eFaces e
  · obtain ⟨k, hk, a, b, hab, h1, h2, h3, h4⟩ := shrink_neighbour G C s h
    exact ⟨k, hk, Piece.side G.mesh ((s.face k).1 hk).1 hd hab h1 h2 h3 h4⟩
  · exact ⟨d, (s.face d).2 ⟨hd, h⟩, .refl hd⟩

/-- If the surface does not end at one of the ends, pieces stay in one piece. -/
theorem shrink_pieces (G : Good rc g) (C : Collapsible rc mid g e n1 n2) (s : Shrinks g g' e n1 n2 p) (m' : Mesh g')
    {n : Nat} (hn : n = n1 ∨ n = n2) (all : ∀ x ∈ g.edges, n ∈ g.eNodes x → (g.eFaces x).length = 2) {k k' : Nat} (hk : k ∈ g'.faces)
    (hk' : k' ∈ g'.faces) (h : Piece g k k') : Piece g' k k' := by
  have m := G.mesh
  obtain ⟨f, h', hf⟩ := List.length_eq_two.1 C.inner
  obtain ⟨c, c', e13, e23, e14, e24, t⟩ := corner2 m G.simple C.edge hf C.ends
  have kept : ∀ k ∈ g.faces, k ≠ f → k ≠ h' → k ∈ g'.faces := fun k h1 h2 h3 => (s.face k).2 ⟨h1, by rw [hf]; simp [h2, h3]⟩
  have nf : ∀ k ∈ g'.faces, k ≠ f ∧ k ≠ h' := by
    intro k hk
    have := ((s.face k).1 hk).2
    rw [hf] at this
    simpa using this
  -- neighbours of one of the faces at the edge
  have touch : ∀ d c, (∀ n, n ∈ g.fNodes d ↔ n = n1 ∨ n = n2 ∨ n = c) → c ≠ n2 → ∀ k ∈ g'.faces, ∀ a b, a ≠ b → a ∈ g.fNodes k →
      b ∈ g.fNodes k → a ∈ g.fNodes d → b ∈ g.fNodes d → n1 ∈ g'.fNodes k ∧ c ∈ g'.fNodes k := by
    intro d c hc hc2 k hk a b hab ka kb da db
    have one := s.one_end m C.edge C.ends hk
    rw [s.corners k hk, s.corners k hk]
    have hcc : c ∈ g.fNodes k ∧ (n1 ∈ g.fNodes k ∨ n2 ∈ g.fNodes k) := by
      rcases (hc a).1 da with rfl | rfl | rfl <;> rcases (hc b).1 db with rfl | rfl | rfl
      · exact absurd rfl hab
      · exact absurd ⟨ka, kb⟩ one
      · exact ⟨kb, Or.inl ka⟩
      · exact absurd ⟨kb, ka⟩ one
      · exact absurd rfl hab
      · exact ⟨kb, Or.inr ka⟩
      · exact ⟨ka, Or.inl kb⟩
      · exact ⟨ka, Or.inr kb⟩
      · exact absurd rfl hab
    exact ⟨⟨t.c.n12, hcc.2.imp_right fun h => ⟨rfl, h⟩⟩, hc2, Or.inl hcc.1⟩
  have near : ∀ d c, (∀ n, n ∈ g.fNodes d ↔ n = n1 ∨ n = n2 ∨ n = c) → c ≠ n2 → n1 ≠ c → ∀ k ∈ g'.faces, ∀ k' ∈ g'.faces,
      (∃ a b, a ≠ b ∧ a ∈ g.fNodes k ∧ b ∈ g.fNodes k ∧ a ∈ g.fNodes d ∧ b ∈ g.fNodes d) →
      (∃ a b, a ≠ b ∧ a ∈ g.fNodes k' ∧ b ∈ g.fNodes k' ∧ a ∈ g.fNodes d ∧ b ∈ g.fNodes d) → Piece g' k k' := by
    rintro d c hc hc2 hc1 k hk k' hk' ⟨a, b, q1, q2, q3, q4, q5⟩ ⟨a', b', r1, r2, r3, r4, r5⟩
    obtain ⟨u1, u2⟩ := touch d c hc hc2 k hk a b q1 q2 q3 q4 q5
    obtain ⟨v1, v2⟩ := touch d c hc hc2 k' hk' a' b' r1 r2 r3 r4 r5
    exact Piece.side m' hk hk' hc1 u1 u2 v1 v2
  have nearf := near f c t.c.corners t.c.n23.symm t.c.n13
  have nearh := near h' c' t.d.corners t.d.n23.symm t.d.n13
  obtain ⟨A, hA, tA⟩ := shrink_neighbour G C s (d := f) (by simp [hf])
  obtain ⟨B, hB, tB⟩ := shrink_neighbour G C s (d := h') (by simp [hf])
  -- around the node
  have AB : Piece g' A B := by
    have walk := around m C.edge hf (by rw [C.ends]; rcases hn with rfl | rfl <;> simp) all
    have claim : ∀ k, Reach (AroundStep g n e) (fun _ => True) f k → k ∈ g.faces ∧ (k ≠ f → k ≠ h' → Piece g' A k) ∧ (k = h' → Piece g' A B) := by
      intro k hk
      induction hk with
      | refl _ => exact ⟨t.hf, fun h => absurd rfl h, fun h => absurd h t.fh⟩
      | @step b k' _ ad _ ih =>
        obtain ⟨x, hx, hxe, hxn, xb, xk⟩ := ad
        obtain ⟨b1, b2⟩ := (m.edge_face x hx b).1 xb
        obtain ⟨k1, k2⟩ := (m.edge_face x hx k').1 xk
        obtain ⟨u, v, huv⟩ := List.length_eq_two.1 (m.edge_nodes x hx).1
        have hne : u ≠ v := by have := (m.edge_nodes x hx).2.1; rw [huv] at this; simpa using this
        have bu := m.edge_in_face b b1 x b2 u (by simp [huv])
        have bv := m.edge_in_face b b1 x b2 v (by simp [huv])
        have ku := m.edge_in_face k' k1 x k2 u (by simp [huv])
        have kv := m.edge_in_face k' k1 x k2 v (by simp [huv])
        have only : x ∈ g.fEdges f → x ∈ g.fEdges h' → False := by
          intro h1 h2
          rcases (t.c.edges x).1 h1 with h1 | h1 | h1 <;> rcases (t.d.edges x).1 h2 with h2 | h2 | h2
          · exact hxe h1
          · exact hxe h1
          · exact hxe h1
          · exact hxe h2
          · exact t.x1 (h1.symm.trans h2)
          · exact t.x2 (h1.symm.trans h2)
          · exact hxe h2
          · exact t.x3 (h1.symm.trans h2)
          · exact t.x4 (h1.symm.trans h2)
        refine ⟨k1, fun kf kh => ?_, fun kh => ?_⟩
        · have hk' := kept k' k1 kf kh
          by_cases bf : b = f
          · subst bf; exact nearf A hA k' hk' tA ⟨u, v, hne, ku, kv, bu, bv⟩
          · by_cases bh : b = h'
            · exact (ih.2.2 bh).trans (nearh B hB k' hk' tB ⟨u, v, hne, ku, kv, bh ▸ bu, bh ▸ bv⟩)
            · exact (ih.2.1 bf bh).trans (s.side m m' C.edge C.ends (kept b b1 bf bh) hk' hne bu bv ku kv)
        · subst kh
          by_cases bf : b = f
          · subst bf; exact (only b2 k2).elim
          · by_cases bh : b = k'
            · exact ih.2.2 bh
            · exact (ih.2.1 bf bh).trans (nearh b (kept b b1 bf bh) B hB ⟨u, v, hne, bu, bv, ku, kv⟩ tB)
    exact (claim h' walk).2.2 rfl
  -- the walk from `k` to `k'`
  have claim : ∀ q, Piece g k q → (q ≠ f → q ≠ h' → Piece g' k q) ∧ (q = f ∨ q = h' → Piece g' k A) := by
    intro q hq
    unfold Piece at hq
    induction hq with
    | refl _ => exact ⟨fun _ _ => .refl hk, fun h => absurd h (by have := nf k hk; tauto)⟩
    | @step b q hb ad hq ih =>
      have hbg := hb.target
      obtain ⟨_, x, y, hxy, bx, yb, qx, qy⟩ := (adj_iff m hbg hq).1 ad
      by_cases bf : b = f
      · have kA := ih.2 (Or.inl bf)
        refine ⟨fun q1 q2 => ?_, fun _ => kA⟩
        subst bf
        exact kA.trans (nearf A hA q (kept q hq q1 q2) tA ⟨x, y, hxy, qx, qy, bx, yb⟩)
      · by_cases bh : b = h'
        · have kA := ih.2 (Or.inr bh)
          refine ⟨fun q1 q2 => ?_, fun _ => kA⟩
          exact kA.trans (AB.trans (nearh B hB q (kept q hq q1 q2) tB ⟨x, y, hxy, qx, qy, bh ▸ bx, bh ▸ yb⟩))
        · have kb := ih.1 bf bh
          have hb' := kept b hbg bf bh
          refine ⟨fun q1 q2 => kb.trans (s.side m m' C.edge C.ends hb' (kept q hq q1 q2) hxy bx yb qx qy), ?_⟩
          rintro (rfl | rfl)
          · exact kb.trans (nearf b hb' A hA ⟨x, y, hxy, bx, yb, qx, qy⟩ tA)
          · exact kb.trans ((nearh b hb' B hB ⟨x, y, hxy, bx, yb, qx, qy⟩ tB).trans AB.symm)
  exact (claim k' h).1 (nf k' hk').1 (nf k' hk').2

end

end Verif
