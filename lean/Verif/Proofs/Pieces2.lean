import Verif.Proofs.Pieces
import Verif.Props.Transform

namespace Verif
open Grid Props
variable {F R : Type}

/-- A face with both ends of an edge as corners is a face of the edge. -/
theorem face_of_ends {g : Grid F R} (m : Mesh g) {e a b k : Nat} (he : e ∈ g.edges) (hn : g.eNodes e = [a, b]) (hk : k ∈ g.faces)
    (ha : a ∈ g.fNodes k) (hb : b ∈ g.fNodes k) : k ∈ g.eFaces e := by
  have hab : a ≠ b := by have := (m.edge_nodes e he).2.1; rw [hn] at this; simpa using this
  obtain ⟨x, hx, x1, x2⟩ := m.sides k hk a ha b hb hab
  have hx' := (m.face_edges k hk).2.2 x hx
  have j := joins_of m hx' x1 x2 hab
  obtain rfl := m.edge_unique e he x hx' (fun n => by rw [j, hn]; simp)
  exact (m.edge_face e he k).2 ⟨hk, hx⟩

/-- Two corners of one of several faces. -/
def TwoOf (a b : Nat) (s : Nat × Nat × Nat) : Prop := (a = s.1 ∨ a = s.2.1 ∨ a = s.2.2) ∧ (b = s.1 ∨ b = s.2.1 ∨ b = s.2.2)

/-- The faces of a list have the given corners. -/
def Corners (g : Grid F R) (fs : List Nat) (ts : List (Nat × Nat × Nat)) : Prop :=
  List.Forall₂ (fun f t => f ∈ g.faces ∧ ∀ n, n ∈ g.fNodes f ↔ n = t.1 ∨ n = t.2.1 ∨ n = t.2.2) fs ts

theorem Corners.left {g : Grid F R} {fs : List Nat} {ts : List (Nat × Nat × Nat)} (h : Corners g fs ts) {f : Nat} (hf : f ∈ fs) :
    ∃ t ∈ ts, f ∈ g.faces ∧ ∀ n, n ∈ g.fNodes f ↔ n = t.1 ∨ n = t.2.1 ∨ n = t.2.2 := by
  unfold Corners at h
  induction h with
  | nil => simp at hf
  | cons h1 _ ih =>
    rcases List.mem_cons.1 hf with rfl | hf
    · exact ⟨_, by simp, h1⟩
    · obtain ⟨t, ht, h⟩ := ih hf; exact ⟨t, List.mem_cons_of_mem _ ht, h⟩

theorem Corners.right {g : Grid F R} {fs : List Nat} {ts : List (Nat × Nat × Nat)} (h : Corners g fs ts) {t : Nat × Nat × Nat} (ht : t ∈ ts) :
    ∃ f ∈ fs, f ∈ g.faces ∧ ∀ n, n ∈ g.fNodes f ↔ n = t.1 ∨ n = t.2.1 ∨ n = t.2.2 := by
  unfold Corners at h
  induction h with
  | nil => simp at ht
  | cons h1 _ ih =>
    rcases List.mem_cons.1 ht with rfl | ht
    · exact ⟨_, by simp, h1⟩
    · obtain ⟨t, ht, h⟩ := ih ht; exact ⟨t, List.mem_cons_of_mem _ ht, h⟩

/-- Faces one after the other with common sides are in one piece. -/
theorem Corners.one {g : Grid F R} (m : Mesh g) {fs : List Nat} {ts : List (Nat × Nat × Nat)} (h : Corners g fs ts)
    (hc : ts.IsChain (fun s t => ∃ a b, a ≠ b ∧ TwoOf a b s ∧ TwoOf a b t)) : ∀ k ∈ fs, ∀ k' ∈ fs, Piece g k k' := by
  unfold Corners at h
  induction h with
  | nil => simp
  | @cons f t fs ts h1 h2 ih =>
    have ih2 := ih hc.tail
    clear ih
    have first : ∀ k ∈ fs, Piece g f k := by
      intro k hk
      cases h2 with
      | nil => simp at hk
      | @cons f' t' fs ts h3 h4 =>
        rw [List.isChain_cons_cons] at hc
        obtain ⟨⟨a, b, hab, ⟨s1, s2⟩, ⟨t1, t2⟩⟩, _⟩ := hc
        exact (Piece.side m h1.1 h3.1 hab ((h1.2 a).2 s1) ((h1.2 b).2 s2) ((h3.2 a).2 t1) ((h3.2 b).2 t2)).trans
          (ih2 f' (by simp) k hk)
    intro k hk k' hk'
    rcases List.mem_cons.1 hk with q | q <;> rcases List.mem_cons.1 hk' with q' | q'
    · rw [q, q']; exact .refl h1.1
    · rw [q]; exact first k' q'
    · rw [q']; exact (first k q).symm
    · exact ih2 k q k' q'

/-- `samePieces_of` in terms of corners. -/
theorem samePieces_corners {g g' : Grid F R} {df de nn en fn : List Nat} {ds ks : List (Nat × Nat × Nat)} (m : Mesh g) (m' : Mesh g')
    (K : Keeps df de g g') (S : Swaps df de nn en fn g g') (hd : Corners g df ds) (hk : Corners g' fn ks) (d0 : df ≠ []) (k0 : fn ≠ [])
    (cd : ds.IsChain (fun s t => ∃ a b, a ≠ b ∧ TwoOf a b s ∧ TwoOf a b t))
    (ck : ks.IsChain (fun s t => ∃ a b, a ≠ b ∧ TwoOf a b s ∧ TwoOf a b t))
    (inner : Nat → Nat → Prop) (hi : ∀ a b, inner a b → ∀ f ∈ g.faces, f ∉ df → a ∈ g.fNodes f → b ∉ g.fNodes f)
    (fwd : ∀ t ∈ ds, ∀ a b, TwoOf a b t → a ≠ b → (∃ s ∈ ks, TwoOf a b s) ∨ inner a b)
    (bwd : ∀ t ∈ ks, ∀ a b, TwoOf a b t → a ≠ b → (∃ s ∈ ds, TwoOf a b s) ∨ inner a b) :
    SamePieces df fn g g' ∧ pieces g' = pieces g := by
  have hdf : ∀ d ∈ df, d ∈ g.faces := fun d h => (hd.left h).choose_spec.2.1
  have h := samePieces_of m m' K S hdf d0 k0 (hd.one m cd) (hk.one m' ck) ?_ ?_
  · exact ⟨h, h.count S hdf d0 k0⟩
  · intro d hdd a ha b hb hab
    obtain ⟨t, ht, _, h⟩ := hd.left hdd
    rcases fwd t ht a b ⟨(h a).1 ha, (h b).1 hb⟩ hab with ⟨s, hs, h1, h2⟩ | h'
    · obtain ⟨k, hkk, _, h⟩ := hk.right hs
      exact Or.inl ⟨k, hkk, (h a).2 h1, (h b).2 h2⟩
    · exact Or.inr (hi a b h')
  · intro d hdd a ha b hb hab
    obtain ⟨t, ht, _, h⟩ := hk.left hdd
    rcases bwd t ht a b ⟨(h a).1 ha, (h b).1 hb⟩ hab with ⟨s, hs, h1, h2⟩ | h'
    · obtain ⟨k, hkk, _, h⟩ := hd.right hs
      exact Or.inl ⟨k, hkk, (h a).2 h1, (h b).2 h2⟩
    · exact Or.inr (hi a b h')

variable [DecidableEq R]

theorem divide_pieces {rc : Vec F → R} {g g' : Grid F R} (G : Good rc g) {f : Nat} {p : Vec F} (hf : f ∈ g.faces)
    (hp : NewPlace rc g p) (h : g.divideFace rc f p = .ok g') :
    ∃ nn en fn, Swaps [f] [] nn en fn g g' ∧ SamePieces [f] fn g g' ∧ pieces g' = pieces g ∧ Good rc g' := by
  obtain ⟨a, b, c, hn⟩ := List.length_eq_three.1 (G.mesh.face_nodes f hf).1
  obtain ⟨z, _, _, hz⟩ := zone_of G.zones hf
  obtain ⟨g2, n, e1, e2, e3, f1, f2, f3, hr, G', K, S, _, i1, i2, i3, _⟩ := C32_divide_face G hf hn hz hp
  rw [h] at hr
  obtain rfl := Except.ok.inj hr
  have nn := S.fresh.1 n (by simp)
  have ne : ∀ x ∈ g.fNodes f, x ≠ n := fun x hx h => nn (h ▸ (G.mesh.face_nodes f hf).2.2 x hx)
  have na := ne a (by simp [hn])
  have nb := ne b (by simp [hn])
  have nc := ne c (by simp [hn])
  refine ⟨_, _, _, S, ?_⟩
  obtain ⟨P, Q⟩ := samePieces_corners (ds := [(a, b, c)]) (ks := [(a, b, n), (b, c, n), (a, c, n)]) G.mesh G'.mesh K S
    (.cons ⟨hf, by simp [hn]⟩ .nil) (.cons ⟨i1.face, i1.corners⟩ (.cons ⟨i2.face, i2.corners⟩ (.cons ⟨i3.face, i3.corners⟩ .nil)))
    (by simp) (by simp) (by simp)
    (by
      simp only [List.isChain_cons_cons, List.isChain_singleton, and_true]
      exact ⟨⟨b, n, nb, by simp [TwoOf], by simp [TwoOf]⟩, ⟨c, n, nc, by simp [TwoOf], by simp [TwoOf]⟩⟩)
    (fun x y => x = n ∨ y = n) (fun x y h k hk _ hx hy => nn (by
      rcases h with rfl | rfl
      · exact (G.mesh.face_nodes k hk).2.2 _ hx
      · exact (G.mesh.face_nodes k hk).2.2 _ hy))
    (by
      simp only [List.mem_cons, List.not_mem_nil, or_false, forall_eq, TwoOf, exists_eq_or_imp, exists_eq_left]
      intro x y; grind)
    (by
      simp only [List.mem_cons, List.not_mem_nil, or_false, forall_eq_or_imp, forall_eq, TwoOf, exists_eq_left]
      refine ⟨?_, ?_, ?_⟩ <;> intro x y <;> grind)
  exact ⟨P, Q, G'⟩

omit [DecidableEq R] in
/-- Sides which no other face has: those with a new node and the edge that is cut. -/
theorem inner_cut {g : Grid F R} (m : Mesh g) {e a b : Nat} {df nn : List Nat} (he : e ∈ g.edges) (hn : g.eNodes e = [a, b])
    (hdf : ∀ f ∈ g.eFaces e, f ∈ df) (hnn : ∀ n ∈ nn, n ∉ g.nodes) :
    ∀ x y, (x ∈ nn ∨ y ∈ nn ∨ x = a ∧ y = b ∨ x = b ∧ y = a) → ∀ f ∈ g.faces, f ∉ df → x ∈ g.fNodes f → y ∉ g.fNodes f := by
  intro x y h k hk hkd hx hy
  rcases h with h | h | ⟨rfl, rfl⟩ | ⟨rfl, rfl⟩
  · exact hnn x h ((m.face_nodes k hk).2.2 _ hx)
  · exact hnn y h ((m.face_nodes k hk).2.2 _ hy)
  · exact hkd (hdf k (face_of_ends m he hn hk hx hy))
  · exact hkd (hdf k (face_of_ends m he hn hk hy hx))

theorem cutSingle_pieces {rc : Vec F → R} {g g' : Grid F R} (G : Good rc g) {e f : Nat} {p : Vec F} (he : e ∈ g.edges)
    (hf : g.eFaces e = [f]) (hp : NewPlace rc g p) {r : Bool} (h : g.cutSingleEdge rc e p = .ok (g', r)) :
    ∃ nn en fn, Swaps [f] [e] nn en fn g g' ∧ SamePieces [f] fn g g' ∧ pieces g' = pieces g ∧ Good rc g' := by
  obtain ⟨a, b, hn⟩ := eNodes_pair G.mesh he
  have hfm := ((G.mesh.edge_face e he f).1 (by simp [hf])).1
  obtain ⟨z, _, _, hz⟩ := zone_of G.zones hfm
  obtain ⟨g2, c, n, e1, e2, e3, f1, f2, hr, G', K, S, _, hc, i1, i2, _⟩ := C33_cut_single_edge G he hf hn hz hp
  rw [h] at hr
  obtain ⟨rfl, _⟩ := Prod.mk.inj (Except.ok.inj hr)
  have nn : ∀ x ∈ [n], x ∉ g.nodes := S.fresh.1
  have ne : ∀ x ∈ g.fNodes f, x ≠ n := fun x hx h => nn n (by simp) (h ▸ (G.mesh.face_nodes f hfm).2.2 x hx)
  have nc := ne c ((hc c).2 (by simp))
  refine ⟨_, _, _, S, ?_⟩
  obtain ⟨P, Q⟩ := samePieces_corners (ds := [(a, b, c)]) (ks := [(a, n, c), (b, n, c)]) G.mesh G'.mesh K S
    (.cons ⟨hfm, hc⟩ .nil) (.cons ⟨i1.face, i1.corners⟩ (.cons ⟨i2.face, i2.corners⟩ .nil))
    (by simp) (by simp) (by simp)
    (by
      simp only [List.isChain_cons_cons, List.isChain_singleton, and_true]
      exact ⟨c, n, nc, by simp [TwoOf], by simp [TwoOf]⟩)
    _ (inner_cut G.mesh he hn (by simp [hf]) nn)
    (by
      simp only [List.mem_cons, List.not_mem_nil, or_false, forall_eq, TwoOf, exists_eq_or_imp, exists_eq_left]
      intro x y; grind)
    (by
      simp only [List.mem_cons, List.not_mem_nil, or_false, forall_eq_or_imp, forall_eq, TwoOf, exists_eq_left]
      refine ⟨?_, ?_⟩ <;> intro x y <;> grind)
  exact ⟨P, Q, G'⟩

theorem cutEdge_pieces {rc : Vec F → R} {g g' : Grid F R} (G : Good rc g) {e f h : Nat} {p : Vec F} (he : e ∈ g.edges)
    (hf : g.eFaces e = [f, h]) (hp : NewPlace rc g p) {r : Bool} (hrun : g.cutEdge rc e p = .ok (g', r)) :
    ∃ nn en fn, Swaps [f, h] [e] nn en fn g g' ∧ SamePieces [f, h] fn g g' ∧ pieces g' = pieces g ∧ Good rc g' := by
  obtain ⟨a, b, hn⟩ := eNodes_pair G.mesh he
  have hab : a ≠ b := by have := (G.mesh.edge_nodes e he).2.1; rw [hn] at this; simpa using this
  have hfm := ((G.mesh.edge_face e he f).1 (by simp [hf])).1
  have hhm := ((G.mesh.edge_face e he h).1 (by simp [hf])).1
  obtain ⟨z, _, _, hz⟩ := zone_of G.zones hfm
  obtain ⟨g2, c, c', n, e1, e2, e3, e4, f1, f2, f3, f4, hr, G', K, S, _, hc, hc', i1, i2, i3, i4, _⟩ := C34_cut_edge G he hf hn hz hp
  rw [hrun] at hr
  obtain ⟨rfl, _⟩ := Prod.mk.inj (Except.ok.inj hr)
  have nn : ∀ x ∈ [n], x ∉ g.nodes := S.fresh.1
  have ne : ∀ x ∈ g.fNodes f, x ≠ n := fun x hx h => nn n (by simp) (h ▸ (G.mesh.face_nodes f hfm).2.2 x hx)
  have ne' : ∀ x ∈ g.fNodes h, x ≠ n := fun x hx h' => nn n (by simp) (h' ▸ (G.mesh.face_nodes h hhm).2.2 x hx)
  have na := ne a ((hc a).2 (by simp))
  have nb := ne b ((hc b).2 (by simp))
  have nc := ne c ((hc c).2 (by simp))
  have nc' := ne' c' ((hc' c').2 (by simp))
  have S' : Swaps [f, h] [e] [n] [e1, e2, e3, e4] [f1, f2, f3, f4] g g' := by
    refine ⟨S.nodes, S.edges, fun k => ?_, S.fresh.1, S.fresh.2.1, fun k hk => S.fresh.2.2 k ?_⟩
    · rw [S.faces]; simp; tauto
    · simp at hk ⊢; tauto
  refine ⟨_, _, _, S', ?_⟩
  obtain ⟨P, Q⟩ := samePieces_corners (ds := [(a, b, c), (a, b, c')]) (ks := [(b, n, c), (a, n, c), (a, n, c'), (b, n, c')]) G.mesh G'.mesh
    K S' (.cons ⟨hfm, hc⟩ (.cons ⟨hhm, hc'⟩ .nil))
    (.cons ⟨i1.face, i1.corners⟩ (.cons ⟨i2.face, i2.corners⟩ (.cons ⟨i3.face, i3.corners⟩ (.cons ⟨i4.face, i4.corners⟩ .nil))))
    (by simp) (by simp)
    (by
      simp only [List.isChain_cons_cons, List.isChain_singleton, and_true]
      exact ⟨a, b, hab, by simp [TwoOf], by simp [TwoOf]⟩)
    (by
      simp only [List.isChain_cons_cons, List.isChain_singleton, and_true]
      exact ⟨⟨c, n, nc, by simp [TwoOf], by simp [TwoOf]⟩, ⟨a, n, na, by simp [TwoOf], by simp [TwoOf]⟩,
        ⟨c', n, nc', by simp [TwoOf], by simp [TwoOf]⟩⟩)
    _ (inner_cut G.mesh he hn (by simp [hf]) nn)
    (by
      simp only [List.mem_cons, List.not_mem_nil, or_false, forall_eq_or_imp, forall_eq, TwoOf, exists_eq_or_imp, exists_eq_left]
      refine ⟨?_, ?_⟩ <;> intro x y <;> grind)
    (by
      simp only [List.mem_cons, List.not_mem_nil, or_false, forall_eq_or_imp, forall_eq, TwoOf, exists_eq_or_imp, exists_eq_left]
      refine ⟨?_, ?_, ?_, ?_⟩ <;> intro x y <;> grind)
  exact ⟨P, Q, G'⟩

theorem cutTwoBorder_pieces {rc : Vec F → R} {g g' : Grid F R} (G : Good rc g) {e f : Nat} {p1 p2 : Vec F} (he : e ∈ g.edges)
    (hf : g.eFaces e = [f]) (hp1 : NewPlace rc g p1) (hp2 : NewPlace rc g p2) (hpp : rc p2 ≠ rc p1) {r : Bool}
    (h : g.cutEdgeTwoNodes rc e p1 p2 = .ok (g', r)) :
    ∃ nn en fn, Swaps [f] [e] nn en fn g g' ∧ SamePieces [f] fn g g' ∧ pieces g' = pieces g ∧ Good rc g' := by
  obtain ⟨a, b, hn⟩ := eNodes_pair G.mesh he
  have hfm := ((G.mesh.edge_face e he f).1 (by simp [hf])).1
  obtain ⟨z, _, _, hz⟩ := zone_of G.zones hfm
  obtain ⟨g2, c, n, m, e1, e2, e3, e4, e5, f1, f2, f3, hr, G', K, S, _, _, hc, i1, i2, i3, _⟩ :=
    C34_two_nodes_border G he hf hn hz hp1 hp2 hpp
  rw [h] at hr
  obtain ⟨rfl, _⟩ := Prod.mk.inj (Except.ok.inj hr)
  have nn : ∀ x ∈ [n, m], x ∉ g.nodes := S.fresh.1
  have nc : c ≠ n := fun h => nn n (by simp) (h ▸ (G.mesh.face_nodes f hfm).2.2 c ((hc c).2 (by simp)))
  have mc : c ≠ m := fun h => nn m (by simp) (h ▸ (G.mesh.face_nodes f hfm).2.2 c ((hc c).2 (by simp)))
  refine ⟨_, _, _, S, ?_⟩
  obtain ⟨P, Q⟩ := samePieces_corners (ds := [(a, b, c)]) (ks := [(a, n, c), (n, m, c), (b, m, c)]) G.mesh G'.mesh K S
    (.cons ⟨hfm, hc⟩ .nil) (.cons ⟨i1.face, i1.corners⟩ (.cons ⟨i2.face, i2.corners⟩ (.cons ⟨i3.face, i3.corners⟩ .nil)))
    (by simp) (by simp) (by simp)
    (by
      simp only [List.isChain_cons_cons, List.isChain_singleton, and_true]
      exact ⟨⟨c, n, nc, by simp [TwoOf], by simp [TwoOf]⟩, ⟨c, m, mc, by simp [TwoOf], by simp [TwoOf]⟩⟩)
    _ (inner_cut G.mesh he hn (by simp [hf]) nn)
    (by
      simp only [List.mem_cons, List.not_mem_nil, or_false, forall_eq, TwoOf, exists_eq_or_imp, exists_eq_left]
      intro x y; grind)
    (by
      simp only [List.mem_cons, List.not_mem_nil, or_false, forall_eq_or_imp, forall_eq, TwoOf, exists_eq_left]
      refine ⟨?_, ?_, ?_⟩ <;> intro x y <;> grind)
  exact ⟨P, Q, G'⟩

theorem cutTwoInner_pieces {rc : Vec F → R} {g g' : Grid F R} (G : Good rc g) {e f h : Nat} {p1 p2 : Vec F} (he : e ∈ g.edges)
    (hf : g.eFaces e = [f, h]) (hp1 : NewPlace rc g p1) (hp2 : NewPlace rc g p2) (hpp : rc p2 ≠ rc p1) {r : Bool}
    (hrun : g.cutEdgeTwoNodes rc e p1 p2 = .ok (g', r)) :
    ∃ nn en fn, Swaps [f, h] [e] nn en fn g g' ∧ SamePieces [f, h] fn g g' ∧ pieces g' = pieces g ∧ Good rc g' := by
  obtain ⟨a, b, hn⟩ := eNodes_pair G.mesh he
  have hab : a ≠ b := by have := (G.mesh.edge_nodes e he).2.1; rw [hn] at this; simpa using this
  have hfm := ((G.mesh.edge_face e he f).1 (by simp [hf])).1
  have hhm := ((G.mesh.edge_face e he h).1 (by simp [hf])).1
  obtain ⟨z, _, _, hz⟩ := zone_of G.zones hfm
  obtain ⟨g2, c, c', n, m, e1, e2, e3, e4, e5, e6, e7, f1, f2, f3, f4, f5, f6, hr, G', K, S, _, _, hc, hc', i1, i2, i3, i4, i5, i6, _⟩ :=
    C34_two_nodes_inner G he hf hn hz hp1 hp2 hpp
  rw [hrun] at hr
  obtain ⟨rfl, _⟩ := Prod.mk.inj (Except.ok.inj hr)
  have nn : ∀ x ∈ [n, m], x ∉ g.nodes := S.fresh.1
  have ne : ∀ x ∈ g.fNodes f, ∀ k ∈ [n, m], x ≠ k := fun x hx k hk h => nn k hk (h ▸ (G.mesh.face_nodes f hfm).2.2 x hx)
  have ne' : ∀ x ∈ g.fNodes h, ∀ k ∈ [n, m], x ≠ k := fun x hx k hk h' => nn k hk (h' ▸ (G.mesh.face_nodes h hhm).2.2 x hx)
  have nb := ne b ((hc b).2 (by simp)) m (by simp)
  have nc := ne c ((hc c).2 (by simp)) n (by simp)
  have mc := ne c ((hc c).2 (by simp)) m (by simp)
  have nc' := ne' c' ((hc' c').2 (by simp)) n (by simp)
  have mc' := ne' c' ((hc' c').2 (by simp)) m (by simp)
  have q : ∀ k, k ∈ [f1, f2, f3, f4, f5, f6] ↔ k ∈ [f1, f2, f3, f6, f5, f4] := fun k =>
    (List.Perm.cons _ (.cons _ (.cons _ (List.reverse_perm [f4, f5, f6]).symm))).mem_iff
  have S' : Swaps [f, h] [e] [n, m] [e1, e2, e3, e4, e5, e6, e7] [f1, f2, f3, f6, f5, f4] g g' :=
    ⟨S.nodes, S.edges, fun k => by rw [S.faces, q], S.fresh.1, S.fresh.2.1, fun k hk => S.fresh.2.2 k ((q k).2 hk)⟩
  refine ⟨_, _, _, S', ?_⟩
  obtain ⟨P, Q⟩ := samePieces_corners (ds := [(a, b, c), (a, b, c')])
    (ks := [(a, n, c), (n, m, c), (b, m, c), (b, m, c'), (n, m, c'), (a, n, c')]) G.mesh G'.mesh
    K S' (.cons ⟨hfm, hc⟩ (.cons ⟨hhm, hc'⟩ .nil))
    (.cons ⟨i1.face, i1.corners⟩ (.cons ⟨i2.face, i2.corners⟩ (.cons ⟨i3.face, i3.corners⟩ (.cons ⟨i6.face, i6.corners⟩
      (.cons ⟨i5.face, i5.corners⟩ (.cons ⟨i4.face, i4.corners⟩ .nil))))))
    (by simp) (by simp)
    (by
      simp only [List.isChain_cons_cons, List.isChain_singleton, and_true]
      exact ⟨a, b, hab, by simp [TwoOf], by simp [TwoOf]⟩)
    (by
      simp only [List.isChain_cons_cons, List.isChain_singleton, and_true]
      exact ⟨⟨c, n, nc, by simp [TwoOf], by simp [TwoOf]⟩, ⟨c, m, mc, by simp [TwoOf], by simp [TwoOf]⟩,
        ⟨b, m, nb, by simp [TwoOf], by simp [TwoOf]⟩, ⟨c', m, mc', by simp [TwoOf], by simp [TwoOf]⟩,
        ⟨c', n, nc', by simp [TwoOf], by simp [TwoOf]⟩⟩)
    _ (inner_cut G.mesh he hn (by simp [hf]) nn)
    (by
      simp only [List.mem_cons, List.not_mem_nil, or_false, forall_eq_or_imp, forall_eq, TwoOf, exists_eq_or_imp, exists_eq_left]
      refine ⟨?_, ?_⟩ <;> intro x y <;> grind)
    (by
      simp only [List.mem_cons, List.not_mem_nil, or_false, forall_eq_or_imp, forall_eq, TwoOf, exists_eq_or_imp, exists_eq_left]
      refine ⟨?_, ?_, ?_, ?_, ?_, ?_⟩ <;> intro x y <;> grind)
  exact ⟨P, Q, G'⟩

theorem collapse_pieces {rc : Vec F → R} (dist : Vec F → Vec F → F) (gt : F → F → Bool) {g g' : Grid F R} (G : Good rc g) {f : Nat}
    {r : Bool} (hf : f ∈ g.faces) (hj : ∀ e, g.maxEdge dist gt f = .ok e → Flippable g f e)
    (hrun : g.collapseFace dist gt f = .ok (g', r)) :
    g' = g ∨ ∃ e df nn en fn, g.maxEdge dist gt f = .ok e ∧ (∀ d, d ∈ df ↔ d ∈ g.eFaces e) ∧ Swaps df [e] nn en fn g g' ∧
      SamePieces df fn g g' ∧ pieces g' = pieces g ∧ Good rc g' := by
  obtain ⟨e, hef, hm⟩ := maxEdge_ok dist gt G.mesh hf
  have he := (G.mesh.face_edges f hf).2.2 e hef
  obtain ⟨a, b, hn⟩ := eNodes_pair G.mesh he
  obtain ⟨z, _, _, hz⟩ := zone_of G.zones hf
  by_cases hl : (g.eFaces e).length = 2
  · right
    obtain ⟨u, v, huv⟩ := List.length_eq_two.1 hl
    have hmem : f ∈ g.eFaces e := (G.mesh.edge_face e he f).2 ⟨hf, hef⟩
    have hnd := (G.mesh.edge_faces e he).2
    obtain ⟨h, hfh, hiff⟩ : ∃ h, f ≠ h ∧ ∀ x, x ∈ g.eFaces e ↔ x = f ∨ x = h := by
      rw [huv] at hmem hnd ⊢
      simp only [List.mem_cons, List.not_mem_nil, or_false, List.nodup_cons, not_false_eq_true, List.nodup_nil, and_true] at hmem hnd ⊢
      rcases hmem with rfl | rfl
      · exact ⟨v, hnd, fun _ => Iff.rfl⟩
      · exact ⟨u, fun h => hnd h.symm, fun _ => Or.comm⟩
    have hhm := ((G.mesh.edge_face e he h).1 ((hiff h).2 (Or.inr rfl))).1
    obtain ⟨c, c', e13, e23, e14, e24, t⟩ := corner2_any G.mesh G.simple he hiff hfh hn
    have hx := hj e hm h c c' hfh.symm ((hiff h).2 (Or.inr rfl)) ((t.c.corners c).2 (Or.inr (Or.inr rfl)))
      (by rw [hn]; simp [t.c.n13.symm, t.c.n23.symm]) ((t.d.corners c').2 (Or.inr (Or.inr rfl)))
      (by rw [hn]; simp [t.d.n13.symm, t.d.n23.symm])
    obtain ⟨g2, e', f1, f2, hr, G', K, S, j, i1, i2, _⟩ := C36_collapse_face dist gt G he hm hiff hfh hn t.c.corners t.d.corners hz hx
    rw [hrun] at hr
    obtain ⟨rfl, _⟩ := Prod.mk.inj (Except.ok.inj hr)
    have hab : a ≠ b := by have := (G.mesh.edge_nodes e he).2.1; rw [hn] at this; simpa using this
    have hcc : c ≠ c' := by
      have he' := (S.edges e').2 (Or.inr (by simp))
      intro q
      subst q
      obtain ⟨x, y, hxy⟩ := eNodes_pair G'.mesh he'
      have := (G'.mesh.edge_nodes e' he').2.1
      rw [hxy] at this
      have h1 := (j x).1 (by simp [hxy])
      have h2 := (j y).1 (by simp [hxy])
      rw [or_self] at h1 h2
      rw [h1, h2] at this
      simp at this
    refine ⟨e, [f, h], _, _, _, hm, fun d => by rw [hiff]; simp, S, ?_⟩
    obtain ⟨P, Q⟩ := samePieces_corners (ds := [(a, b, c), (a, b, c')]) (ks := [(a, c, c'), (b, c, c')]) G.mesh G'.mesh
      K S (.cons ⟨hf, t.c.corners⟩ (.cons ⟨hhm, t.d.corners⟩ .nil)) (.cons ⟨i1.face, i1.corners⟩ (.cons ⟨i2.face, i2.corners⟩ .nil))
      (by simp) (by simp)
      (by
        simp only [List.isChain_cons_cons, List.isChain_singleton, and_true]
        exact ⟨a, b, hab, by simp [TwoOf], by simp [TwoOf]⟩)
      (by
        simp only [List.isChain_cons_cons, List.isChain_singleton, and_true]
        exact ⟨c, c', hcc, by simp [TwoOf], by simp [TwoOf]⟩)
      (fun x y => (x = c ∧ y = c' ∨ x = c' ∧ y = c) ∨ (x = a ∧ y = b ∨ x = b ∧ y = a))
      (by
        intro x y q k hk hkd h1 h2
        have no : ∀ k ∈ g.faces, c ∈ g.fNodes k → c' ∈ g.fNodes k → False := by
          intro k hk h1 h2
          obtain ⟨w, hw, w1, w2⟩ := G.mesh.sides k hk c h1 c' h2 hcc
          have hw' := (G.mesh.face_edges k hk).2.2 w hw
          exact hx w hw' (joins_of G.mesh hw' w1 w2 hcc)
        rcases q with (⟨rfl, rfl⟩ | ⟨rfl, rfl⟩) | q
        · exact no k hk h1 h2
        · exact no k hk h2 h1
        · exact inner_cut G.mesh (nn := []) he hn (fun d hd => by have := (hiff d).1 hd; simpa using this) (by simp) x y
            (Or.inr (Or.inr q)) k hk hkd h1 h2)
      (by
        simp only [List.mem_cons, List.not_mem_nil, or_false, forall_eq_or_imp, forall_eq, TwoOf, exists_eq_or_imp, exists_eq_left]
        refine ⟨?_, ?_⟩ <;> intro x y <;> grind)
      (by
        simp only [List.mem_cons, List.not_mem_nil, or_false, forall_eq_or_imp, forall_eq, TwoOf, exists_eq_or_imp, exists_eq_left]
        refine ⟨?_, ?_⟩ <;> intro x y <;> grind)
    exact ⟨P, Q, G'⟩
  · left
    unfold collapseFace at hrun
    rw [hm, res_bind_ok, if_neg hl] at hrun
    exact (Prod.mk.inj (Except.ok.inj hrun)).1.symm

end Verif
