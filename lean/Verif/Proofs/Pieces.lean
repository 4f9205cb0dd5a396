import Verif.Spec.Pieces
import Verif.Proofs.Bfs
import Verif.Proofs.Again
import Mathlib.Tactic.Tauto

namespace Verif
open Grid
variable {F R : Type}

theorem Reach.target {adj : Nat → Nat → Prop} {p : Nat → Prop} {a b : Nat} (h : Reach adj p a b) : p b := by
  cases h <;> assumption

theorem Reach.source {adj : Nat → Nat → Prop} {p : Nat → Prop} {a b : Nat} (h : Reach adj p a b) : p a := by
  induction h with
  | refl h => exact h
  | step _ _ _ ih => exact ih

theorem Reach.trans' {adj : Nat → Nat → Prop} {p : Nat → Prop} {a b c : Nat} (h : Reach adj p a b) (h' : Reach adj p b c) :
    Reach adj p a c := by
  induction h' with
  | refl _ => exact h
  | step _ h2 h3 ih => exact ih.step h2 h3

theorem Piece.symm {g : Grid F R} {f h : Nat} (p : Piece g f h) : Piece g h f := by
  unfold Piece at *
  induction p with
  | refl h => exact .refl h
  | step h1 h2 h3 ih => exact Reach.trans' ((Reach.refl h3).step h2.symm h1.target) ih

theorem Piece.trans {g : Grid F R} {f h k : Nat} (p : Piece g f h) (q : Piece g h k) : Piece g f k := Reach.trans' p q

/-- Faces have a common edge exactly if they have two common corners. -/
theorem adj_iff {g : Grid F R} (m : Mesh g) {f h : Nat} (hf : f ∈ g.faces) (hh : h ∈ g.faces) :
    Adj g f h ↔ f ≠ h ∧ ∃ a b, a ≠ b ∧ a ∈ g.fNodes f ∧ b ∈ g.fNodes f ∧ a ∈ g.fNodes h ∧ b ∈ g.fNodes h := by
  constructor
  · rintro ⟨hne, e, he, h1, h2⟩
    obtain ⟨hl, hd, _⟩ := m.edge_nodes e he
    obtain ⟨a, b, hab⟩ := List.length_eq_two.1 hl
    have k1 := ((m.edge_face e he f).1 h1).2
    have k2 := ((m.edge_face e he h).1 h2).2
    have ha : a ∈ g.eNodes e := by simp [hab]
    have hb : b ∈ g.eNodes e := by simp [hab]
    refine ⟨hne, a, b, by rw [hab] at hd; simpa using hd, m.edge_in_face f hf e k1 a ha, m.edge_in_face f hf e k1 b hb,
      m.edge_in_face h hh e k2 a ha, m.edge_in_face h hh e k2 b hb⟩
  · rintro ⟨hne, a, b, hab, fa, fb, ha, hb⟩
    obtain ⟨e, he, e1, e2⟩ := m.sides f hf a fa b fb hab
    obtain ⟨x, hx, x1, x2⟩ := m.sides h hh a ha b hb hab
    have he' := (m.face_edges f hf).2.2 e he
    have hx' := (m.face_edges h hh).2.2 x hx
    have j1 := joins_of m he' e1 e2 hab
    have j2 := joins_of m hx' x1 x2 hab
    obtain rfl := m.edge_unique e he' x hx' (fun n => by rw [j1, j2])
    exact ⟨hne, e, he', (m.edge_face e he' f).2 ⟨hf, he⟩, (m.edge_face e he' h).2 ⟨hh, hx⟩⟩

/-- Going over a common side. -/
theorem Piece.side {g : Grid F R} (m : Mesh g) {f h a b : Nat} (hf : f ∈ g.faces) (hh : h ∈ g.faces) (hab : a ≠ b)
    (fa : a ∈ g.fNodes f) (fb : b ∈ g.fNodes f) (ha : a ∈ g.fNodes h) (hb : b ∈ g.fNodes h) : Piece g f h := by
  by_cases e : f = h
  · subst e; exact .refl hf
  · exact (Reach.refl hf).step ((adj_iff m hf hh).2 ⟨e, a, b, hab, fa, fb, ha, hb⟩) hh

/-- Replacing faces in one piece by faces in one piece with the same outer sides. -/
theorem samePieces_of {g g' : Grid F R} {df de nn en fn : List Nat} (m : Mesh g) (m' : Mesh g') (K : Keeps df de g g')
    (S : Swaps df de nn en fn g g') (hd : ∀ d ∈ df, d ∈ g.faces) (d0 : df ≠ []) (k0 : fn ≠ [])
    (one : ∀ d ∈ df, ∀ d' ∈ df, Piece g d d') (one' : ∀ k ∈ fn, ∀ k' ∈ fn, Piece g' k k')
    (fwd : ∀ d ∈ df, ∀ a ∈ g.fNodes d, ∀ b ∈ g.fNodes d, a ≠ b →
      (∃ k ∈ fn, a ∈ g'.fNodes k ∧ b ∈ g'.fNodes k) ∨ ∀ f ∈ g.faces, f ∉ df → a ∈ g.fNodes f → b ∉ g.fNodes f)
    (bwd : ∀ k ∈ fn, ∀ a ∈ g'.fNodes k, ∀ b ∈ g'.fNodes k, a ≠ b →
      (∃ d ∈ df, a ∈ g.fNodes d ∧ b ∈ g.fNodes d) ∨ ∀ f ∈ g.faces, f ∉ df → a ∈ g.fNodes f → b ∉ g.fNodes f) :
    SamePieces df fn g g' := by
  have hk : ∀ k ∈ fn, k ∈ g'.faces := fun k h => (S.faces k).2 (Or.inr h)
  have kept : ∀ f ∈ g.faces, f ∉ df → f ∈ g'.faces ∧ g'.fNodes f = g.fNodes f := fun f h1 h2 =>
    ⟨(K.faces f h1 h2).1, (K.faces f h1 h2).2.1⟩
  obtain ⟨c0, hc0⟩ := List.exists_mem_of_ne_nil _ k0
  obtain ⟨e0, he0⟩ := List.exists_mem_of_ne_nil _ d0
  -- forward
  have F1 : ∀ f ∈ g.faces, f ∉ df → ∀ h, Piece g f h → (h ∉ df → Piece g' f h) ∧ (h ∈ df → Piece g' f c0) := by
    intro f hf fd h p
    unfold Piece at p
    induction p with
    | refl h => exact ⟨fun _ => .refl (kept f hf fd).1, fun h => absurd h fd⟩
    | @step b c p ad hc ih =>
      have hb := p.target
      obtain ⟨hne, x, y, hxy, bx, yb, cx, cy⟩ := (adj_iff m hb hc).1 ad
      by_cases bd : b ∈ df
      · have pb := ih.2 bd
        refine ⟨fun cd => ?_, fun _ => pb⟩
        rcases fwd b bd x bx y yb hxy with ⟨k, hk', kx, ky⟩ | h
        · refine pb.trans ((one' c0 hc0 k hk').trans (Piece.side m' (hk k hk') (kept c hc cd).1 hxy kx ky ?_ ?_))
          · rw [(kept c hc cd).2]; exact cx
          · rw [(kept c hc cd).2]; exact cy
        · exact absurd cy (h c hc cd cx)
      · have pb := ih.1 bd
        refine ⟨fun cd => pb.trans (Piece.side m' (kept b hb bd).1 (kept c hc cd).1 hxy ?_ ?_ ?_ ?_), fun cd => ?_⟩
        · rw [(kept b hb bd).2]; exact bx
        · rw [(kept b hb bd).2]; exact yb
        · rw [(kept c hc cd).2]; exact cx
        · rw [(kept c hc cd).2]; exact cy
        · rcases fwd c cd x cx y cy hxy with ⟨k, hk', kx, ky⟩ | h
          · refine pb.trans ((Piece.side m' (kept b hb bd).1 (hk k hk') hxy ?_ ?_ kx ky).trans (one' k hk' c0 hc0))
            · rw [(kept b hb bd).2]; exact bx
            · rw [(kept b hb bd).2]; exact yb
          · exact absurd yb (h b hb bd bx)
  -- backward
  have B1 : ∀ f ∈ g.faces, f ∉ df → ∀ h, Piece g' f h → (h ∉ fn → Piece g f h) ∧ (h ∈ fn → Piece g f e0) := by
    intro f hf fd h p
    unfold Piece at p
    have old : ∀ c ∈ g'.faces, c ∉ fn → (c ∈ g.faces ∧ c ∉ df) ∧ g'.fNodes c = g.fNodes c := by
      intro c hc cn
      have h := ((S.faces c).1 hc).resolve_right cn
      exact ⟨h, (kept c h.1 h.2).2⟩
    induction p with
    | refl h => exact ⟨fun _ => .refl hf, fun h => absurd hf (S.fresh.2.2 f h)⟩
    | @step b c p ad hc ih =>
      have hb := p.target
      obtain ⟨hne, x, y, hxy, bx, yb, cx, cy⟩ := (adj_iff m' hb hc).1 ad
      by_cases bd : b ∈ fn
      · have pb := ih.2 bd
        refine ⟨fun cd => ?_, fun _ => pb⟩
        obtain ⟨o1, o2⟩ := old c hc cd
        rw [o2] at cx cy
        rcases bwd b bd x bx y yb hxy with ⟨k, hk', kx, ky⟩ | h
        · exact pb.trans ((one e0 he0 k hk').trans (Piece.side m (hd k hk') o1.1 hxy kx ky cx cy))
        · exact absurd cy (h c o1.1 o1.2 cx)
      · have pb := ih.1 bd
        obtain ⟨q1, q2⟩ := old b hb bd
        rw [q2] at bx yb
        refine ⟨fun cd => ?_, fun cd => ?_⟩
        · obtain ⟨o1, o2⟩ := old c hc cd
          rw [o2] at cx cy
          exact pb.trans (Piece.side m q1.1 o1.1 hxy bx yb cx cy)
        · rcases bwd c cd x cx y cy hxy with ⟨k, hk', kx, ky⟩ | h
          · exact pb.trans ((Piece.side m q1.1 (hd k hk') hxy bx yb kx ky).trans (one k hk' e0 he0))
          · exact absurd yb (h b q1.1 q1.2 bx)
  refine ⟨fun f hf fd h hh hhd => ⟨fun p => ?_, fun p => (F1 f hf fd h p).1 hhd⟩, fun f hf fd d hdd k hkk => ⟨fun p => ?_, fun p => ?_⟩,
    one, one'⟩
  · exact (B1 f hf fd h p).1 (fun hn => S.fresh.2.2 h hn hh)
  · exact ((B1 f hf fd k p).2 hkk).trans (one e0 he0 d hdd)
  · exact ((F1 f hf fd d p).2 hdd).trans (one' c0 hc0 k hkk)

theorem piece_class {g : Grid F R} {f h : Nat} (hh : h ∈ g.faces) :
    ({k | Piece g f k} : Set Nat) = {k | Piece g h k} ↔ Piece g f h := by
  constructor
  · intro e
    have : h ∈ ({k | Piece g h k} : Set Nat) := Reach.refl hh
    rw [← e] at this; exact this
  · intro p; ext k; exact ⟨fun q => p.symm.trans q, fun q => p.trans q⟩

/-- Faces of one grid stand for faces of another one, in the same pieces. -/
theorem pieces_eq {g g' : Grid F R} {r : Nat → Nat} (hr : ∀ f ∈ g.faces, r f ∈ g'.faces)
    (same : ∀ f ∈ g.faces, ∀ h ∈ g.faces, (Piece g' (r f) (r h) ↔ Piece g f h))
    (onto : ∀ k ∈ g'.faces, ∃ f ∈ g.faces, Piece g' (r f) k) : pieces g' = pieces g := by
  unfold pieces
  symm
  refine Set.ncard_congr (fun s _ => {k | ∃ f ∈ g.faces, f ∈ s ∧ Piece g' (r f) k}) ?_ ?_ ?_
  · rintro s ⟨f, hf, rfl⟩
    refine ⟨r f, hr f hf, ?_⟩
    ext k
    constructor
    · rintro ⟨h, hh, p, q⟩; exact ((same f hf h hh).2 p).trans q
    · intro p; exact ⟨f, hf, .refl hf, p⟩
  · rintro s t ⟨f, hf, rfl⟩ ⟨h, hh, rfl⟩ e
    rw [piece_class hh]
    have : r h ∈ ({k | ∃ h' ∈ g.faces, h' ∈ ({k | Piece g h k} : Set Nat) ∧ Piece g' (r h') k} : Set Nat) :=
      ⟨h, hh, .refl hh, .refl (hr h hh)⟩
    rw [← e] at this
    obtain ⟨h', hh', p, q⟩ := this
    exact Piece.trans p ((same h' hh' h hh).1 q)
  · rintro t ⟨k, hk, rfl⟩
    obtain ⟨f, hf, p⟩ := onto k hk
    refine ⟨_, ⟨f, hf, rfl⟩, ?_⟩
    ext x
    constructor
    · rintro ⟨h, hh, q, q'⟩; exact p.symm.trans (((same f hf h hh).2 q).trans q')
    · intro q; exact ⟨f, hf, .refl hf, p.trans q⟩

/-- If pieces are only cut, there are at least as many as before. -/
theorem pieces_le {g g' : Grid F R} (hr : ∀ f ∈ g'.faces, f ∈ g.faces)
    (same : ∀ f ∈ g'.faces, ∀ h, Piece g' f h → Piece g f h)
    (onto : ∀ k ∈ g.faces, ∃ f ∈ g'.faces, Piece g f k) : pieces g ≤ pieces g' := by
  unfold pieces
  have fin : {S : Set Nat | ∃ f ∈ g'.faces, S = {h | Piece g' f h}}.Finite := by
    refine ((g'.faces.finite_toSet).image (fun f => {h | Piece g' f h})).subset ?_
    rintro _ ⟨f, hf, rfl⟩
    exact ⟨f, hf, rfl⟩
  have e : {S : Set Nat | ∃ f ∈ g.faces, S = {h | Piece g f h}} =
      (fun t : Set Nat => {k | ∃ f ∈ g'.faces, f ∈ t ∧ Piece g f k}) '' {S : Set Nat | ∃ f ∈ g'.faces, S = {h | Piece g' f h}} := by
    ext s
    constructor
    · rintro ⟨k, hk, rfl⟩
      obtain ⟨f, hf, p⟩ := onto k hk
      refine ⟨_, ⟨f, hf, rfl⟩, ?_⟩
      ext x
      constructor
      · rintro ⟨h, _, q, q'⟩; exact p.symm.trans ((same f hf h q).trans q')
      · intro q; exact ⟨f, hf, .refl hf, p.trans q⟩
    · rintro ⟨_, ⟨f, hf, rfl⟩, rfl⟩
      refine ⟨f, hr f hf, ?_⟩
      ext x
      constructor
      · rintro ⟨h, _, q, q'⟩; exact (same f hf h q).trans q'
      · intro q; exact ⟨f, hf, .refl hf, q⟩
  rw [e]
  exact Set.ncard_image_le fin

/-- The number of pieces is the same. -/
theorem SamePieces.count {g g' : Grid F R} {df de nn en fn : List Nat} (P : SamePieces df fn g g') (S : Swaps df de nn en fn g g')
    (hd : ∀ d ∈ df, d ∈ g.faces) (d0 : df ≠ []) (k0 : fn ≠ []) : pieces g' = pieces g := by
  obtain ⟨c0, hc0⟩ := List.exists_mem_of_ne_nil _ k0
  obtain ⟨e0, he0⟩ := List.exists_mem_of_ne_nil _ d0
  classical
  refine pieces_eq (r := fun f => if f ∈ df then c0 else f) ?_ ?_ ?_
  · intro f hf
    by_cases h : f ∈ df
    · simp only [if_pos h]; exact (S.faces c0).2 (Or.inr hc0)
    · simp only [if_neg h]; exact (S.faces f).2 (Or.inl ⟨hf, h⟩)
  · intro f hf h hh
    by_cases f1 : f ∈ df <;> by_cases h1 : h ∈ df <;> simp only [f1, h1, if_true, if_false]
    · exact iff_of_true (P.new_one c0 hc0 c0 hc0) (P.old_one f f1 h h1)
    · exact ⟨fun p => ((P.new h hh h1 f f1 c0 hc0).1 p.symm).symm, fun p => ((P.new h hh h1 f f1 c0 hc0).2 p.symm).symm⟩
    · exact P.new f hf f1 h h1 c0 hc0
    · exact P.kept f hf f1 h hh h1
  · intro k hk
    rcases (S.faces k).1 hk with h | h
    · exact ⟨k, h.1, by simp only [if_neg h.2]; exact .refl hk⟩
    · exact ⟨e0, hd e0 he0, by simp only [if_pos he0]; exact P.new_one c0 hc0 k h⟩

/-- Each edge of a face is counted for each of its faces. -/
theorem borders_count {g : Grid F R} (m : Mesh g) : 3 * g.faces.length + borders g = 2 * g.edges.length := by
  have h1 : (g.edges.flatMap (fun e => (g.eFaces e).map (fun f => (f, e)))).Perm
      (g.faces.flatMap (fun f => (g.fEdges f).map (fun e => (f, e)))) := by
    rw [List.perm_ext_iff_of_nodup]
    · rintro ⟨f, e⟩
      simp only [List.mem_flatMap, List.mem_map, Prod.mk.injEq]
      constructor
      · rintro ⟨x, hx, k, hk, rfl, rfl⟩
        obtain ⟨h1, h2⟩ := (m.edge_face x hx k).1 hk
        exact ⟨k, h1, x, h2, rfl, rfl⟩
      · rintro ⟨k, hk, x, hx, rfl, rfl⟩
        have := (m.face_edges k hk).2.2 x hx
        exact ⟨x, this, k, (m.edge_face x this k).2 ⟨hk, hx⟩, rfl, rfl⟩
    · rw [List.nodup_flatMap]
      refine ⟨fun e he => (m.edge_faces e he).2.map (fun a b h => (Prod.ext_iff.1 h).1), ?_⟩
      refine m.edges_nodup.imp (fun {a b} hab => ?_)
      rw [Function.onFun, List.disjoint_left]
      rintro ⟨f, e⟩ h1 h2
      simp only [List.mem_map, Prod.mk.injEq] at h1 h2
      obtain ⟨_, _, _, rfl⟩ := h1
      obtain ⟨_, _, _, rfl⟩ := h2
      exact hab rfl
    · rw [List.nodup_flatMap]
      refine ⟨fun f hf => (m.face_edges f hf).2.1.map (fun a b h => (Prod.ext_iff.1 h).2), ?_⟩
      refine m.faces_nodup.imp (fun {a b} hab => ?_)
      rw [Function.onFun, List.disjoint_left]
      rintro ⟨f, e⟩ h1 h2
      simp only [List.mem_map, Prod.mk.injEq] at h1 h2
      obtain ⟨_, _, rfl, _⟩ := h1
      obtain ⟨_, _, rfl, _⟩ := h2
      exact hab rfl
  have h2 := h1.length_eq
  rw [List.length_flatMap, List.length_flatMap] at h2
  simp only [List.length_map] at h2
  have h3 : (g.faces.map (fun f => (g.fEdges f).length)).sum = 3 * g.faces.length := by
    have : ∀ l : List Nat, (∀ f ∈ l, (g.fEdges f).length = 3) → (l.map (fun f => (g.fEdges f).length)).sum = 3 * l.length := by
      intro l
      induction l with
      | nil => simp
      | cons a l ih =>
        intro h
        rw [List.map_cons, List.sum_cons, ih (fun f hf => h f (List.mem_cons_of_mem _ hf)), h a (by simp), List.length_cons]; omega
    exact this _ (fun f hf => (m.face_edges f hf).1)
  have h4 : (g.edges.map (fun e => (g.eFaces e).length)).sum + borders g = 2 * g.edges.length := by
    unfold borders
    have : ∀ l : List Nat, (∀ e ∈ l, (g.eFaces e).length = 1 ∨ (g.eFaces e).length = 2) →
        (l.map (fun e => (g.eFaces e).length)).sum + (l.filter (fun e => (g.eFaces e).length == 1)).length = 2 * l.length := by
      intro l
      induction l with
      | nil => simp
      | cons a l ih =>
        intro h
        have := ih (fun f hf => h f (List.mem_cons_of_mem _ hf))
        rw [List.map_cons, List.sum_cons, List.filter_cons]
        rcases h a (by simp) with h' | h' <;> simp [h'] <;> omega
    exact this _ (fun e he => (m.edge_faces e he).1)
  omega

/-- A surface is closed if it has no border. -/
theorem closed_iff {g : Grid F R} (m : Mesh g) : Closed g ↔ borders g = 0 := by
  unfold Closed borders
  rw [List.length_eq_zero_iff, List.filter_eq_nil_iff]
  constructor
  · intro h e he; simp [h e he]
  · intro h e he
    have := h e he
    rcases (m.edge_faces e he).1 with h' | h'
    · simp [h'] at this
    · exact h'

end Verif
