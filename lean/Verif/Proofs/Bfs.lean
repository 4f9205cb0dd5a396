import Verif.Proofs.Decomp
import Verif.Spec.Bfs
import Mathlib.Tactic.Linarith

/-! Breadth-first search. -/

namespace Verif
variable {F R : Type}

theorem Adj.symm {g : Grid F R} {a b : Nat} (h : Adj g a b) : Adj g b a := by
  obtain ⟨h1, e, h2, h3, h4⟩ := h
  exact ⟨h1.symm, e, h2, h4, h3⟩

theorem Adj.mem_right {g : Grid F R} (hm : Mesh g) {a b : Nat} (h : Adj g a b) : b ∈ g.faces := by
  obtain ⟨h1, e, h2, h3, h4⟩ := h
  exact ((hm.edge_face e h2 b).1 h4).1

/-- The edge loop of the walk: result of one edge on a mesh. -/
theorem bfsEdge_spec {g : Grid F R} (hm : Mesh g) (pred : Nat → Bool) {f e : Nat} (hf : f ∈ g.faces)
    (he : e ∈ g.fEdges f) (s : (Nat → Bool) × List Nat) :
    (g.bfsEdge pred f s e = .ok s ∧ ∀ f2, f2 ≠ f → f2 ∈ g.eFaces e → pred f2 = true → s.1 f2 = true) ∨
    (∃ f2, g.bfsEdge pred f s e = .ok (upd s.1 f2 true, s.2 ++ [f2]) ∧ Adj g f f2 ∧ pred f2 = true ∧ s.1 f2 = false ∧
      ∀ f3, f3 ≠ f → f3 ∈ g.eFaces e → f3 = f2) := by
  have heg : e ∈ g.edges := (hm.face_edges f hf).2.2 e he
  have hfe : f ∈ g.eFaces e := (hm.edge_face e heg f).2 ⟨hf, he⟩
  obtain ⟨hl, hnd⟩ := hm.edge_faces e heg
  unfold Grid.bfsEdge
  match hh : g.eFaces e, hl, hnd with
  | [a], _, _ =>
    left
    rw [hh] at hfe
    have : f = a := by simpa using hfe
    subst this
    refine ⟨by simp, ?_⟩
    intro f2 h1 h2
    exact absurd (by simpa using h2) h1
  | [a, b], _, hnd =>
    have hab : a ≠ b := by simpa using hnd
    rw [hh] at hfe
    have hcase : ∃ f2, g.getNeighbour f e = .ok (some f2) ∧ f2 ≠ f ∧ (∀ f3, f3 ≠ f → f3 ∈ [a, b] → f3 = f2) ∧ f2 ∈ [a, b] := by
      unfold Grid.getNeighbour
      rw [hh]
      by_cases e1 : a = f
      · subst e1
        refine ⟨b, by simp, hab.symm, ?_, by simp⟩
        intro f3 h3 h4; simp [h3] at h4; exact h4
      · have : f = b := by
          rcases List.mem_cons.1 hfe with h | h
          · exact absurd h.symm e1
          · simpa using h
        subst this
        refine ⟨a, by simp [hab], hab, ?_, by simp⟩
        intro f3 h3 h4; simp [h3] at h4; exact h4
    obtain ⟨f2, hn, hne, huniq, hmem⟩ := hcase
    simp only [List.length_cons, List.length_nil, Nat.zero_add, hn, res_bind_ok]
    by_cases hc : s.1 f2 = false ∧ pred f2 = true
    · right
      refine ⟨f2, by simp [hc.1, hc.2], ⟨hne.symm, e, heg, by rw [hh]; exact hfe, by rw [hh]; exact hmem⟩, hc.2, hc.1, huniq⟩
    · left
      refine ⟨by rw [if_neg (by decide)]; simp only [if_neg hc], ?_⟩
      intro f3 h3 h4 h5
      rw [huniq f3 h3 h4] at h5 ⊢
      by_contra h6
      exact hc ⟨by simpa using h6, h5⟩

/-- Invariant of the walk started with marks `m0` at `start`; the first `i` faces are done. -/
structure WalkInv (g : Grid F R) (pred m0 : Nat → Bool) (start : Nat) (m : Nat → Bool) (path : List Nat) : Prop where
  nodup : path.Nodup
  mem : ∀ f ∈ path, f ∈ g.faces ∧ pred f = true ∧ m0 f = false
  marks : ∀ f, m f = true ↔ m0 f = true ∨ f ∈ path
  head : path[0]? = some start
  grown : Grown (Adj g) path

theorem walkInv_append {g : Grid F R} (hm : Mesh g) {pred m0 : Nat → Bool} {start : Nat} {m : Nat → Bool} {path : List Nat}
    (h : WalkInv g pred m0 start m path) {i f f2 : Nat} (hi : path[i]? = some f) (ha : Adj g f f2)
    (hp : pred f2 = true) (hmk : m f2 = false) :
    WalkInv g pred m0 start (upd m f2 true) (path ++ [f2]) := by
  have hnot : ¬ (m0 f2 = true ∨ f2 ∈ path) := by
    rw [← h.marks, hmk]; simp
  have hlt : i < path.length := (List.getElem?_eq_some_iff.1 hi).1
  refine ⟨?_, ?_, ?_, ?_, ?_⟩
  · refine List.nodup_append.2 ⟨h.nodup, by simp, ?_⟩
    intro a ha b hb e
    have : b = f2 := by simpa using hb
    exact hnot (Or.inr (by rw [← this, ← e]; exact ha))
  · intro f' hf'
    rcases List.mem_append.1 hf' with h' | h'
    · exact h.mem f' h'
    · have : f' = f2 := by simpa using h'
      subst this
      exact ⟨ha.mem_right hm, hp, by
        cases hc : m0 f' with
        | false => rfl
        | true => exact absurd (Or.inl hc) hnot⟩
  · intro f'
    rw [upd_apply]
    split
    · rename_i e; subst e; simp
    · rename_i e; rw [h.marks]; simp [e]
  · rw [List.getElem?_append_left (by omega)]; exact h.head
  · intro j f' hj hf'
    by_cases hjl : j < path.length
    · rw [List.getElem?_append_left hjl] at hf'
      obtain ⟨k, f'', hk, h1, h2⟩ := h.grown j f' hj hf'
      exact ⟨k, f'', hk, by rw [List.getElem?_append_left (by omega)]; exact h1, h2⟩
    · have hjl' : j < (path ++ [f2]).length := (List.getElem?_eq_some_iff.1 hf').1
      simp at hjl'
      have : j = path.length := by omega
      subst this
      simp at hf'; subst hf'
      exact ⟨i, f, hlt, by rw [List.getElem?_append_left hlt]; exact hi, ha⟩

/-- All eligible neighbours of the faces at positions below `i` are marked. -/
def ClosedUpTo (g : Grid F R) (pred m : Nat → Bool) (path : List Nat) (i : Nat) : Prop :=
  ∀ j f f2, j < i → path[j]? = some f → Adj g f f2 → pred f2 = true → m f2 = true

/-- One face of the walk. -/
theorem walkFace {g : Grid F R} (hm : Mesh g) {pred m0 : Nat → Bool} {start : Nat} {m : Nat → Bool} {path : List Nat}
    (h : WalkInv g pred m0 start m path) {i f : Nat} (hi : path[i]? = some f) (hcl : ClosedUpTo g pred m path i) :
    ∃ m' ext, (g.fEdges f).foldlM (g.bfsEdge pred f) (m, path) = .ok (m', path ++ ext) ∧
      WalkInv g pred m0 start m' (path ++ ext) ∧ ClosedUpTo g pred m' (path ++ ext) (i + 1) := by
  have hf : f ∈ g.faces := (h.mem f (List.mem_of_getElem? hi)).1
  have hlt : i < path.length := (List.getElem?_eq_some_iff.1 hi).1
  have key := foldlM_total (g.bfsEdge pred f) (g.fEdges f) (fun pre s =>
    ∃ ext, s.2 = path ++ ext ∧ WalkInv g pred m0 start s.1 s.2 ∧ (∀ f', m f' = true → s.1 f' = true) ∧
      ∀ e ∈ pre, ∀ f2, f2 ≠ f → f2 ∈ g.eFaces e → pred f2 = true → s.1 f2 = true) (m, path)
    ⟨[], by simp, h, fun _ h => h, by simp⟩ (by
      rintro pre e post s hl ⟨ext, h1, h2, h3, h4⟩
      have he : e ∈ g.fEdges f := by rw [hl]; simp
      have hi' : s.2[i]? = some f := by rw [h1, List.getElem?_append_left hlt]; exact hi
      rcases bfsEdge_spec hm pred hf he s with ⟨hr, hx⟩ | ⟨f2, hr, ha, hp, hmk, hu⟩
      · refine ⟨s, hr, ext, h1, h2, h3, ?_⟩
        intro e' he' f2 hne hmem hp
        rcases List.mem_append.1 he' with h' | h'
        · exact h4 e' h' f2 hne hmem hp
        · have : e' = e := by simpa using h'
          subst this
          exact hx f2 hne hmem hp
      · refine ⟨_, hr, ext ++ [f2], by simp [h1], walkInv_append hm h2 hi' ha hp hmk, ?_, ?_⟩
        · intro f' hf'
          simp only [upd_apply]
          split
          · rfl
          · exact h3 f' hf'
        · intro e' he' f3 hne hmem hp3
          simp only [upd_apply]
          split
          · rfl
          · rename_i hne2
            rcases List.mem_append.1 he' with h' | h'
            · exact h4 e' h' f3 hne hmem hp3
            · have : e' = e := by simpa using h'
              subst this
              exact absurd (hu f3 hne hmem) hne2)
  obtain ⟨⟨m', p'⟩, hr, ext, h1, h2, h3, h4⟩ := key
  simp only at h1 h2 h3 h4
  subst h1
  refine ⟨m', ext, hr, h2, ?_⟩
  intro j f1 f2 hj hf1 ha hp
  have hjl : j < path.length := by omega
  rw [List.getElem?_append_left hjl] at hf1
  by_cases hji : j < i
  · exact h3 f2 (hcl j f1 f2 hji hf1 ha hp)
  · have : j = i := by omega
    subst this
    rw [hi] at hf1
    cases hf1
    obtain ⟨hne, e, he, h5, h6⟩ := ha
    exact h4 e ((hm.edge_face e he f).1 h5).2 f2 hne.symm h6 hp

theorem nodup_length_le {l l' : List Nat} (hnd : l.Nodup) (hs : ∀ x ∈ l, x ∈ l') : l.length ≤ l'.length :=
  (List.subperm_of_subset hnd hs).length_le

/-- The walk with enough fuel. -/
theorem bfsWalk_spec {g : Grid F R} (hm : Mesh g) {pred m0 : Nat → Bool} {start : Nat} (fuel : Nat) :
    ∀ (i : Nat) (m : Nat → Bool) (path : List Nat), WalkInv g pred m0 start m path → ClosedUpTo g pred m path i →
      i ≤ path.length → g.faces.length < fuel + i →
      ∃ m' path', g.bfsWalk pred fuel i (m, path) = .ok (m', path') ∧ WalkInv g pred m0 start m' path' ∧
        ∀ f ∈ path', ∀ f2, Adj g f f2 → pred f2 = true → m' f2 = true := by
  induction fuel with
  | zero =>
    intro i m path h _ hi hfu
    have := nodup_length_le h.nodup (fun x hx => (h.mem x hx).1)
    omega
  | succ fuel ih =>
    intro i m path h hcl hi hfu
    unfold Grid.bfsWalk
    cases hp : path[i]? with
    | none =>
      refine ⟨m, path, by simp, h, ?_⟩
      intro f hf f2 ha hp2
      obtain ⟨j, hj⟩ := List.mem_iff_getElem?.1 hf
      have h1 : j < path.length := (List.getElem?_eq_some_iff.1 hj).1
      have h2 : path.length ≤ i := by simpa using hp
      exact hcl j f f2 (by omega) hj ha hp2
    | some f =>
      obtain ⟨m1, ext, h1, h2, h3⟩ := walkFace hm h hp hcl
      have hlt : i < path.length := (List.getElem?_eq_some_iff.1 hp).1
      obtain ⟨m', path', h4, h5, h6⟩ := ih (i + 1) m1 (path ++ ext) h2 h3 (by simp; omega) (by omega)
      refine ⟨m', path', ?_, h5, h6⟩
      simp only
      rw [h1, res_bind_ok, h4]

theorem reach_mem_group {adj : Nat → Nat → Prop} {p : Nat → Prop} {a b : Nat} (h : Reach adj p a b) : p a ∧ p b := by
  induction h with
  | refl h => exact ⟨h, h⟩
  | step _ _ h3 ih => exact ⟨ih.1, h3⟩

/-- One connectivity component, when the marked faces are closed under eligible neighbours. -/
theorem bfsComponent_spec {g : Grid F R} (hm : Mesh g) {pred m0 : Nat → Bool} {start : Nat} (hs : start ∈ g.faces)
    (hclosed : ∀ f f2, m0 f = true → Adj g f f2 → f2 ∈ g.faces → pred f2 = true → m0 f2 = true) :
    ∃ m' c, g.bfsComponent pred m0 start = .ok (m', c) ∧ (∀ f, m' f = true ↔ m0 f = true ∨ f ∈ c) ∧
      ((c = [] ∧ (m0 start = true ∨ pred start = false)) ∨
        (IsGroup (Adj g) (fun f => f ∈ g.faces ∧ pred f = true) c ∧ c[0]? = some start ∧ ∀ f ∈ c, m0 f = false)) := by
  unfold Grid.bfsComponent
  by_cases hc : m0 start = true ∨ pred start = false
  · exact ⟨m0, [], by simp [hc], by simp, Or.inl ⟨rfl, hc⟩⟩
  · have hc1 : m0 start = false := by
      cases h : m0 start with
      | false => rfl
      | true => exact absurd (Or.inl h) hc
    have hc2 : pred start = true := by
      cases h : pred start with
      | true => rfl
      | false => exact absurd (Or.inr h) hc
    have hinit : WalkInv g pred m0 start (upd m0 start true) [start] := by
      refine ⟨by simp, ?_, ?_, by simp, ?_⟩
      · intro f hf
        have : f = start := by simpa using hf
        subst this; exact ⟨hs, hc2, hc1⟩
      · intro f
        rw [upd_apply]
        split
        · rename_i e; subst e; simp
        · rename_i e; simp [e]
      · intro j f hj hf
        have := (List.getElem?_eq_some_iff.1 hf).1
        simp at this; omega
    obtain ⟨m', c, h1, h2, h3⟩ := bfsWalk_spec hm (g.faces.length + g.fNext + 1) 0 (upd m0 start true) [start] hinit
      (by intro j _ _ hj; omega) (by omega) (by omega)
    refine ⟨m', c, by simp [hc, h1], h2.marks, Or.inr ⟨?_, h2.head, fun f hf => (h2.mem f hf).2.2⟩⟩
    obtain ⟨t, rfl⟩ : ∃ t, c = start :: t := by
      have := h2.head
      cases c with
      | nil => simp at this
      | cons a t => simp at this; subst this; exact ⟨t, rfl⟩
    refine ⟨start, t, rfl, h2.nodup, ?_, h2.grown⟩
    intro f
    constructor
    · intro hf
      obtain ⟨j, hj⟩ := List.mem_iff_getElem?.1 hf
      induction j using Nat.strong_induction_on generalizing f with
      | _ j ih =>
        by_cases h0 : j = 0
        · subst h0
          simp at hj; subst hj
          exact Reach.refl ⟨hs, hc2⟩
        · obtain ⟨k, f', hk, h5, h6⟩ := h2.grown j f (by omega) hj
          have := h2.mem f hf
          exact Reach.step (ih k hk f' (List.mem_of_getElem? h5) h5) h6 ⟨this.1, this.2.1⟩
    · intro hr
      induction hr with
      | refl _ => simp
      | step hr ha hp ih =>
        rename_i b c
        have hmk := h3 b ih c ha hp.2
        rcases (h2.marks c).1 hmk with h | h
        · have := hclosed c b h ha.symm (h2.mem b ih).1 (h2.mem b ih).2.1
          rw [(h2.mem b ih).2.2] at this; cases this
        · exact h

/-- Invariant of the outer loop of `bfs_path`. -/
structure LoopInv (g : Grid F R) (pred : Nat → Bool) (m : Nat → Bool) (p : List Nat) : Prop where
  nodup : p.Nodup
  groups : ∃ gs : List (List Nat), p = gs.flatten ∧ ∀ c ∈ gs, IsGroup (Adj g) (fun f => f ∈ g.faces ∧ pred f = true) c
  marks : ∀ f ∈ g.faces, (m f = true ↔ f ∈ p)

theorem reach_trans {adj : Nat → Nat → Prop} {p : Nat → Prop} {a b c : Nat} (h1 : Reach adj p a b) (h2 : Reach adj p b c) :
    Reach adj p a c := by
  induction h2 with
  | refl _ => exact h1
  | step _ ha hp ih => exact Reach.step ih ha hp

theorem group_mem {g : Grid F R} {pred : Nat → Bool} {c : List Nat}
    (h : IsGroup (Adj g) (fun f => f ∈ g.faces ∧ pred f = true) c) {f : Nat} (hf : f ∈ c) :
    f ∈ g.faces ∧ pred f = true := by
  obtain ⟨hd, t, _, _, h3, _⟩ := h
  exact (reach_mem_group ((h3 f).1 hf)).2

theorem LoopInv.mem {g : Grid F R} {pred m : Nat → Bool} {p : List Nat} (h : LoopInv g pred m p) {f : Nat}
    (hf : f ∈ p) : f ∈ g.faces ∧ pred f = true := by
  obtain ⟨gs, rfl, hg⟩ := h.groups
  obtain ⟨c, hc, hfc⟩ := List.mem_flatten.1 hf
  exact group_mem (hg c hc) hfc

theorem LoopInv.closed {g : Grid F R} (hm : Mesh g) {pred m : Nat → Bool} {p : List Nat} (h : LoopInv g pred m p) (f f2 : Nat)
    (hf : m f = true) (ha : Adj g f f2) (hf2 : f2 ∈ g.faces) (hp : pred f2 = true) : m f2 = true := by
  have hfm : f ∈ g.faces := ha.symm.mem_right hm
  rw [h.marks f2 hf2]
  have hfp := (h.marks f hfm).1 hf
  obtain ⟨gs, rfl, hg⟩ := h.groups
  obtain ⟨c, hc, hfc⟩ := List.mem_flatten.1 hfp
  refine List.mem_flatten.2 ⟨c, hc, ?_⟩
  obtain ⟨hd, t, _, _, h3, _⟩ := hg c hc
  rw [h3] at hfc ⊢
  exact Reach.step hfc ha ⟨hf2, hp⟩

theorem filter_length_lt {l : List Nat} {p q : Nat → Bool} (hpq : ∀ x ∈ l, q x = true → p x = true)
    {a : Nat} (ha : a ∈ l) (hpa : p a = true) (hqa : q a = false) :
    (l.filter q).length < (l.filter p).length := by
  induction l with
  | nil => simp at ha
  | cons b l ih =>
    have hle : (l.filter q).length ≤ (l.filter p).length := by
      rw [← List.countP_eq_length_filter, ← List.countP_eq_length_filter]
      exact List.countP_mono_left (fun x hx => hpq x (List.mem_cons_of_mem _ hx))
    rcases List.mem_cons.1 ha with rfl | ha
    · rw [List.filter_cons_of_pos hpa, List.filter_cons_of_neg (by simp [hqa])]
      simp; omega
    · have := ih (fun x hx => hpq x (List.mem_cons_of_mem _ hx)) ha
      have hb := hpq b (by simp)
      rw [List.filter_cons, List.filter_cons]
      cases hq : q b
      · cases hp : p b <;> simp <;> omega
      · rw [hb hq]; simp; omega

theorem bfsLoop_spec {g : Grid F R} (hm : Mesh g) (pred : Nat → Bool) (fuel : Nat) :
    ∀ (m : Nat → Bool) (p : List Nat) (start : Nat), LoopInv g pred m p → start ∈ g.faces →
      ((g.faces.filter (fun f => m f = false && pred f)).length ≤ fuel ∧ m start = false ∧ pred start = true ∨
        (g.faces.filter (fun f => m f = false && pred f)).length < fuel) →
      ∃ m' p', g.bfsLoop pred fuel m p start = .ok (m', p') ∧ LoopInv g pred m' p' ∧
        (∀ f ∈ g.faces, pred f = true → f ∈ p') ∧ (∃ ext, p' = p ++ ext) ∧
        (m start = false → pred start = true → p'[p.length]? = some start) := by
  induction fuel with
  | zero =>
    intro m p start h hs hf
    rcases hf with ⟨h1, h2, h3⟩ | h1
    · have : start ∈ g.faces.filter (fun f => m f = false && pred f) := by
        rw [List.mem_filter]; simp [hs, h2, h3]
      have := List.length_pos_of_mem this
      omega
    · omega
  | succ fuel ih =>
    intro m p start h hs hfu
    obtain ⟨m1, c, h1, h2, h3⟩ := bfsComponent_spec hm hs (h.closed hm)
    have hinv : LoopInv g pred m1 (p ++ c) := by
      rcases h3 with ⟨rfl, _⟩ | ⟨hg, hhd, hun⟩
      · refine ⟨by simpa using h.nodup, by simpa using h.groups, ?_⟩
        intro f hf
        rw [h2, h.marks f hf]; simp
      · refine ⟨?_, ?_, ?_⟩
        · refine List.nodup_append.2 ⟨h.nodup, ?_, ?_⟩
          · obtain ⟨_, _, _, hnd, _⟩ := hg; exact hnd
          · intro a ha b hb e
            subst e
            have := hun a hb
            rw [(h.marks a (h.mem ha).1).2 ha] at this
            cases this
        · obtain ⟨gs, rfl, hgs⟩ := h.groups
          refine ⟨gs ++ [c], by simp, ?_⟩
          intro c' hc'
          rcases List.mem_append.1 hc' with h' | h'
          · exact hgs c' h'
          · have : c' = c := by simpa using h'
            subst this; exact hg
        · intro f hf
          rw [h2, h.marks f hf]; simp
    have hstart : m start = false → pred start = true → (p ++ c)[p.length]? = some start := by
      intro ha hb
      rcases h3 with ⟨_, hx⟩ | ⟨hg, hhd, hun⟩
      · rw [ha, hb] at hx; simp at hx
      · rw [List.getElem?_append_right (Nat.le_refl _)]; simpa using hhd
    unfold Grid.bfsLoop
    rw [h1, res_bind_ok]
    simp only
    cases hno : g.noMarkFace pred m1 with
    | none =>
      refine ⟨m1, p ++ c, rfl, hinv, ?_, ⟨c, rfl⟩, hstart⟩
      intro f hf hp
      unfold Grid.noMarkFace at hno
      rw [List.find?_eq_none] at hno
      have := hno f hf
      simp [hp] at this
      exact (hinv.marks f hf).1 this
    | some s =>
      unfold Grid.noMarkFace at hno
      have hs1 := List.mem_of_find?_eq_some hno
      have hs2 := List.find?_some hno
      simp only [Bool.and_eq_true, decide_eq_true_eq] at hs2
      have hmono : ∀ x, m1 x = false → m x = false := by
        intro x hx
        cases hmx : m x with
        | false => rfl
        | true => rw [(h2 x).2 (Or.inl hmx)] at hx; cases hx
      have hbound : (g.faces.filter (fun f => m1 f = false && pred f)).length ≤ fuel := by
        rcases hfu with ⟨ha, hb, hc⟩ | ha
        · have hlt := filter_length_lt (l := g.faces) (p := fun f => m f = false && pred f)
            (q := fun f => m1 f = false && pred f) (by
              intro x _ hx
              simp only [Bool.and_eq_true, decide_eq_true_eq] at hx ⊢
              exact ⟨hmono x hx.1, hx.2⟩) hs (by simp [hb, hc]) (by
              have : m1 start = true := by
                rw [h2]
                rcases h3 with ⟨_, hx⟩ | ⟨_, hhd, _⟩
                · rw [hb, hc] at hx; simp at hx
                · exact Or.inr (List.mem_of_getElem? hhd)
              simp [this])
          omega
        · have : (g.faces.filter (fun f => m1 f = false && pred f)).length ≤
              (g.faces.filter (fun f => m f = false && pred f)).length := by
            rw [← List.countP_eq_length_filter, ← List.countP_eq_length_filter]
            apply List.countP_mono_left
            intro x _ hx
            simp only [Bool.and_eq_true, decide_eq_true_eq] at hx ⊢
            exact ⟨hmono x hx.1, hx.2⟩
          omega
      obtain ⟨m', p', k1, k2, k3, ⟨ext, k4⟩, k5⟩ := ih m1 (p ++ c) s hinv hs1 (Or.inl ⟨hbound, hs2.1, hs2.2⟩)
      refine ⟨m', p', k1, k2, k3, ⟨c ++ ext, by simp [k4]⟩, ?_⟩
      intro ha hb
      have := hstart ha hb
      rw [k4, List.getElem?_append_left (List.getElem?_eq_some_iff.1 this).1]
      exact this

/-- `bfs_path` on a mesh. -/
theorem bfsPath_spec {g : Grid F R} (hm : Mesh g) (pred : Nat → Bool) (start : Nat) (hs : start ∈ g.faces) :
    ∃ mk p, g.bfsPath start pred = .ok ({ g with fMark := mk }, p) ∧ p.Nodup ∧
      (∀ f, f ∈ p ↔ f ∈ g.faces ∧ pred f = true) ∧
      (∃ gs : List (List Nat), p = gs.flatten ∧ ∀ c ∈ gs, IsGroup (Adj g) (fun f => f ∈ g.faces ∧ pred f = true) c) ∧
      (pred start = true → p[0]? = some start) := by
  have hinit : LoopInv g pred (g.faces.foldl (fun m f => upd m f false) g.fMark) [] := by
    refine ⟨by simp, ⟨[], by simp, by simp⟩, ?_⟩
    intro f hf
    rw [Grid.foldl_upd_const g.faces g.fMark (fun _ => false) f]
    simp [hf]
  obtain ⟨m', p', h1, h2, h3, _, h5⟩ := bfsLoop_spec hm pred (g.faces.length + 2) _ [] start hinit hs (Or.inr (by
    have := List.length_filter_le (fun f => decide ((g.faces.foldl (fun m f => upd m f false) g.fMark) f = false) && pred f) g.faces
    omega))
  refine ⟨m', p', ?_, h2.nodup, fun f => ⟨fun h => h2.mem h, fun h => h3 f h.1 h.2⟩, h2.groups, ?_⟩
  · unfold Grid.bfsPath
    show (g.bfsLoop pred (g.faces.length + 2) (List.foldl (fun m f => upd m f false) g.fMark g.faces) [] start >>= _) = _
    rw [h1]; rfl
  · intro hp
    exact h5 (by rw [Grid.foldl_upd_const g.faces g.fMark (fun _ => false)]; simp [hs]) hp

end Verif
