import Verif.Proofs.Refine2

/-! The loop of `refine`: the invariant, and what one pass does. -/

namespace Verif
open Grid
variable {F R : Type}

theorem Change.Cuts.unique {a : Change F} {e e' : Nat} (h : a.Cuts e) (h' : a.Cuts e') : e = e' := by
  cases a with
  | keep => cases h
  | inside => cases h
  | side x p => exact (show x = e from h).symm.trans h'
  | side2 x p q => exact (show x = e from h).symm.trans h'

theorem snoc_split {α : Type} {l pre post : List α} {k j : α} (h : l ++ [k] = pre ++ j :: post) :
    (l = pre ∧ k = j) ∨ ∃ post', l = pre ++ j :: post' := by
  induction post using List.reverseRecOn with
  | nil => have := List.append_inj' h rfl; exact Or.inl ⟨this.1, by simpa using this.2⟩
  | append_singleton post x _ =>
    rw [← List.cons_append, ← List.append_assoc] at h
    exact Or.inr ⟨post, (List.append_inj' h rfl).1⟩

theorem firstCut_snoc {g : Grid F R} {l : List (Nat × Change F)} {k : Nat × Change F} {f x : Nat} : FirstCut g (l ++ [k]) f x ↔
    FirstCut g l f x ∨ (x ∈ g.fEdges f ∧ k.2.Cuts x ∧ ∀ i ∈ l, ∀ y ∈ g.fEdges f, ¬ i.2.Cuts y) := by
  constructor
  · rintro ⟨hx, pre, j, post, h, hc, hn⟩
    rcases snoc_split h with ⟨rfl, rfl⟩ | ⟨post', rfl⟩
    · exact Or.inr ⟨hx, hc, hn⟩
    · exact Or.inl ⟨hx, pre, j, post', rfl, hc, hn⟩
  · rintro (⟨hx, pre, j, post, rfl, hc, hn⟩ | ⟨hx, hc, hn⟩)
    · exact ⟨hx, pre, j, post ++ [k], by simp, hc, hn⟩
    · exact ⟨hx, l, k, [], rfl, hc, hn⟩

theorem firstCut_exists {g : Grid F R} {f : Nat} (l : List (Nat × Change F)) (h : ∃ i ∈ l, ∃ y ∈ g.fEdges f, i.2.Cuts y) : ∃ e, FirstCut g l f e := by
  induction l using List.reverseRecOn with
  | nil => obtain ⟨i, hi, -⟩ := h; cases hi
  | append_singleton l k ih =>
    by_cases hl : ∃ i ∈ l, ∃ y ∈ g.fEdges f, i.2.Cuts y
    · obtain ⟨e, he⟩ := ih hl
      exact ⟨e, firstCut_snoc.2 (Or.inl he)⟩
    · obtain ⟨i, hi, y, hy, hc⟩ := h
      rcases List.mem_append.1 hi with hi | hi
      · exact absurd ⟨i, hi, y, hy, hc⟩ hl
      · rw [List.mem_singleton] at hi
        subst hi
        exact ⟨y, firstCut_snoc.2 (Or.inr ⟨hy, hc, fun a ha b hb c => hl ⟨a, ha, b, hb, c⟩⟩)⟩

theorem FirstCut.cut {g : Grid F R} {l : List (Nat × Change F)} {f x : Nat} (h : FirstCut g l f x) : ∃ i ∈ l, i.2.Cuts x := by
  obtain ⟨-, pre, j, post, rfl, hc, -⟩ := h
  exact ⟨j, by simp, hc⟩

theorem FirstCut.unique {g : Grid F R} {l : List (Nat × Change F)} {f x y : Nat} (h : FirstCut g l f x) (h' : FirstCut g l f y) : x = y := by
  induction l using List.reverseRecOn with
  | nil => obtain ⟨i, hi, -⟩ := h.cut; cases hi
  | append_singleton l k ih =>
    rcases firstCut_snoc.1 h with h | ⟨hx, hc, hn⟩ <;> rcases firstCut_snoc.1 h' with h' | ⟨hx', hc', hn'⟩
    · exact ih h h'
    · obtain ⟨i, hi, c⟩ := h.cut; exact absurd c (hn' i hi x h.1)
    · obtain ⟨i, hi, c⟩ := h'.cut; exact absurd c (hn i hi y h'.1)
    · exact hc.unique hc'

/-- The job is the first one to cut its edge. -/
def Leads (pre : List (Nat × Change F)) (j : Nat × Change F) : Prop := ∀ e, j.2.Cuts e → ∀ i ∈ pre, ¬ i.2.Cuts e

/-- The state `g` of the grid `g0` after the jobs `done`. -/
structure Inv (rc : Vec F → R) (g0 g : Grid F R) (done : List (Nat × Change F)) : Prop where
  good : Good rc g
  nodes : ∀ n ∈ g0.nodes, n ∈ g.nodes ∧ g.nP n = g0.nP n
  new : ∀ n ∈ g.nodes, n ∉ g0.nodes → ∃ pre j post, done = pre ++ j :: post ∧ Leads pre j ∧ g.nP n ∈ j.2.points
  placed : ∀ pre j post, done = pre ++ j :: post → Leads pre j → ∀ p ∈ j.2.points, ∃ n ∈ g.nodes, g.nP n = p
  eNodes : ∀ x ∈ g0.edges, g.eNodes x = g0.eNodes x
  eNext : g0.eNext ≤ g.eNext
  fNext : g0.fNext ≤ g.fNext
  edges : ∀ e ∈ g0.edges, e ∈ g.edges ↔ ∀ j ∈ done, ¬ j.2.Cuts e
  dead : ∀ e ∈ g0.edges, ∀ j ∈ done, j.2.Cuts e → g.eFaces e = []
  sub : ∀ f ∈ g0.faces, (g.fEdges f).Sublist (g0.fEdges f)
  fEdges : ∀ f ∈ g0.faces, (∀ p, (f, Change.inside p) ∉ done) → ∀ x ∈ g0.fEdges f, x ∈ g.fEdges f ↔ ¬ FirstCut g0 done f x
  faces : ∀ f ∈ g0.faces, f ∈ g.faces ↔ (∀ p, (f, Change.inside p) ∉ done) ∧ ∀ j ∈ done, ∀ e ∈ g0.fEdges f, ¬ j.2.Cuts e
  fZone : ∀ f ∈ g0.faces, g.fZone f = g0.fZone f
  zones : g.zones = g0.zones
  fNodes : ∀ f ∈ g0.faces, f ∈ g.faces → g.fNodes f = g0.fNodes f

namespace Inv
variable {rc : Vec F → R} {g0 g g' : Grid F R} {done : List (Nat × Change F)} {k : Nat × Change F}

theorem start (G : Good rc g0) : Inv rc g0 g0 [] := by
  refine ⟨G, fun n hn => ⟨hn, rfl⟩, fun n hn h => absurd hn h, fun pre j post h => by simp at h, fun _ _ => rfl, le_rfl, le_rfl, fun e he => by simp [he],
    fun _ _ _ h => by simp at h, fun _ _ => List.Sublist.refl _, fun f hf _ x hx => ?_, fun f hf => by simp [hf], fun _ _ => rfl, rfl, fun _ _ _ => rfl⟩
  simp only [hx, true_iff]
  exact fun h => by obtain ⟨i, hi, -⟩ := h.cut; cases hi

theorem new_snoc (I : Inv rc g0 g done) (hP : ∀ n ∈ g.nodes, g'.nP n = g.nP n) {n : Nat} (hn : n ∈ g.nodes) (h0 : n ∉ g0.nodes) :
    ∃ pre j post, done ++ [k] = pre ++ j :: post ∧ Leads pre j ∧ g'.nP n ∈ j.2.points := by
  obtain ⟨pre, j, post, rfl, h1, h2⟩ := I.new n hn h0
  exact ⟨pre, j, post ++ [k], by simp, h1, by rw [hP n hn]; exact h2⟩

/-- A job which does nothing: it asks for nothing, or the edge was cut before. -/
theorem idle (I : Inv rc g0 g done) (hk : (k.2 = .keep) ∨ ∃ e, k.2.Cuts e ∧ ∃ i ∈ done, i.2.Cuts e) : Inv rc g0 g (done ++ [k]) := by
  have hc : ∀ x, k.2.Cuts x → ∃ i ∈ done, i.2.Cuts x := by
    intro x hx
    rcases hk with hk | ⟨e, he, i, hi, h⟩
    · rw [hk] at hx; cases hx
    · rw [hx.unique he]; exact ⟨i, hi, h⟩
  have hi : ∀ f p, k ≠ (f, Change.inside p) := by
    rintro f p rfl
    rcases hk with hk | ⟨e, he, -⟩
    · cases hk
    · cases he
  have hcut : ∀ x, (∀ j ∈ done ++ [k], ¬ j.2.Cuts x) ↔ ∀ j ∈ done, ¬ j.2.Cuts x := by
    intro x
    constructor
    · exact fun h j hj => h j (List.mem_append_left _ hj)
    · intro h j hj
      rcases List.mem_append.1 hj with hj | hj
      · exact h j hj
      · rw [List.mem_singleton] at hj; subst hj
        intro c; obtain ⟨i, hi, h'⟩ := hc x c; exact h i hi h'
  have hins : ∀ f, (∀ p, (f, Change.inside p) ∉ done ++ [k]) ↔ ∀ p, (f, Change.inside p) ∉ done := by
    intro f
    simp only [List.mem_append, List.mem_singleton, not_or]
    exact ⟨fun h p => (h p).1, fun h p => ⟨h p, (hi f p).symm⟩⟩
  refine ⟨I.good, I.nodes, fun n hn h0 => I.new_snoc (fun _ _ => rfl) hn h0, ?_, I.eNodes, I.eNext, I.fNext, fun e he => ?_, ?_, I.sub, ?_, ?_, I.fZone, I.zones, I.fNodes⟩
  · intro pre j post h hl p hp
    rcases snoc_split h with ⟨rfl, rfl⟩ | ⟨post', h'⟩
    · rcases hk with hk | ⟨e, he, i, hi, h⟩
      · rw [hk] at hp; cases hp
      · exact absurd h (hl e he i hi)
    · exact I.placed pre j post' h' hl p hp
  · rw [hcut]; exact I.edges e he
  · intro e he j hj c
    rcases List.mem_append.1 hj with hj | hj
    · exact I.dead e he j hj c
    · rw [List.mem_singleton] at hj; subst hj
      obtain ⟨i, hi, h'⟩ := hc e c
      exact I.dead e he i hi h'
  · intro f hf hin x hx
    rw [I.fEdges f hf ((hins f).1 hin) x hx, firstCut_snoc]
    refine not_congr ⟨Or.inl, ?_⟩
    rintro (h | ⟨h1, h2, h3⟩)
    · exact h
    · obtain ⟨i, hi, h'⟩ := hc x h2
      exact absurd h' (h3 i hi x h1)
  · intro f hf
    rw [I.faces f hf, hins]
    refine and_congr_right fun _ => ?_
    constructor
    · exact fun h j hj e he => (hcut e).2 (fun i hi => h i hi e he) j hj
    · exact fun h j hj => h j (List.mem_append_left _ hj)

/-- A job which cuts an edge that was not cut before. -/
theorem cut (I : Inv rc g0 g done) (G : Good rc g0) {e : Nat} (he : e ∈ g0.edges) (hk : k.2.Cuts e) (hn : ∀ i ∈ done, ¬ i.2.Cuts e)
    (C : CutDone rc g g' e k.2.points) : Inv rc g0 g' (done ++ [k]) := by
  have heg := (I.edges e he).2 hn
  have hi : ∀ f p, k ≠ (f, Change.inside p) := by rintro f p rfl; cases hk
  have hins : ∀ f, (∀ p, (f, Change.inside p) ∉ done ++ [k]) ↔ ∀ p, (f, Change.inside p) ∉ done := by
    intro f
    simp only [List.mem_append, List.mem_singleton, not_or]
    exact ⟨fun h p => (h p).1, fun h p => ⟨h p, (hi f p).symm⟩⟩
  have hcut : ∀ x, (∀ j ∈ done ++ [k], ¬ j.2.Cuts x) ↔ (∀ j ∈ done, ¬ j.2.Cuts x) ∧ x ≠ e := by
    intro x
    constructor
    · exact fun h => ⟨fun j hj => h j (List.mem_append_left _ hj), fun c => h k (by simp) (c ▸ hk)⟩
    · rintro ⟨h1, h2⟩ j hj
      rcases List.mem_append.1 hj with hj | hj
      · exact h1 j hj
      · rw [List.mem_singleton] at hj; subst hj
        exact fun c => h2 (c.unique hk)
  have hel : ∀ x ∈ g0.edges, x < g.eNext := fun x hx => lt_of_lt_of_le (G.alloc.edges x hx) I.eNext
  have hfl : ∀ x ∈ g0.faces, x < g.fNext := fun x hx => lt_of_lt_of_le (G.alloc.faces x hx) I.fNext
  refine ⟨C.good, fun n hn => ?_, fun n hn h0 => ?_, ?_, fun x hx => ?_, I.eNext.trans C.frame.eNext, I.fNext.trans C.frame.fNext, fun x hx => ?_, ?_,
    fun f hf => (C.frame.fEdges f (hfl f hf)).trans (I.sub f hf), ?_, ?_, fun f hf => (C.frame.fZone f (hfl f hf)).trans (I.fZone f hf),
    C.keeps.zones.1.trans I.zones, fun f hf hf' => ?_⟩
  · obtain ⟨h1, h2⟩ := I.nodes n hn
    obtain ⟨h3, h4, -⟩ := C.keeps.nodes n h1
    exact ⟨h3, h4.trans h2⟩
  · rcases C.nodes n hn with h | ⟨-, h⟩
    · exact I.new_snoc (fun m hm => (C.keeps.nodes m hm).2.1) h h0
    · refine ⟨done, k, [], rfl, fun x hx => ?_, h⟩
      rw [hx.unique hk]; assumption
  · intro pre j post h hl p hp
    rcases snoc_split h with ⟨rfl, rfl⟩ | ⟨post', h'⟩
    · exact C.placed p hp
    · obtain ⟨n, h1, h2⟩ := I.placed pre j post' h' hl p hp
      obtain ⟨h3, h4, -⟩ := C.keeps.nodes n h1
      exact ⟨n, h3, h4.trans h2⟩
  · exact (C.frame.eNodes x (hel x hx)).trans (I.eNodes x hx)
  · rw [C.edges x (hel x hx), I.edges x hx, hcut]
  · intro x hx j hj c
    by_cases hxe : x = e
    · subst hxe; exact C.dead
    · rcases List.mem_append.1 hj with hj | hj
      · have := C.frame.eFaces x (hel x hx) ?_
        · rw [I.dead x hx j hj c] at this
          simpa using this
        · rintro ⟨-, f, hf, hxf⟩
          have hf' := ((I.good.mesh.edge_face e heg f).1 hf).1
          exact (I.edges x hx).1 ((I.good.mesh.face_edges f hf').2.2 x hxf) j hj c
      · rw [List.mem_singleton] at hj; subst hj
        exact absurd (c.unique hk) hxe
  · intro f hf hin x hx
    rw [hins] at hin
    have hl := hfl f hf
    have h0 := I.fEdges f hf hin x hx
    constructor
    · intro h
      rw [firstCut_snoc]
      rintro (h' | ⟨h1, h2, h3⟩)
      · exact h0.1 ((C.frame.fEdges f hl).subset h) h'
      · obtain rfl := h2.unique hk
        have hlive := (I.faces f hf).2 ⟨hin, h3⟩
        have : f ∈ g.eFaces x := (I.good.mesh.edge_face x heg f).2 ⟨hlive, (C.frame.fEdges f hl).subset h⟩
        exact C.frame.lost f hl this h
    · intro h
      have hxg := h0.2 (fun h' => h (firstCut_snoc.2 (Or.inl h')))
      refine C.frame.kept f hl x hxg ?_
      by_contra hh
      simp only [not_or, not_not] at hh
      obtain ⟨rfl, hfe⟩ := hh
      have hlive := ((I.good.mesh.edge_face x heg f).1 hfe).1
      exact h (firstCut_snoc.2 (Or.inr ⟨hx, hk, ((I.faces f hf).1 hlive).2⟩))
  · intro f hf
    rw [C.faces f (hfl f hf), hins]
    have key : f ∈ g.faces → (f ∈ g.eFaces e ↔ e ∈ g0.fEdges f) := by
      intro hlive
      obtain ⟨h1, h2⟩ := (I.faces f hf).1 hlive
      rw [I.good.mesh.edge_face e heg]
      constructor
      · exact fun h => (I.sub f hf).subset h.2
      · intro h
        refine ⟨hlive, (I.fEdges f hf h1 e h).2 fun c => ?_⟩
        obtain ⟨i, hi, c'⟩ := c.cut
        exact h2 i hi e h c'
    constructor
    · rintro ⟨h1, h2⟩
      refine ⟨((I.faces f hf).1 h1).1, fun j hj x hx => (hcut x).2 ⟨fun i hi => ((I.faces f hf).1 h1).2 i hi x hx, ?_⟩ j hj⟩
      rintro rfl
      exact h2 ((key h1).2 hx)
    · rintro ⟨h1, h2⟩
      have hlive := (I.faces f hf).2 ⟨h1, fun j hj => h2 j (List.mem_append_left _ hj)⟩
      exact ⟨hlive, fun c => h2 k (by simp) e ((key hlive).1 c) hk⟩
  · obtain ⟨h1, h2⟩ := (C.faces f (hfl f hf)).1 hf'
    exact (C.keeps.faces f h1 h2).2.1.trans (I.fNodes f hf h1)

/-- A job which divides a face none of whose sides was cut. -/
theorem divide [DecidableEq R] (I : Inv rc g0 g done) (G : Good rc g0) {f0 : Nat} {p : Vec F} (hf0 : f0 ∈ g.faces) (hp : NewPlace rc g p) (hk : k = (f0, .inside p))
    (hr : g.divideFace rc f0 p = .ok g') : Inv rc g0 g' (done ++ [k]) := by
  obtain ⟨a, b, c, hn⟩ := List.length_eq_three.1 (I.good.mesh.face_nodes f0 hf0).1
  obtain ⟨z, _, _, hz⟩ := zone_of I.good.zones hf0
  obtain ⟨P, g2, h1, h2, h3, h4, h5, hr', o, hq, -⟩ := divideFace_outcome I.good hf0 hn hz hp
  obtain rfl := Except.ok.inj (hr'.symm.trans hr)
  have fr := divideFace_frame I.good hf0 g.eNext hr
  have s := o.swaps
  have kp := o.keeps
  rw [h1, h2] at s kp
  have hc : ∀ x, ¬ k.2.Cuts x := by subst hk; exact fun x h => h
  have hcut : ∀ x, (∀ j ∈ done ++ [k], ¬ j.2.Cuts x) ↔ ∀ j ∈ done, ¬ j.2.Cuts x := by
    intro x
    constructor
    · exact fun h j hj => h j (List.mem_append_left _ hj)
    · intro h j hj
      rcases List.mem_append.1 hj with hj | hj
      · exact h j hj
      · rw [List.mem_singleton] at hj; subst hj; exact hc x
  have hins : ∀ f, (∀ p, (f, Change.inside p) ∉ done ++ [k]) ↔ (∀ p, (f, Change.inside p) ∉ done) ∧ f ≠ f0 := by
    intro f
    simp only [List.mem_append, List.mem_singleton, not_or, hk, Prod.mk.injEq, Change.inside.injEq, not_and]
    constructor
    · exact fun h => ⟨fun p => (h p).1, fun e => (h p).2 e rfl⟩
    · exact fun h q => ⟨h.1 q, fun e => absurd e h.2⟩
  have hel : ∀ x ∈ g0.edges, x < g.eNext := fun x hx => lt_of_lt_of_le (G.alloc.edges x hx) I.eNext
  have hfl : ∀ x ∈ g0.faces, x < g.fNext := fun x hx => lt_of_lt_of_le (G.alloc.faces x hx) I.fNext
  refine ⟨o.good, fun n hn => ?_, fun n hn h0 => ?_, ?_, fun x hx => ?_, I.eNext.trans fr.eNext, I.fNext.trans fr.fNext, fun x hx => ?_, ?_,
    fun f hf => (fr.fEdges f (hfl f hf)).trans (I.sub f hf), ?_, ?_, fun f hf => (fr.fZone f (hfl f hf)).trans (I.fZone f hf),
    kp.zones.1.trans I.zones, fun f hf hf' => ?_⟩
  · obtain ⟨h1, h2⟩ := I.nodes n hn
    obtain ⟨h3, h4, -⟩ := kp.nodes n h1
    exact ⟨h3, h4.trans h2⟩
  · rcases (s.nodes n).1 hn with h | h
    · exact I.new_snoc (fun m hm => (kp.nodes m hm).2.1) h h0
    · refine ⟨done, k, [], rfl, fun x hx => absurd hx (hc x), ?_⟩
      rw [h3, List.mem_singleton] at h
      rw [h, hq, hk]; simp [Change.points]
  · intro pre j post h hl q hp
    rcases snoc_split h with ⟨rfl, rfl⟩ | ⟨post', h'⟩
    · rw [hk] at hp
      obtain rfl : q = p := by simpa [Change.points] using hp
      exact ⟨g.nNext, (s.nodes _).2 (Or.inr (by rw [h3]; simp)), hq⟩
    · obtain ⟨n, h1, h2⟩ := I.placed pre j post' h' hl q hp
      obtain ⟨h3, h4, -⟩ := kp.nodes n h1
      exact ⟨n, h3, h4.trans h2⟩
  · exact (fr.eNodes x (hel x hx)).trans (I.eNodes x hx)
  · rw [hcut, ← I.edges x hx, s.edges]
    constructor
    · rintro (h | h)
      · exact h.1
      · rw [h4] at h; have := hel x hx; simp at h; omega
    · exact fun h => Or.inl ⟨h, by simp⟩
  · intro x hx j hj c
    rcases List.mem_append.1 hj with hj | hj
    · have := fr.eFaces x (hel x hx) (fun hh => (I.edges x hx).1 hh j hj c)
      rw [I.dead x hx j hj c] at this
      simpa using this
    · rw [List.mem_singleton] at hj; subst hj; exact absurd c (hc x)
  · intro f hf hin x hx
    have hl := hfl f hf
    have hxl := hel x ((G.mesh.face_edges f hf).2.2 x hx)
    have h0 := I.fEdges f hf ((hins f).1 hin).1 x hx
    have h1 : FirstCut g0 (done ++ [k]) f x ↔ FirstCut g0 done f x :=
      firstCut_snoc.trans ⟨fun h => h.resolve_right fun h => hc x h.2.1, Or.inl⟩
    rw [h1, ← h0]
    exact ⟨fun h => (fr.fEdges f hl).subset h, fun h => fr.kept f hl x h (Or.inl (by omega))⟩
  · intro f hf
    have h0 : f ∈ g.faces ↔ (∀ p, (f, Change.inside p) ∉ done) ∧ ∀ j ∈ done ++ [k], ∀ e ∈ g0.fEdges f, ¬ j.2.Cuts e := by
      rw [I.faces f hf]
      refine and_congr_right fun _ => ?_
      constructor
      · exact fun h j hj e he => (hcut e).2 (fun i hi => h i hi e he) j hj
      · exact fun h j hj => h j (List.mem_append_left _ hj)
    rw [hins, s.faces, and_right_comm, ← h0]
    constructor
    · rintro (h | h)
      · exact ⟨h.1, by simpa using h.2⟩
      · rw [h5] at h; have := hfl f hf; simp at h; omega
    · exact fun h => Or.inl ⟨h.1, by simpa using h.2⟩
  · rcases (s.faces f).1 hf' with h | h
    · exact (kp.faces f h.1 h.2).2.1.trans (I.fNodes f hf h.1)
    · rw [h5] at h; have := hfl f hf; simp at h; omega

end Inv
end Verif
