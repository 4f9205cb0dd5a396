import Verif.Proofs.Refine3

/-! The loop of `refine`: all passes. -/

namespace Verif
open Grid
variable {F R : Type} [Field F] [LinearOrder F] [IsStrictOrderedRing F]

theorem rebuilding_eq (sqrt round10 : F → F) (t : Tri F) (pts : List (Vec F)) : Refine.rebuilding sqrt round10 t pts =
    (pts.filter (fun p => decide (t.pointInTriangle sqrt round10 p ≠ 0 ∧ t.pointInTriangle sqrt round10 p ≠ 1))).map
      (fun p => (t.pointInTriangle sqrt round10 p, p)) := by
  unfold Refine.rebuilding
  induction pts with
  | nil => rfl
  | cons a l ih =>
    rw [List.filterMap_cons, List.filter_cons]
    by_cases h : t.pointInTriangle sqrt round10 a ≠ 0 ∧ t.pointInTriangle sqrt round10 a ≠ 1
    · simp only [h, if_true, decide_true, List.map_cons, ih, not_false_eq_true, and_self, ne_eq]
    · simp only [if_neg h, ih, decide_eq_true_eq]

theorem triangle_eq {g : Grid F R} {f a b c : Nat} (hn : g.fNodes f = [a, b, c]) : g.triangle f = .ok ⟨f, g.nP a, g.nP b, g.nP c, some f⟩ := by
  unfold Grid.triangle; rw [hn]; rfl

theorem sideOf_mem {sqrt : F → F} {g : Grid F R} {f a b c : Nat} {t : Tri F} (hn : g.fNodes f = [a, b, c]) (ht : g.triangle f = .ok t) (p : Vec F) :
    ∃ s ∈ [(a, b), (b, c), (c, a)], Refine.sideOf sqrt t p = (g.nP s.1, g.nP s.2) := by
  rw [triangle_eq hn] at ht
  obtain rfl := Except.ok.inj ht
  unfold Refine.sideOf
  split
  · exact ⟨(a, b), by simp, rfl⟩
  · split
    · exact ⟨(b, c), by simp, rfl⟩
    · exact ⟨(c, a), by simp, rfl⟩

theorem nP_inj {sqrt : F → F} {g : Grid F R} (h0 : sqrt 0 = 0) (hd : Distinct sqrt g) {n m : Nat} (hn : n ∈ g.nodes) (hm : m ∈ g.nodes)
    (h : g.nP n = g.nP m) : n = m := by
  by_contra hne
  have := hd n hn m hm hne
  rw [h, Vec.eq_refl h0] at this
  cases this

theorem SideAt.ends {rc : Vec F → R} {sqrt : F → F} {g : Grid F R} (G : Good rc g) (h0 : sqrt 0 = 0) (hd : Distinct sqrt g) {f e m n : Nat} (hf : f ∈ g.faces)
    (hm : m ∈ g.nodes) (hn : n ∈ g.nodes) (h : SideAt g f e (g.nP m, g.nP n)) : ∀ x, x ∈ g.eNodes e ↔ x = m ∨ x = n := by
  obtain ⟨he, a, b, hab, h1, h2⟩ := h
  have heg := (G.mesh.face_edges f hf).2.2 e he
  obtain rfl := nP_inj h0 hd ((G.mesh.edge_nodes e heg).2.2 a ((hab a).2 (Or.inl rfl))) hm h1
  obtain rfl := nP_inj h0 hd ((G.mesh.edge_nodes e heg).2.2 b ((hab b).2 (Or.inr rfl))) hn h2
  exact hab

theorem side_eq {rc : Vec F → R} {sqrt : F → F} {g : Grid F R} (G : Good rc g) (h0 : sqrt 0 = 0) (hd : Distinct sqrt g) {f e e' a b c : Nat} (hf : f ∈ g.faces)
    (hn : g.fNodes f = [a, b, c]) {s s' : Nat × Nat} (hs : s ∈ [(a, b), (b, c), (c, a)]) (hs' : s' ∈ [(a, b), (b, c), (c, a)])
    (h : SideAt g f e (g.nP s.1, g.nP s.2)) (h' : SideAt g f e' (g.nP s'.1, g.nP s'.2)) :
    ((g.nP s.1).eq sqrt (g.nP s'.1) && (g.nP s.2).eq sqrt (g.nP s'.2)) = decide (e = e') := by
  obtain ⟨-, nd, hm⟩ := G.mesh.face_nodes f hf
  rw [hn] at nd hm
  have ha := hm a (by simp)
  have hb := hm b (by simp)
  have hc := hm c (by simp)
  simp at nd
  have m1 : ∀ s ∈ [(a, b), (b, c), (c, a)], s.1 ∈ g.nodes ∧ s.2 ∈ g.nodes := by simp [ha, hb, hc]
  have e1 := h.ends G h0 hd hf (m1 s hs).1 (m1 s hs).2
  have e2 := h'.ends G h0 hd hf (m1 s' hs').1 (m1 s' hs').2
  rw [nodeEq_iff h0 hd (m1 s hs).1 (m1 s' hs').1, nodeEq_iff h0 hd (m1 s hs).2 (m1 s' hs').2, ← Bool.decide_and, decide_eq_decide]
  have hx := (G.mesh.face_edges f hf).2.2 e h.1
  have hx' := (G.mesh.face_edges f hf).2.2 e' h'.1
  constructor
  · rintro ⟨i, j⟩
    refine G.mesh.edge_unique e hx e' hx' fun x => ?_
    rw [e1, e2, i, j]
  · rintro rfl
    have w : ∀ x, (x = s.1 ∨ x = s.2) ↔ (x = s'.1 ∨ x = s'.2) := fun x => (e1 x).symm.trans (e2 x)
    have ua := w a
    have ub := w b
    have uc := w c
    simp only [List.mem_cons, List.not_mem_nil, or_false] at hs hs'
    obtain ⟨⟨n1, n2⟩, n3⟩ := nd
    rcases hs with rfl | rfl | rfl <;> rcases hs' with rfl | rfl | rfl <;>
      simp only [n1, n2, n3, Ne.symm n1, Ne.symm n2, Ne.symm n3, true_or, or_true, or_self, and_self, iff_true, true_iff, iff_false] at ua ub uc ⊢

/-- Every point found for a face belongs to one side. -/
theorem sideAt_exists {rc : Vec F → R} {sqrt : F → F} {g : Grid F R} (G : Good rc g) {f : Nat} {t : Tri F} (hf : f ∈ g.faces) (ht : g.triangle f = .ok t) (p : Vec F) :
    ∃ e, SideAt g f e (Refine.sideOf sqrt t p) := by
  obtain ⟨a, b, c, hn⟩ := List.length_eq_three.1 (G.mesh.face_nodes f hf).1
  obtain ⟨s, hs, he⟩ := sideOf_mem (sqrt := sqrt) hn ht p
  obtain ⟨-, nd, hm⟩ := G.mesh.face_nodes f hf
  rw [hn] at nd hm
  simp at nd
  obtain ⟨⟨n1, n2⟩, n3⟩ := nd
  have : s.1 ∈ g.fNodes f ∧ s.2 ∈ g.fNodes f ∧ s.1 ≠ s.2 := by
    simp only [List.mem_cons, List.not_mem_nil, or_false] at hs
    rw [hn]
    rcases hs with rfl | rfl | rfl <;> simp [n1, n2, n3, Ne.symm n2]
  obtain ⟨e, h1, h2, h3⟩ := G.mesh.sides f hf s.1 this.1 s.2 this.2.1 this.2.2
  have heg := (G.mesh.face_edges f hf).2.2 e h1
  obtain ⟨x, y, hxy⟩ := eNodes_pair G.mesh heg
  refine ⟨e, h1, s.1, s.2, fun z => ?_, by rw [he], by rw [he]⟩
  rw [hxy] at h2 h3 ⊢
  have ne := this.2.2
  simp only [List.mem_cons, List.not_mem_nil, or_false] at h2 h3 ⊢
  rcases h2 with h2 | h2 <;> rcases h3 with h3 | h3
  · exact absurd (h2.trans h3.symm) ne
  · rw [h2, h3]
  · rw [h2, h3]; exact or_comm
  · exact absurd (h2.trans h3.symm) ne

theorem place_le (sqrt round10 : F → F) (t : Tri F) (p : Vec F) : t.pointInTriangle sqrt round10 p ≤ 3 := by
  unfold Tri.pointInTriangle
  have k : ∀ a : F, Tri.flag a ≤ 1 := fun a => by unfold Tri.flag; split <;> omega
  simp only
  split
  · have := k (round10 (Tri.area sqrt ⟨0, t.a, t.b, p, none⟩))
    have := k (round10 (Tri.area sqrt ⟨0, t.a, p, t.c, none⟩))
    have := k (round10 (Tri.area sqrt ⟨0, p, t.b, t.c, none⟩))
    omega
  · omega

/-- There is always an answer to the question what the points ask for. -/
theorem asks_exists {rc : Vec F → R} (sqrt round10 : F → F) {g : Grid F R} (G : Good rc g) {f : Nat} {t : Tri F} (hf : f ∈ g.faces) (ht : g.triangle f = .ok t)
    (pts : List (Vec F)) : ∃ a, Asks sqrt round10 g f t pts a := by
  unfold Asks
  obtain ⟨l, hl⟩ : ∃ l, l = pts.filter (fun p => decide (t.pointInTriangle sqrt round10 p ≠ 0 ∧ t.pointInTriangle sqrt round10 p ≠ 1)) := ⟨_, rfl⟩
  have h2 : ∀ p ∈ l, t.pointInTriangle sqrt round10 p = 2 ∨ t.pointInTriangle sqrt round10 p = 3 := by
    intro p hp
    rw [hl, List.mem_filter] at hp
    have := place_le sqrt round10 t p
    have := hp.2
    simp only [decide_eq_true_eq] at this
    omega
  simp only [← hl]
  match l, h2 with
  | [], _ => exact ⟨.keep, Or.inl rfl⟩
  | [p], h2 =>
    rcases h2 p (by simp) with h | h
    · obtain ⟨e, he⟩ := sideAt_exists (sqrt := sqrt) G hf ht p
      exact ⟨.side e p, rfl, h, he⟩
    · exact ⟨.inside p, rfl, h⟩
  | [p, q], h2 =>
    rcases h2 p (by simp) with h | h
    · rcases h2 q (by simp) with h' | h'
      · obtain ⟨e, he⟩ := sideAt_exists (sqrt := sqrt) G hf ht p
        obtain ⟨e', he'⟩ := sideAt_exists (sqrt := sqrt) G hf ht q
        by_cases hee : e = e'
        · subst hee; exact ⟨.side2 e p q, rfl, h, h', he, he'⟩
        · exact ⟨.keep, Or.inr (Or.inr ⟨p, q, rfl, Or.inr (Or.inr ⟨e, e', hee, he, he'⟩)⟩)⟩
      · exact ⟨.keep, Or.inr (Or.inr ⟨p, q, rfl, Or.inr (Or.inl h')⟩)⟩
    · exact ⟨.keep, Or.inr (Or.inr ⟨p, q, rfl, Or.inl h⟩)⟩
  | p :: q :: r :: l, _ => exact ⟨.keep, Or.inr (Or.inl (by simp))⟩

theorem jobs_exist {rc : Vec F → R} (sqrt round10 : F → F) {g : Grid F R} (G : Good rc g) (l : List (Tri F × List (Vec F)))
    (hl : ∀ x ∈ l, ∃ f ∈ g.faces, g.triangle f = .ok x.1) : ∃ jobs, Jobs sqrt round10 g l jobs := by
  induction l with
  | nil => exact ⟨[], List.Forall₂.nil⟩
  | cons x l ih =>
    obtain ⟨jobs, hj⟩ := ih (fun y hy => hl y (List.mem_cons_of_mem _ hy))
    obtain ⟨f, hf, ht⟩ := hl x List.mem_cons_self
    obtain ⟨a, ha⟩ := asks_exists sqrt round10 G hf ht x.2
    exact ⟨(f, a) :: jobs, List.Forall₂.cons ⟨hf, ht, ha⟩ hj⟩

/-- The operation is the one of the job. -/
def Does (j : Nat × Change F) (o : Op F) : Prop :=
  match j.2 with
  | .keep => False
  | .inside p => o = .divide j.1 p
  | .side e p => o = .cut e p ∨ o = .cutSingle e p
  | .side2 e p q => o = .cutTwo e p q

/-- One operation of the job, or none, was carried out. -/
def OneStep [DecidableEq R] (rc : Vec F → R) (j : Nat × Change F) (g g' : Grid F R) : Prop :=
  g' = g ∨ ∃ o : Op F, Does j o ∧ ∀ mid dist gt, o.Applicable rc mid dist gt g ∧ o.run rc mid dist gt g = .ok g' 

theorem oneZone {g : Grid F R} (zo : ZonesOk g) {z : Nat} (hz : g.zones = [z]) {f : Nat} (hf : f ∈ g.faces) : g.fZone f = some z := by
  obtain ⟨z', h1, -, h2⟩ := zone_of zo hf
  rw [hz, List.mem_singleton] at h1
  rw [h2, h1]

variable [DecidableEq R]

/-- A job which asks for nothing. -/
theorem refineFace_keep {rc : Vec F → R} {sqrt round10 : F → F} {g : Grid F R} {f : Nat} {x : Tri F × List (Vec F)}
    (G : Good rc g) (h0 : sqrt 0 = 0) (hd : Distinct sqrt g) (hf : f ∈ g.faces) (ht : g.triangle f = .ok x.1) (ha : Asks sqrt round10 g f x.1 x.2 .keep) :
    Refine.refineFace rc sqrt round10 g x = .ok g := by
  obtain ⟨t, pts⟩ := x
  simp only at ht ha
  obtain ⟨a, b, c, hn⟩ := List.length_eq_three.1 (G.mesh.face_nodes f hf).1
  have hback : t.back = some f := by
    have := triangle_eq hn
    rw [ht] at this
    rw [Except.ok.inj this]
  have hrun : Refine.refineFace rc sqrt round10 g (t, pts) = Refine.rebuild rc sqrt g t f (Refine.rebuilding sqrt round10 t pts) := by
    unfold Refine.refineFace; simp only [hback]
  rw [hrun, rebuilding_eq]
  unfold Asks at ha
  simp only at ha
  rcases ha with ha | ha | ⟨p, q, ha, hh⟩
  · rw [ha]; rfl
  · match hm : pts.filter (fun p => decide (t.pointInTriangle sqrt round10 p ≠ 0 ∧ t.pointInTriangle sqrt round10 p ≠ 1)), ha with
    | _ :: _ :: _ :: _, _ => rfl
  · rw [ha]
    simp only [List.map_cons, List.map_nil, Refine.rebuild]
    split
    · rename_i h2
      rcases hh with hh | hh | ⟨e, e', hne, he, he'⟩
      · omega
      · omega
      · unfold Refine.cutSide2
        obtain ⟨s, hs, hse⟩ := sideOf_mem (sqrt := sqrt) hn ht p
        obtain ⟨s', hs', hse'⟩ := sideOf_mem (sqrt := sqrt) hn ht q
        rw [hse] at he; rw [hse'] at he'
        rw [hse, hse']
        simp only [side_eq G h0 hd hf hn hs hs' he he', hne, decide_false, Bool.false_eq_true, if_false]
    · rfl

/-- One pass of the loop. -/
theorem refine_step {rc : Vec F → R} {sqrt round10 : F → F} {g0 g : Grid F R} {pre post : List (Nat × Change F)} {j : Nat × Change F} {x : Tri F × List (Vec F)}
    (G : Good rc g0) (h0 : sqrt 0 = 0) (hd : Distinct sqrt g0) (hap : Separated rc g0 (pre ++ j :: post)) (I : Inv rc g0 g pre)
    (hj : j.1 ∈ g0.faces ∧ g0.triangle j.1 = .ok x.1 ∧ Asks sqrt round10 g0 j.1 x.1 x.2 j.2) :
    (TooLate g0 pre j ∧ (Refine.refineFace rc sqrt round10 g x = .error .index ∨ Refine.refineFace rc sqrt round10 g x = .error .value)) ∨
    (¬ TooLate g0 pre j ∧ ∃ g', Refine.refineFace rc sqrt round10 g x = .ok g' ∧ Inv rc g0 g' (pre ++ [j]) ∧ OneStep rc j g g') := by
  obtain ⟨f, act⟩ := j
  obtain ⟨t, pts⟩ := x
  obtain ⟨hf, ht, ha⟩ := hj
  simp only at hf ht ha
  obtain ⟨a, b, c, hn⟩ := List.length_eq_three.1 (G.mesh.face_nodes f hf).1
  have hback : t.back = some f := by
    have := triangle_eq hn
    rw [ht] at this
    rw [Except.ok.inj this]
  have hrun : Refine.refineFace rc sqrt round10 g (t, pts) = Refine.rebuild rc sqrt g t f (Refine.rebuilding sqrt round10 t pts) := by
    unfold Refine.refineFace; simp only [hback]
  rw [hrun, rebuilding_eq]
  have hnp : ∀ n ∈ g0.nodes, g.nP n = g0.nP n := fun n hn => (I.nodes n hn).2
  have hsub : ∀ x ∈ g.fEdges f, x ∈ g0.fEdges f := fun x hx => (I.sub f hf).subset hx
  -- the face was not divided before
  have hin : ∀ p, (f, Change.inside p) ∉ pre := by
    intro p hp
    have := hap.faces
    rw [List.map_append, List.map_cons, List.nodup_append] at this
    exact this.2.2 f (List.mem_map.2 ⟨_, hp, rfl⟩) f (by simp) rfl
  -- points are new as long as the edge was not cut before
  have hnew : (∀ e, act.Cuts e → ∀ i ∈ pre, ¬ i.2.Cuts e) → ∀ p ∈ act.points, NewPlace rc g p := by
    intro hc p hp n hnn heq
    by_cases hn0 : n ∈ g0.nodes
    · rw [hnp n hn0] at heq
      exact hap.new (f, act) (by simp) p hp n hn0 heq
    · obtain ⟨pre', i, post', rfl, -, hq⟩ := I.new n hnn hn0
      have hi : i ∈ pre' ++ i :: post' := by simp
      refine hap.points i (List.mem_append_left _ hi) (f, act) (by simp) ?_ ?_ _ hq p hp heq
      · rintro rfl
        have := hap.faces
        rw [List.map_append, List.map_cons, List.nodup_append] at this
        exact this.2.2 f (List.mem_map.2 ⟨_, hi, rfl⟩) f (by simp) rfl
      · rintro e ⟨h1, h2⟩
        exact hc e h2 i hi h1
  -- the found edge
  classical
  have hfind : ∀ {e p}, SideAt g0 f e (Refine.sideOf sqrt t p) →
      Refine.findSide sqrt g f (Refine.sideOf sqrt t p) = if FirstCut g0 pre f e then .error .index else .ok e := by
    intro e p hs
    rw [findSide_eq G h0 hd hf hsub hnp I.eNodes hs]
    have := I.fEdges f hf hin e hs.1
    by_cases hfc : FirstCut g0 pre f e
    · rw [if_pos hfc, if_neg (fun h => this.1 h hfc)]
    · rw [if_neg hfc, if_pos (this.2 hfc)]
  cases act with
  | keep =>
    refine Or.inr ⟨fun h => h, g, ?_, I.idle (Or.inl rfl), Or.inl rfl⟩
    unfold Asks at ha
    simp only at ha
    rcases ha with ha | ha | ⟨p, q, ha, hh⟩
    · rw [ha]; rfl
    · match hm : pts.filter (fun p => decide (t.pointInTriangle sqrt round10 p ≠ 0 ∧ t.pointInTriangle sqrt round10 p ≠ 1)), ha with
      | _ :: _ :: _ :: _, _ => rfl
    · rw [ha]
      simp only [List.map_cons, List.map_nil, Refine.rebuild]
      split
      · rename_i h2
        rcases hh with hh | hh | ⟨e, e', hne, he, he'⟩
        · omega
        · omega
        · unfold Refine.cutSide2
          obtain ⟨s, hs, hse⟩ := sideOf_mem (sqrt := sqrt) hn ht p
          obtain ⟨s', hs', hse'⟩ := sideOf_mem (sqrt := sqrt) hn ht q
          rw [hse] at he; rw [hse'] at he'
          rw [hse, hse']
          simp only [side_eq G h0 hd hf hn hs hs' he he', hne, decide_false, Bool.false_eq_true, if_false]
      · rfl
  | inside p =>
    unfold Asks at ha
    simp only at ha
    rw [ha.1]
    simp only [List.map_cons, List.map_nil, Refine.rebuild, ha.2, show ¬ (3 = 2) by omega, if_false]
    by_cases hl : f ∈ g.faces
    · have hp : NewPlace rc g p := hnew (fun e h => h.elim) p (by simp [Change.points])
      obtain ⟨g', hr, -⟩ := step_ok (fun a _ => a) (fun _ _ => (0 : F)) (fun _ _ => true) I.good (.divide f p) ⟨hl, hp⟩
      refine Or.inr ⟨?_, g', hr, I.divide G hl hp rfl hr, Or.inr ⟨.divide f p, rfl, fun _ _ _ => ⟨⟨hl, hp⟩, hr⟩⟩⟩
      rintro ⟨e, he⟩
      obtain ⟨i, hi, hc⟩ := he.cut
      exact ((I.faces f hf).1 hl).2 i hi e he.1 hc
    · refine Or.inl ⟨?_, Or.inr ?_⟩
      · refine firstCut_exists pre ?_
        by_contra hh
        exact hl ((I.faces f hf).2 ⟨hin, fun i hi y hy c => hh ⟨i, hi, y, hy, c⟩⟩)
      · obtain ⟨z, hz, -, hfz⟩ := zone_of G.zones hf
        have hzn : f ∉ g.zFaces z := by
          intro hm
          refine hl (I.good.zones.partition.mem_iff.1 (List.mem_flatMap.2 ⟨z, ?_, hm⟩))
          rw [I.zones]; exact hz
        have hfz' := (I.fZone f hf).trans hfz
        unfold Grid.divideFace Grid.someZone
        simp only [hfz', res_bind_ok]
        have : g.delFace f = .error .value := by
          unfold Grid.delFace
          simp only [hfz']
          have hre : Py.remove (g.zFaces z) f = .error .value := by
            unfold Py.remove; rw [if_neg (by simpa using hzn)]
          rw [hre]; rfl
        rw [this]; rfl
  | side e p =>
    unfold Asks at ha
    simp only at ha
    rw [ha.1]
    simp only [List.map_cons, List.map_nil, Refine.rebuild, ha.2.1, if_true]
    have hs := ha.2.2
    unfold Refine.cutSide
    rw [hfind hs]
    have heg := (G.mesh.face_edges f hf).2.2 e hs.1
    by_cases hfc : FirstCut g0 pre f e
    · rw [if_pos hfc]
      exact Or.inl ⟨hfc, Or.inl rfl⟩
    · rw [if_neg hfc, res_bind_ok]
      refine Or.inr ⟨hfc, ?_⟩
      by_cases hc : ∃ i ∈ pre, i.2.Cuts e
      · obtain ⟨i, hi, hic⟩ := hc
        have hde := I.dead e heg i hi hic
        refine ⟨g, ?_, I.idle (Or.inr ⟨e, rfl, i, hi, hic⟩), Or.inl rfl⟩
        rw [hde]
        simp only [List.length_nil, show ¬ (0 = 2) by omega, if_false]
        unfold cutSingleEdge
        rw [hde]; rfl
      · have hc' : ∀ i ∈ pre, ¬ i.2.Cuts e := fun i hi h => hc ⟨i, hi, h⟩
        have hp : NewPlace rc g p := hnew (fun e' h => by rw [← show e = e' from h]; exact hc') p (by simp [Change.points])
        have heg' := (I.edges e heg).2 hc'
        obtain ⟨g', C, hr⟩ := cut_done I.good heg' hp
        refine ⟨g', ?_, I.cut (k := (f, .side e p)) G heg rfl hc' C, Or.inr ?_⟩
        · rcases hr with ⟨hl, hr⟩ | ⟨hl, hr⟩
          · rw [if_pos hl, hr]; rfl
          · rw [if_neg (by omega), hr]; rfl
        · rcases hr with ⟨hl, hr⟩ | ⟨hl, hr⟩
          · refine ⟨.cut e p, Or.inl rfl, fun _ _ _ => ⟨⟨heg', hp⟩, ?_⟩⟩
            show (fun r : Grid F R × Bool => r.1) <$> g.cutEdge rc e p = .ok g'
            rw [hr]; rfl
          · refine ⟨.cutSingle e p, Or.inr rfl, fun _ _ _ => ⟨⟨heg', hp⟩, ?_⟩⟩
            show (fun r : Grid F R × Bool => r.1) <$> g.cutSingleEdge rc e p = .ok g'
            rw [hr]; rfl
  | side2 e p q =>
    unfold Asks at ha
    simp only at ha
    obtain ⟨hfo, hp2, hq2, hs, hs'⟩ := ha
    rw [hfo]
    simp only [List.map_cons, List.map_nil, Refine.rebuild, hp2, hq2, if_true, and_self]
    unfold Refine.cutSide2
    have hcond : ((Refine.sideOf sqrt t p).1.eq sqrt (Refine.sideOf sqrt t q).1 && (Refine.sideOf sqrt t p).2.eq sqrt (Refine.sideOf sqrt t q).2) = true := by
      obtain ⟨s, hsm, hse⟩ := sideOf_mem (sqrt := sqrt) hn ht p
      obtain ⟨s', hsm', hse'⟩ := sideOf_mem (sqrt := sqrt) hn ht q
      rw [hse] at hs; rw [hse'] at hs'
      rw [hse, hse', side_eq G h0 hd hf hn hsm hsm' hs hs']; simp
    rw [if_pos hcond, hfind hs]
    have heg := (G.mesh.face_edges f hf).2.2 e hs.1
    by_cases hfc : FirstCut g0 pre f e
    · rw [if_pos hfc]
      exact Or.inl ⟨hfc, Or.inl rfl⟩
    · rw [if_neg hfc, res_bind_ok]
      refine Or.inr ⟨hfc, ?_⟩
      by_cases hc : ∃ i ∈ pre, i.2.Cuts e
      · obtain ⟨i, hi, hic⟩ := hc
        have hde := I.dead e heg i hi hic
        refine ⟨g, ?_, I.idle (Or.inr ⟨e, rfl, i, hi, hic⟩), Or.inl rfl⟩
        unfold cutEdgeTwoNodes
        rw [hde]; rfl
      · have hc' : ∀ i ∈ pre, ¬ i.2.Cuts e := fun i hi h => hc ⟨i, hi, h⟩
        have hp := hnew (fun e' h => by rw [← show e = e' from h]; exact hc')
        have heg' := (I.edges e heg).2 hc'
        have hpp : NewPlace rc g p := hp p (by simp [Change.points])
        have hqq : NewPlace rc g q := hp q (by simp [Change.points])
        have hpq : rc q ≠ rc p := hap.two (f, .side2 e p q) (by simp) e p q rfl
        obtain ⟨g', C, hr⟩ := cut2_done I.good heg' hpp hqq hpq
        refine ⟨g', ?_, I.cut (k := (f, .side2 e p q)) G heg rfl hc' C, Or.inr ⟨.cutTwo e p q, rfl, fun _ _ _ => ⟨⟨heg', hpp, hqq, hpq⟩, ?_⟩⟩⟩
        · rw [hr]; rfl
        · show (fun r : Grid F R × Bool => r.1) <$> g.cutEdgeTwoNodes rc e p q = .ok g'
          rw [hr]; rfl

/-- The faces of an old edge have the zones of its old faces. -/
def Sides (g g' : Grid F R) : Prop := ∀ x ∈ g.edges, x ∈ g'.edges → ∀ k ∈ g'.eFaces x, ∃ f ∈ g.eFaces x, g'.fZone k = g.fZone f

omit [DecidableEq R] in
theorem outcome_sides {P : Patch} {rc : Vec F → R} {z : Nat} {g g' : Grid F R} (G : Good rc g) (o : Outcome P rc z g g') (hz : ∀ f ∈ P.df, g.fZone f = some z) :
    Sides g g' := by
  intro x hx hx' k hk
  have hxd : x ∉ P.de := fun h => o.keeps.gone.2 x h hx'
  have old : k ∈ g.faces → k ∉ P.df → k ∈ g.eFaces x → ∃ f ∈ g.eFaces x, g'.fZone k = g.fZone f := fun h1 h2 h3 => ⟨k, h3, (o.keeps.faces k h1 h2).2.2.2.2.1⟩
  by_cases hd : ∃ f ∈ P.df, f ∈ g.eFaces x
  · obtain ⟨f, hf, hfx⟩ := hd
    obtain ⟨h1, h2⟩ := (o.good.mesh.edge_face x hx' k).1 hk
    rcases (o.swaps.faces k).1 h1 with ⟨h3, h4⟩ | h3
    · refine old h3 h4 ((G.mesh.edge_face x hx k).2 ⟨h3, ?_⟩)
      rw [← (o.keeps.faces k h3 h4).2.2.1]; exact h2
    · exact ⟨f, hfx, by rw [o.zone k h3, hz f hf]⟩
  · have hd' : ∀ f ∈ P.df, f ∉ g.eFaces x := fun f hf h => hd ⟨f, hf, h⟩
    rw [o.keeps.edge_links x hx hxd hd'] at hk
    exact old ((G.mesh.edge_face x hx k).1 hk).1 (fun h => hd' k h hk) hk

omit [DecidableEq R] in
theorem Sides.refl (g : Grid F R) : Sides g g := fun _ _ _ k hk => ⟨k, hk, rfl⟩

/-- The operation of a job within a zone. -/
theorem does_sides {rc : Vec F → R} (mid : Vec F → Vec F → Vec F) (dist : Vec F → Vec F → F) (gt : F → F → Bool) {g g' : Grid F R} (G : Good rc g)
    {j : Nat × Change F} {o : Op F} (hd : Does j o) (ha : o.Applicable rc mid dist gt g) (hi : o.InZone dist gt g) (h : o.run rc mid dist gt g = .ok g') :
    Sides g g' := by
  have run : ∀ {r : Res (Grid F R × Bool)} {g2 : Grid F R} {b : Bool}, r = .ok (g2, b) →
      ((fun r => r.1) <$> r : Res (Grid F R)) = .ok g' → g2 = g' := by
    rintro _ _ _ rfl h
    exact Except.ok.inj h
  cases o with
  | divide f p =>
    obtain ⟨hf, hp⟩ := ha
    obtain ⟨a, b, c, hn⟩ := List.length_eq_three.1 (G.mesh.face_nodes f hf).1
    obtain ⟨z, _, _, hz⟩ := zone_of G.zones hf
    obtain ⟨P, g2, h1, h2, h3, h4, h5, hr, o, -⟩ := divideFace_outcome G hf hn hz hp
    obtain rfl : g2 = g' := Except.ok.inj (hr.symm.trans h)
    exact outcome_sides G o (by rw [h1]; simpa using hz)
  | cut e p =>
    obtain ⟨he, hp⟩ := ha
    obtain ⟨z, hz⟩ := hi
    obtain ⟨a, b, hn⟩ := eNodes_pair G.mesh he
    by_cases hl : (g.eFaces e).length = 2
    · obtain ⟨f, k, hf⟩ := List.length_eq_two.1 hl
      obtain ⟨P, g2, c, c', h1, h2, h3, h4, h5, hr, o, -⟩ := cutInner_outcome G he hf hn (hz f (by simp [hf])) hp
      obtain rfl := run (b := true) (r := g.cutEdge rc e p) (by unfold cutEdge; rw [if_pos hl, hr]; rfl) h
      exact outcome_sides G o (by rw [h1]; intro x hx; exact hz x (by rw [hf]; exact hx))
    · obtain rfl := run (b := false) (r := g.cutEdge rc e p) (by unfold cutEdge; rw [if_neg hl]) h
      exact Sides.refl _
  | cutSingle e p =>
    obtain ⟨he, hp⟩ := ha
    obtain ⟨a, b, hn⟩ := eNodes_pair G.mesh he
    by_cases hl : (g.eFaces e).length = 1
    · obtain ⟨f, hf⟩ := List.length_eq_one_iff.1 hl
      have hff := ((G.mesh.edge_face e he f).1 (by simp [hf])).1
      obtain ⟨z, _, _, hz⟩ := zone_of G.zones hff
      obtain ⟨P, g2, c, h1, h2, h3, h4, h5, hr, o, -⟩ := cutBorder_outcome G he hf hn hz hp
      obtain rfl := run (b := true) (r := g.cutSingleEdge rc e p) (by unfold cutSingleEdge; rw [if_pos hl, hr]; rfl) h
      exact outcome_sides G o (by rw [h1]; simpa using hz)
    · obtain rfl := run (b := false) (r := g.cutSingleEdge rc e p) (by unfold cutSingleEdge; rw [if_neg hl]) h
      exact Sides.refl _
  | cutTwo e p1 p2 =>
    obtain ⟨he, hp1, hp2, hpp⟩ := ha
    obtain ⟨z, hz⟩ := hi
    obtain ⟨a, b, hn⟩ := eNodes_pair G.mesh he
    rcases (G.mesh.edge_faces e he).1 with hl | hl
    · obtain ⟨f, hf⟩ := List.length_eq_one_iff.1 hl
      obtain ⟨P, g2, c, h1, h2, h3, h4, h5, hr, o, -⟩ := cutBorder2_outcome G he hf hn (hz f (by simp [hf])) hp1 hp2 hpp
      obtain rfl := run (b := true) (r := g.cutEdgeTwoNodes rc e p1 p2) (by unfold cutEdgeTwoNodes; rw [if_pos hl, hr]; rfl) h
      exact outcome_sides G o (by rw [h1]; intro x hx; exact hz x (by rw [hf]; exact hx))
    · obtain ⟨f, k, hf⟩ := List.length_eq_two.1 hl
      obtain ⟨P, g2, c, c', h1, h2, h3, h4, h5, hr, o, -⟩ := cutInner2_outcome G he hf hn (hz f (by simp [hf])) hp1 hp2 hpp
      obtain rfl := run (b := true) (r := g.cutEdgeTwoNodes rc e p1 p2)
        (by unfold cutEdgeTwoNodes; rw [if_neg (by omega), if_pos hl, hr]; rfl) h
      exact outcome_sides G o (by rw [h1]; intro x hx; exact hz x (by rw [hf]; exact hx))
  | collapse f => obtain ⟨i, c⟩ := j; cases c <;> simp [Does] at hd
  | shrink e => obtain ⟨i, c⟩ := j; cases c <;> simp [Does] at hd

omit [DecidableEq R] in
theorem does_inZone (dist : Vec F → Vec F → F) (gt : F → F → Bool) {g : Grid F R} {j : Nat × Change F} {o : Op F} (hd : Does j o)
    (h : ∀ e, j.2.Cuts e → ∃ z, ∀ f ∈ g.eFaces e, g.fZone f = some z) : o.InZone dist gt g := by
  obtain ⟨i, c⟩ := j
  cases c with
  | keep => exact hd.elim
  | inside p => obtain rfl : o = .divide i p := hd; trivial
  | side e p =>
    rcases (show o = .cut e p ∨ o = .cutSingle e p from hd) with rfl | rfl
    · exact h e rfl
    · trivial
  | side2 e p q => obtain rfl : o = .cutTwo e p q := hd; exact h e rfl

omit [DecidableEq R] in
theorem cuts_edge {rc : Vec F → R} {sqrt round10 : F → F} {g : Grid F R} (G : Good rc g) {j : Nat × Change F} {x : Tri F × List (Vec F)} {e : Nat}
    (hj : j.1 ∈ g.faces ∧ g.triangle j.1 = .ok x.1 ∧ Asks sqrt round10 g j.1 x.1 x.2 j.2) (he : j.2.Cuts e) : e ∈ g.edges := by
  obtain ⟨i, c⟩ := j
  obtain ⟨h1, -, h2⟩ := hj
  cases c with
  | keep => cases he
  | inside p => cases he
  | side e' p => obtain rfl : e' = e := he
                 exact (G.mesh.face_edges i h1).2.2 _ h2.2.2.1
  | side2 e' p q => obtain rfl : e' = e := he
                    exact (G.mesh.face_edges i h1).2.2 _ h2.2.2.2.1.1

omit [DecidableEq R] in
/-- An edge which was within one zone still is. -/
theorem cut_oneZone {rc : Vec F → R} {sqrt round10 : F → F} {g0 g : Grid F R} {pre : List (Nat × Change F)} {j : Nat × Change F} {x : Tri F × List (Vec F)}
    (G : Good rc g0) (I : Inv rc g0 g pre) (hx : j.1 ∈ g0.faces ∧ g0.triangle j.1 = .ok x.1 ∧ Asks sqrt round10 g0 j.1 x.1 x.2 j.2) (hs : Sides g0 g)
    (hw : ∀ e, j.2.Cuts e → ∃ z, ∀ f ∈ g0.eFaces e, g0.fZone f = some z) :
    ∀ e, j.2.Cuts e → ∃ z, ∀ f ∈ g.eFaces e, g.fZone f = some z := by
  intro e he
  have he0 := cuts_edge G hx he
  obtain ⟨z, hz⟩ := hw e he
  refine ⟨z, fun k hk => ?_⟩
  by_cases heg : e ∈ g.edges
  · obtain ⟨f, hf, h⟩ := hs e he0 heg k hk
    rw [h, hz f hf]
  · rw [I.edges e he0] at heg
    push Not at heg
    obtain ⟨i, hi, hc⟩ := heg
    rw [I.dead e he0 i hi hc] at hk
    cases hk

omit [DecidableEq R] in
theorem sides_step {rc : Vec F → R} {g0 g g' : Grid F R} {pre : List (Nat × Change F)} {j : Nat × Change F} (I : Inv rc g0 g pre) (I' : Inv rc g0 g' (pre ++ [j]))
    (hs : Sides g0 g) (hs' : Sides g g') : Sides g0 g' := by
  intro x hx0 hx' k hk
  have hxg : x ∈ g.edges := by
    rw [I.edges x hx0]
    intro i hi
    exact (I'.edges x hx0).1 hx' i (List.mem_append_left _ hi)
  obtain ⟨f, hf, e1⟩ := hs' x hxg hx' k hk
  obtain ⟨f', hf', e2⟩ := hs x hx0 hxg f hf
  exact ⟨f', hf', e1.trans e2⟩

/-- Some operations were carried out. -/
def ManySteps (rc : Vec F → R) (g g' : Grid F R) (jobs : List (Nat × Change F)) : Prop :=
  (∀ mid dist gt, Steps rc mid dist gt g g' ∧ (WithinZones g jobs → ZoneSteps rc mid dist gt g g')) ∧ (WithinZones g jobs → Sides g g')

theorem refine_loop {rc : Vec F → R} {sqrt round10 : F → F} {g0 : Grid F R} {jobs : List (Nat × Change F)}
    (G : Good rc g0) (h0 : sqrt 0 = 0) (hd : Distinct sqrt g0) (hap : Separated rc g0 jobs) :
    ∀ (l : List (Tri F × List (Vec F))) (pre rest : List (Nat × Change F)) (g : Grid F R), jobs = pre ++ rest → Jobs sqrt round10 g0 l rest → Inv rc g0 g pre →
      ManySteps rc g0 g jobs →
      ((∃ a j b, rest = a ++ j :: b ∧ TooLate g0 (pre ++ a) j) ∧
        (Refine.refine rc sqrt round10 g l = .error .index ∨ Refine.refine rc sqrt round10 g l = .error .value)) ∨
      ((¬ ∃ a j b, rest = a ++ j :: b ∧ TooLate g0 (pre ++ a) j) ∧
        ∃ g', Refine.refine rc sqrt round10 g l = .ok g' ∧ Inv rc g0 g' jobs ∧ ManySteps rc g0 g' jobs) := by
  intro l
  induction l with
  | nil =>
    intro pre rest g hj hl I hm
    cases hl
    refine Or.inr ⟨?_, g, rfl, by rw [hj]; simpa using I, hm⟩
    rintro ⟨a, j, b, h, -⟩
    simp at h
  | cons x l ih =>
    intro pre rest g hj hl I hm
    cases hl with
    | @cons _ j _ rest hx hl =>
    have hfold : Refine.refine rc sqrt round10 g (x :: l) = Refine.refineFace rc sqrt round10 g x >>= fun g' => Refine.refine rc sqrt round10 g' l := rfl
    rcases refine_step G h0 hd (hj ▸ hap) I hx with ⟨hlate, he⟩ | ⟨hok, g', hr, I', hs⟩
    · refine Or.inl ⟨⟨[], j, rest, rfl, by simpa using hlate⟩, ?_⟩
      rw [hfold]
      rcases he with he | he
      · rw [he]; exact Or.inl rfl
      · rw [he]; exact Or.inr rfl
    · have hm' : ManySteps rc g0 g' jobs := by
        rcases hs with rfl | ⟨o, hdo, ho⟩
        · exact hm
        · have hin : ∀ dist gt, WithinZones g0 jobs → o.InZone dist gt g := fun dist gt hw =>
            does_inZone dist gt hdo (cut_oneZone G I hx (hm.2 hw) (hw j (by rw [hj]; simp)))
          refine ⟨fun mid dist gt => ?_, fun hw => ?_⟩
          · obtain ⟨h1, h2⟩ := ho mid dist gt
            exact ⟨.step o (hm.1 mid dist gt).1 h1 h2, fun hw => .step o ((hm.1 mid dist gt).2 hw) h1 (hin dist gt hw) h2⟩
          · obtain ⟨h1, h2⟩ := ho (fun p _ => p) (fun _ _ => 0) (fun _ _ => true)
            exact sides_step I I' (hm.2 hw) (does_sides _ _ _ I.good hdo h1 (hin _ _ hw) h2)
      have hiff : (∃ a i b, j :: rest = a ++ i :: b ∧ TooLate g0 (pre ++ a) i) ↔ ∃ a i b, rest = a ++ i :: b ∧ TooLate g0 (pre ++ [j] ++ a) i := by
        constructor
        · rintro ⟨a, i, b, h, hl⟩
          cases a with
          | nil =>
            obtain ⟨rfl, rfl⟩ : j = i ∧ rest = b := by simpa using h
            exact absurd (by simpa using hl) hok
          | cons a1 a =>
            obtain ⟨rfl, hr⟩ : j = a1 ∧ rest = a ++ i :: b := by simpa using h
            exact ⟨a, i, b, hr, by simpa using hl⟩
        · rintro ⟨a, i, b, h, hl⟩
          exact ⟨j :: a, i, b, by rw [h]; rfl, by simpa using hl⟩
      rw [hiff, hfold, hr]
      exact ih (pre ++ [j]) rest g' (by rw [hj]; simp) hl I' hm'

end Verif
