import Verif.Proofs.Refine5
import Verif.Props.Refine
import Verif.Props.Predicates
import Verif.Props.DropsFile
import Verif.Props.Import

/-! Properties C93 - C96: the program `refine.py`. -/

namespace Verif.Props
open Verif Verif.Spec Grid
variable {F R : Type}

/-! ## C93 Rebuilding of the faces -/

section
variable [Field F] [LinearOrder F] [IsStrictOrderedRing F]

/-- Whatever points were found for faces of the grid, it is defined what has to be done with each of the faces. -/
theorem C93_jobs {rc : Vec F → R} (sqrt round10 : F → F) {g : Grid F R} (G : Good rc g) (l : List (Tri F × List (Vec F)))
    (hl : ∀ x ∈ l, ∃ f ∈ g.faces, g.triangle f = .ok x.1) : ∃ jobs, Jobs sqrt round10 g l jobs := jobs_exist sqrt round10 G l hl

variable [DecidableEq R]

/-- Missing for C93: jobs which come too late, see `C93_shared_edge_violation`. `refine` fails (`IndexError` or `ValueError`) exactly if
some job comes too late, that is after another job has changed the same face. Otherwise the new grid is consistent, has the Euler
characteristic of the old one, and is the old grid with nodes at the points asked for; edges and faces which were not cut or divided
stay. -/
theorem C93_outcome_partial {rc : Vec F → R} {sqrt round10 : F → F} {g : Grid F R} {l : List (Tri F × List (Vec F))} {jobs : List (Nat × Change F)}
    (G : Good rc g) (h0 : sqrt 0 = 0) (hd : Distinct sqrt g) (hj : Jobs sqrt round10 g l jobs) (hs : Separated rc g jobs) :
    ((∃ e, Refine.refine rc sqrt round10 g l = .error e) ↔ ∃ pre j post, jobs = pre ++ j :: post ∧ TooLate g pre j) ∧
    (∀ e, Refine.refine rc sqrt round10 g l = .error e → e = .index ∨ e = .value) ∧
    ∀ g', Refine.refine rc sqrt round10 g l = .ok g' → Good rc g' ∧ Refined g g' jobs ∧ euler g' = euler g ∧
      ∀ mid dist gt, Steps rc mid dist gt g g' ∧ (WithinZones g jobs → ZoneSteps rc mid dist gt g g') := by
  rcases refine_loop (round10 := round10) G h0 hd hs l [] jobs g rfl hj (Inv.start G) ⟨fun mid dist gt => ⟨.refl, fun _ => .refl⟩, fun _ => Sides.refl g⟩ with
    ⟨h1, h2⟩ | ⟨h1, g', h2, h3, h4⟩
  · refine ⟨⟨fun _ => by simpa using h1, fun _ => ?_⟩, fun e he => ?_, fun g' he => ?_⟩
    · rcases h2 with h2 | h2 <;> exact ⟨_, h2⟩
    · rcases h2 with h2 | h2 <;> rw [h2] at he <;> cases he <;> simp
    · rcases h2 with h2 | h2 <;> rw [h2] at he <;> cases he
  · refine ⟨⟨fun ⟨e, he⟩ => (by rw [h2] at he; cases he), fun h => absurd (by simpa using h) h1⟩, fun e he => (by rw [h2] at he; cases he), fun g'' he => ?_⟩
    rw [h2] at he
    obtain rfl := Except.ok.inj he
    exact ⟨h3.good, ⟨h3.nodes, h3.new, h3.placed, h3.edges, h3.faces⟩, C38_sequences _ _ _ G (h4.1 (fun p _ => p) (fun _ _ => 0) (fun _ _ => true)).1, h4.1⟩

/-- When two faces have points on their common edge, and no other side of the second face was cut before, `refine` fails. -/
theorem C93_shared_edge_violation {rc : Vec F → R} {sqrt round10 : F → F} {g : Grid F R} {l : List (Tri F × List (Vec F))}
    {pre mid post : List (Nat × Change F)} {i j : Nat × Change F} {e : Nat}
    (G : Good rc g) (h0 : sqrt 0 = 0) (hd : Distinct sqrt g) (hj : Jobs sqrt round10 g l (pre ++ i :: (mid ++ j :: post)))
    (hs : Separated rc g (pre ++ i :: (mid ++ j :: post))) (hi : i.2.Cuts e) (hc : j.2.Cuts e) (hp : ∀ k ∈ pre, ∀ x ∈ g.fEdges j.1, ¬ k.2.Cuts x) :
    Refine.refine rc sqrt round10 g l = .error .index ∨ Refine.refine rc sqrt round10 g l = .error .value := by
  obtain ⟨h1, h2, -⟩ := C93_outcome_partial G h0 hd hj hs
  have he : e ∈ g.fEdges j.1 := by
    obtain ⟨x, -, -, -, h⟩ := forall₂_rev hj (y := j) (by simp)
    obtain ⟨f, a⟩ := j
    cases a with
    | keep => cases hc
    | inside => cases hc
    | side e' p => obtain rfl : e' = e := hc
                   exact h.2.2.1
    | side2 e' p q => obtain rfl : e' = e := hc
                      exact h.2.2.2.1.1
  have hf : FirstCut g (pre ++ i :: mid) j.1 e := ⟨he, pre, i, mid, rfl, hi, hp⟩
  obtain ⟨x, hx⟩ := h1.2 ⟨pre ++ i :: mid, j, post, by simp, by
    obtain ⟨f, a⟩ := j
    cases a with
    | keep => cases hc
    | inside => cases hc
    | side e' p => obtain rfl : e' = e := hc
                   exact hf
    | side2 e' p q => obtain rfl : e' = e := hc
                      exact hf⟩
  rcases h2 x hx with rfl | rfl
  · exact Or.inl hx
  · exact Or.inr hx

/-- When no face has exactly one point in a side or inside, or exactly two points on one side, `refine` changes nothing. -/
theorem C93_unchanged {rc : Vec F → R} {sqrt round10 : F → F} {g : Grid F R} {l : List (Tri F × List (Vec F))} {jobs : List (Nat × Change F)}
    (G : Good rc g) (h0 : sqrt 0 = 0) (hd : Distinct sqrt g) (hj : Jobs sqrt round10 g l jobs) (hk : ∀ j ∈ jobs, j.2 = .keep) :
    Refine.refine rc sqrt round10 g l = .ok g := by
  induction l generalizing jobs with
  | nil => rfl
  | cons x l ih =>
    cases hj with
    | @cons _ j _ js h1 h2 =>
      show (Refine.refineFace rc sqrt round10 g x >>= fun g => Refine.refine rc sqrt round10 g l) = _
      have : Refine.refineFace rc sqrt round10 g x = .ok g := refineFace_keep G h0 hd h1.1 h1.2.1 (by have := h1.2.2; rwa [hk j (by simp)] at this)
      rw [this, res_bind_ok]
      exact ih h2 (fun j hj => hk j (List.mem_cons_of_mem _ hj))
end

/-! ## C94 The side of a point -/

/-- `point_on_edge_of_triangle` for a point with the weights `k`, `l`, `m` at the height `h` over a triangle. -/
theorem C94_choice {t : Tri ℝ} (hp : Proper t.a t.b t.c) {p : Vec ℝ} {k l m h : ℝ} (H : Place t.a t.b t.c p k l m h) :
    Refine.sideOf Real.sqrt t p = open Classical in if m = 0 ∧ h = 0 then (t.a, t.b) else if k = 0 ∧ h = 0 then (t.b, t.c) else (t.c, t.a) := by
  classical
  have hA := area_pos hp
  obtain ⟨e1, -, e3⟩ := areas H
  have key (w e : ℝ) (he : 0 < e) : Real.sqrt (w ^ 2 + h ^ 2 * e) * t.area Real.sqrt = 0 ↔ w = 0 ∧ h = 0 := by
    have h1 := mul_nonneg (sq_nonneg h) he.le
    have h2 := sq_nonneg w
    rw [mul_eq_zero, or_iff_left hA.ne', Real.sqrt_eq_zero (by positivity)]
    constructor
    · intro h0
      have h3 : w ^ 2 = 0 := by linarith
      have h4 : h ^ 2 * e = 0 := by linarith
      exact ⟨pow_eq_zero_iff (two_ne_zero) |>.1 h3, pow_eq_zero_iff (two_ne_zero) |>.1 ((mul_eq_zero.1 h4).resolve_right he.ne')⟩
    · rintro ⟨rfl, rfl⟩; ring
  have hab : 0 < (t.b.sub t.a).mod2 := lt_of_le_of_ne (mod2_nonneg _) (fun h0 => by
    have : toE (t.b.sub t.a) = 0 := by rw [← norm_eq_zero, ← mod_eq]; unfold Vec.mod; rw [← h0, Real.sqrt_zero]
    have e : t.b = t.a := toE_inj (sub_eq_zero.1 (by rw [← toE_sub]; exact this))
    unfold Proper at hp; rw [e] at hp; simp at hp)
  have hbc : 0 < (t.c.sub t.b).mod2 := lt_of_le_of_ne (mod2_nonneg _) (fun h0 => by
    have : toE (t.c.sub t.b) = 0 := by rw [← norm_eq_zero, ← mod_eq]; unfold Vec.mod; rw [← h0, Real.sqrt_zero]
    have e : t.c = t.b := toE_inj (sub_eq_zero.1 (by rw [← toE_sub]; exact this))
    unfold Proper at hp; rw [e] at hp
    rcases hp with hp | hp | hp <;> exact hp (mul_comm _ _))
  unfold Refine.sideOf
  rw [e1, e3]
  simp only [key _ _ hab, key _ _ hbc]

/-- Missing for C94: points which are not exactly on a side, see `C94_near_violation`. A point of a side is on the side that is chosen. -/
theorem C94_on_side_partial {t : Tri ℝ} (hp : Proper t.a t.b t.c) {p : Vec ℝ} (h : OnSegment t.a t.b p ∨ OnSegment t.b t.c p ∨ OnSegment t.c t.a p) :
    OnSegment (Refine.sideOf Real.sqrt t p).1 (Refine.sideOf Real.sqrt t p).2 p ∧
      Refine.sideOf Real.sqrt t p ∈ [(t.a, t.b), (t.b, t.c), (t.c, t.a)] := by
  have key : ∃ k l m, Weights k l m t.a t.b t.c p ∧ 0 ≤ k ∧ 0 ≤ l ∧ 0 ≤ m ∧ (m = 0 ∨ k = 0 ∨ l = 0) := by
    rcases h with ⟨q, h1, h2, rfl⟩ | ⟨q, h1, h2, rfl⟩ | ⟨q, h1, h2, rfl⟩
    · exact ⟨1 - q, q, 0, ⟨by ring, by ring, by ring, by ring⟩, by linarith, h1, le_rfl, Or.inl rfl⟩
    · exact ⟨0, 1 - q, q, ⟨by ring, by ring, by ring, by ring⟩, le_rfl, by linarith, h1, Or.inr (Or.inl rfl)⟩
    · exact ⟨q, 0, 1 - q, ⟨by ring, by ring, by ring, by ring⟩, h1, le_rfl, by linarith, Or.inr (Or.inr rfl)⟩
  obtain ⟨k, l, m, ⟨w0, wx, wy, wz⟩, hk, hl, hm, hz⟩ := key
  rw [C94_choice hp (k := k) (l := l) (m := m) (h := 0) ⟨w0, by rw [wx]; ring, by rw [wy]; ring, by rw [wz]; ring⟩]
  have pe : p = ⟨p.x, p.y, p.z⟩ := rfl
  by_cases h1 : m = 0
  · rw [if_pos ⟨h1, rfl⟩]
    refine ⟨⟨l, hl, by linarith, ?_⟩, by simp⟩
    obtain rfl : k = 1 - l := by linarith
    rw [pe, wx, wy, wz, h1, Vec.mk.injEq]
    exact ⟨by ring, by ring, by ring⟩
  · rw [if_neg (fun h => h1 h.1)]
    by_cases h2 : k = 0
    · rw [if_pos ⟨h2, rfl⟩]
      refine ⟨⟨m, hm, by linarith, ?_⟩, by simp⟩
      obtain rfl : l = 1 - m := by linarith
      rw [pe, wx, wy, wz, h2, Vec.mk.injEq]
      exact ⟨by ring, by ring, by ring⟩
    · rw [if_neg (fun h => h2 h.1)]
      have h3 := (hz.resolve_left h1).resolve_left h2
      refine ⟨⟨k, hk, by linarith, ?_⟩, by simp⟩
      obtain rfl : m = 1 - k := by linarith
      rw [pe, wx, wy, wz, h3, Vec.mk.injEq]
      exact ⟨by ring, by ring, by ring⟩

/-- The point (1/2, 1e-11) counts as a point of a side of the triangle `unit`, because `point_in_triangle` rounds areas; the nearest side is
that from `a` to `b`, at a distance of 1e-11. The side chosen is another one, at a distance of 1/2. -/
theorem C94_near_violation : ∃ p : Vec ℝ, unit.pointInTriangle Real.sqrt round10 p = 2 ∧ Refine.sideOf Real.sqrt unit p = (unit.c, unit.a) ∧
    (∃ q, OnSegment unit.a unit.b q ∧ dist (toE p) (toE q) = 1 / 10 ^ 11) ∧ ∀ q, OnSegment unit.c unit.a q → 1 / 2 ≤ dist (toE p) (toE q) := by
  have hp : Proper unit.a unit.b unit.c := .inl (by norm_num [unit])
  have H : Place unit.a unit.b unit.c ⟨1 / 2, 1 / 10 ^ 11, 0⟩ (1 / 2 - 1 / 10 ^ 11) (1 / 2) (1 / 10 ^ 11) 0 :=
    ⟨by norm_num, by norm_num [unit], by norm_num [unit], by norm_num [unit]⟩
  refine ⟨⟨1 / 2, 1 / 10 ^ 11, 0⟩, ?_, ?_, ⟨⟨1 / 2, 0, 0⟩, ⟨1 / 2, by norm_num, by norm_num, by norm_num [unit]⟩, ?_⟩, ?_⟩
  · obtain ⟨e1, e2, e3⟩ := areas H
    have sq (w e : ℝ) (hw : 0 ≤ w) : Real.sqrt (w ^ 2 + 0 ^ 2 * e) = w := by
      rw [show w ^ 2 + 0 ^ 2 * e = w ^ 2 by ring, Real.sqrt_sq hw]
    rw [sq _ _ (by norm_num), unit_area] at e1 e2 e3
    have r (n : ℤ) (x : ℝ) (h : (n : ℝ) - 1 / 2 ≤ x * 10 ^ 10) (h' : x * 10 ^ 10 < n + 1 / 2) : round10 x = n / 10 ^ 10 := by
      unfold round10
      congr 1
      norm_cast
      rw [round_eq, Int.floor_eq_iff]
      constructor <;> linarith
    unfold Tri.pointInTriangle
    simp only [e1, e2, e3, unit_area]
    rw [r 0 _ (by norm_num) (by norm_num), r 2500000000 (1 / 2 * (1 / 2)) (by norm_num) (by norm_num), r 2500000000 _ (by norm_num) (by norm_num), if_pos]
    · unfold Tri.flag; norm_num
    · unfold Py.isClose; norm_num
  · rw [C94_choice hp H, if_neg (by norm_num), if_neg (by norm_num)]
  · rw [← distTo_eq]
    simp only [Vec.distTo, Vec.mod, Vec.mod2, Vec.dot, Vec.sub]
    rw [show ((1 / 2 - 1 / 2) * (1 / 2 - 1 / 2) + (1 / 10 ^ 11 - 0) * (1 / 10 ^ 11 - 0) + (0 - 0) * (0 - 0) : ℝ) = (1 / 10 ^ 11) ^ 2 by norm_num,
      Real.sqrt_sq (by norm_num)]
  · rintro q ⟨k, h1, h2, rfl⟩
    rw [← distTo_eq]
    simp only [Vec.distTo, Vec.mod, Vec.mod2, Vec.dot, Vec.sub, unit]
    apply Real.le_sqrt_of_sq_le
    nlinarith [mul_self_nonneg ((1:ℝ) / 10 ^ 11 - (1 + k * (0 - 1)))]

example : Proper unit.a unit.b unit.c ∧ OnSegment unit.b unit.c ⟨1 / 2, 1 / 2, 0⟩ ∧ Refine.sideOf Real.sqrt unit ⟨1 / 2, 1 / 2, 0⟩ = (unit.b, unit.c) := by
  have hp : Proper unit.a unit.b unit.c := .inl (by norm_num [unit])
  refine ⟨hp, ⟨1 / 2, by norm_num, by norm_num, by norm_num [unit]⟩, ?_⟩
  rw [C94_choice hp (k := 0) (l := 1 / 2) (m := 1 / 2) (h := 0) ⟨by norm_num, by norm_num [unit], by norm_num [unit], by norm_num [unit]⟩,
    if_neg (by norm_num), if_pos (by norm_num)]

/-! ## C95 Merging of the intersections -/

section
variable [Field F] [LinearOrder F]

/-- Missing for C95: points found for another triangle may get in, see `C95_foreign_violation`. If two clouds have common points, `refine_grid` makes of their intersections a list with one entry for every triangle concerned,
ordered by address, such that every point found for a triangle is in its entry or joined to a point of it by a chain of near points. -/
theorem C95_merged_partial {sort : List (Vec F) → List (Vec F)} (hsort : ∀ l, (sort l).Perm l) {addr : Nat → Nat} (hinj : Function.Injective addr)
    (hit : Tri F → Tri F → List (Vec F)) (c d : Cloud F) (hl : Cloud.inter hit c d ≠ []) :
    ∃ out, Refine.collect sort addr (Cloud.inter hit c d) = .ok out ∧ out.Pairwise (fun s t => addr s.1.id < addr t.1.id) ∧
      (∀ x ∈ out, (∃ y ∈ Cloud.inter hit c d, x.1 = y.1) ∧ x.2 ≠ [] ∧ ∀ p ∈ x.2, ∃ y ∈ Cloud.inter hit c d, p ∈ y.2) ∧
      ∀ y ∈ Cloud.inter hit c d, ∃ x ∈ out, x.1.id = y.1.id ∧ ∀ p ∈ y.2, ∃ q ∈ x.2, Chain p q :=
  collect_spec hsort hinj (inter_paired hit d c) (inter_ne_nil hit d c) hl

/-- Without intersections it fails. -/
theorem C95_empty_violation (sort : List (Vec F) → List (Vec F)) (addr : Nat → Nat) (hit : Tri F → Tri F → List (Vec F)) (c d : Cloud F)
    (hl : Cloud.inter hit c d = []) : Refine.collect sort addr (Cloud.inter hit c d) = .error .index := by rw [hl]; rfl
end

/-! ## C96 The program -/

section
variable [Field F] [LinearOrder F] [IsStrictOrderedRing F]

/-- The clouds report every pair of triangles with a common point for which the test succeeds. -/
theorem C44_pair_reported {hit : Tri F → Tri F → List (Vec F)} {ss ts : List (Tri F)} {c d : Cloud F} (hc : Cloud.ofList ss = .ok c)
    (hd : Cloud.ofList ts = .ok d) {s t : Tri F} (hs : s ∈ ss) (ht : t ∈ ts) (hh : hit s t ≠ []) (hst : Share s t) :
    (s, hit s t) ∈ Cloud.inter hit c d ∧ (t, hit s t) ∈ Cloud.inter hit c d := by
  classical
  have h1 := C44_all_pairs (hit := fun s t => if Share s t then hit s t else []) hc hd (fun s _ t _ h => by
    by_contra hn
    rw [if_neg hn] at h
    exact h rfl)
  have h2 : ∀ x, (x = (s, hit s t) ∨ x = (t, hit s t)) → x ∈ doubleLoop (fun s t => if Share s t then hit s t else []) ss ts := by
    intro x hx
    unfold doubleLoop
    refine List.mem_flatMap.2 ⟨(s, t), List.mem_product.2 ⟨hs, ht⟩, ?_⟩
    simp only [if_pos hst, if_neg hh]
    simpa using hx
  have h3 : ∀ x, (x = (s, hit s t) ∨ x = (t, hit s t)) → x ∈ Cloud.inter hit c d := fun x hx =>
    inter_mono (fun s t h => by
      by_cases hn : Share s t
      · rw [if_pos hn]
      · rw [if_neg hn] at h; exact absurd rfl h) d c (h1.mem_iff.2 (h2 x hx))
  exact ⟨h3 _ (Or.inl rfl), h3 _ (Or.inr rfl)⟩

variable [DecidableEq R]

/-- For a grid without faces the program fails with `ValueError`. -/
theorem C96_empty_violation (rc : Vec F → R) (sqrt round10 : F → F) (sort : List (Vec F) → List (Vec F)) (addr : Nat → Nat) {g : Grid F R}
    (h : g.faces = []) : Refine.refineGrid rc sqrt round10 sort addr g = .error .value := by
  unfold Refine.refineGrid
  rw [h]; rfl

/-- The program either fails with `IndexError`, and then no two triangles with a common point pass the test of intersection; or it
rebuilds the faces with a list of entries, at most one for every face, of points in which two faces intersect; and for every pair of
triangles with a common point every point of intersection is joined to a point in the entries of both by a chain of near points. -/
theorem C96_program {rc : Vec F → R} {sqrt round10 : F → F} {sort : List (Vec F) → List (Vec F)} (hsort : ∀ l, (sort l).Perm l) {addr : Nat → Nat}
    (hinj : Function.Injective addr) {g : Grid F R} (G : Good rc g) (hf : g.faces ≠ []) :
    (Refine.refineGrid rc sqrt round10 sort addr g = .error .index ∧
      ∀ f ∈ g.faces, ∀ h ∈ g.faces, ∀ s t, g.triangle f = .ok s → g.triangle h = .ok t → Share s t → s.intersectTriangle sqrt round10 sort t = []) ∨
    ∃ l jobs, Refine.refineGrid rc sqrt round10 sort addr g = Refine.refine rc sqrt round10 g l ∧ Jobs sqrt round10 g l jobs ∧ (jobs.map Prod.fst).Nodup ∧
      l ≠ [] ∧ (∀ x ∈ l, x.2 ≠ [] ∧ ∀ p ∈ x.2, ∃ f ∈ g.faces, ∃ h ∈ g.faces, ∃ s t, g.triangle f = .ok s ∧ g.triangle h = .ok t ∧ p ∈ s.intersectTriangle sqrt round10 sort t) ∧
      ∀ f ∈ g.faces, ∀ h ∈ g.faces, ∀ s t, g.triangle f = .ok s → g.triangle h = .ok t → Share s t → ∀ p ∈ s.intersectTriangle sqrt round10 sort t,
        ∀ u, u = s ∨ u = t → ∃ x ∈ l, x.1 = u ∧ ∃ q ∈ x.2, Chain p q := by
  obtain ⟨hit, hhit⟩ : ∃ hit, hit = Tri.intersectTriangle sqrt round10 sort := ⟨_, rfl⟩
  have htri : ∀ f ∈ g.faces, ∃ t, g.triangle f = .ok t := by
    intro f hf
    obtain ⟨a, b, c, hn⟩ := List.length_eq_three.1 (G.mesh.face_nodes f hf).1
    exact ⟨_, triangle_eq hn⟩
  have hid : ∀ f t, g.triangle f = .ok t → t.id = f := by
    intro f t h
    unfold triangle at h
    simp only [res_bind_eq_ok] at h
    obtain ⟨a, -, b, -, c, -, h⟩ := h
    rw [← Except.ok.inj h]
  obtain ⟨ts, hts, hmem⟩ : ∃ ts, g.faces.mapM g.triangle = .ok ts ∧ List.Forall₂ (fun f t => g.triangle f = .ok t) g.faces ts := by
    have : ∀ l : List Nat, (∀ f ∈ l, ∃ t, g.triangle f = .ok t) → ∃ ts, l.mapM g.triangle = .ok ts ∧ List.Forall₂ (fun f t => g.triangle f = .ok t) l ts := by
      intro l
      induction l with
      | nil => intro _; exact ⟨[], rfl, .nil⟩
      | cons f l ih =>
        intro hl
        obtain ⟨t, ht⟩ := hl f (by simp)
        obtain ⟨ts, h1, h2⟩ := ih (fun f hf => hl f (List.mem_cons_of_mem _ hf))
        exact ⟨t :: ts, by rw [List.mapM_cons, ht, res_bind_ok, h1, res_bind_ok]; rfl, .cons ht h2⟩
    exact this _ htri
  have hne : ts ≠ [] := by
    rintro rfl
    exact hf (List.forall₂_nil_right_iff.1 hmem)
  obtain ⟨c, us, hc, -, -⟩ := C42_cloud hne
  obtain ⟨lost, hlost⟩ := C44_only_pairs (hit := hit) hc hc
  have hin : ∀ x ∈ Cloud.inter hit c c, ∃ s ∈ ts, ∃ t ∈ ts, (x = (s, hit s t) ∨ x = (t, hit s t)) := by
    intro x hx
    have := hlost.mem_iff.1 (List.mem_append_left _ hx)
    unfold doubleLoop at this
    obtain ⟨⟨s, t⟩, h1, h2⟩ := List.mem_flatMap.1 this
    replace h1 := List.mem_product.1 h1
    refine ⟨s, h1.1, t, h1.2, ?_⟩
    simp only at h2
    split at h2
    · cases h2
    · simpa using h2
  have hrun : Refine.refineGrid rc sqrt round10 sort addr g = (Refine.collect sort addr (Cloud.inter hit c c) >>= fun l => Refine.refine rc sqrt round10 g l) := by
    unfold Refine.refineGrid
    rw [hts, res_bind_ok, hc, res_bind_ok, hhit]
  rw [hrun]
  by_cases hl : Cloud.inter hit c c = []
  · refine Or.inl ⟨by rw [C95_empty_violation sort addr hit c c hl]; rfl, ?_⟩
    intro f hf h hh s t hs ht hst
    by_contra hn
    obtain ⟨s', hs', e⟩ := forall₂_left hmem hf
    rw [hs] at e; obtain rfl := Except.ok.inj e
    obtain ⟨t', ht', e⟩ := forall₂_left hmem hh
    rw [ht] at e; obtain rfl := Except.ok.inj e
    have := (C44_pair_reported (hit := hit) hc hc hs' ht' (by rw [hhit]; exact hn) hst).1
    rw [hl] at this; cases this
  · obtain ⟨out, h1, h2, h3, h4⟩ := C95_merged_partial hsort hinj hit c c hl
    have hfaces : ∀ t ∈ ts, ∃ f ∈ g.faces, g.triangle f = .ok t := fun t ht => forall₂_rev hmem ht
    have hout : ∀ x ∈ out, ∃ f ∈ g.faces, g.triangle f = .ok x.1 := by
      intro x hx
      obtain ⟨⟨y, hy, e⟩, -⟩ := h3 x hx
      obtain ⟨s, hs, t, ht, rfl | rfl⟩ := hin y hy
      · rw [e]; exact hfaces s hs
      · rw [e]; exact hfaces t ht
    obtain ⟨jobs, hj⟩ := jobs_exist sqrt round10 G out hout
    refine Or.inr ⟨out, jobs, by rw [h1, res_bind_ok], hj, ?_, ?_, fun x hx => ⟨(h3 x hx).2.1, ?_⟩, ?_⟩
    · have : jobs.map Prod.fst = out.map (fun x => x.1.id) := by
        clear h1 h2 h3 h4 hout
        induction hj with
        | nil => rfl
        | cons h _ ih => rw [List.map_cons, List.map_cons, ih, hid _ _ h.2.1]
      rw [this, List.nodup_iff_pairwise_ne, List.pairwise_map]
      exact h2.imp fun h e => absurd h (by rw [e]; exact lt_irrefl _)
    · obtain ⟨y, hy⟩ := List.exists_mem_of_ne_nil _ hl
      obtain ⟨x, hx, -⟩ := h4 y hy
      exact List.ne_nil_of_mem hx
    · intro p hp
      obtain ⟨-, -, h⟩ := h3 x hx
      obtain ⟨y, hy, hpy⟩ := h p hp
      obtain ⟨s, hs, t, ht, e⟩ := hin y hy
      obtain ⟨f, hf, ef⟩ := hfaces s hs
      obtain ⟨k, hk, ek⟩ := hfaces t ht
      refine ⟨f, hf, k, hk, s, t, ef, ek, ?_⟩
      rw [hhit] at e
      rcases e with rfl | rfl <;> exact hpy
    · intro f hf h hh s t hs ht hst p hp u hu
      obtain ⟨s', hs', e⟩ := forall₂_left hmem hf
      rw [hs] at e; obtain rfl := Except.ok.inj e
      obtain ⟨t', ht', e⟩ := forall₂_left hmem hh
      rw [ht] at e; obtain rfl := Except.ok.inj e
      have hr := C44_pair_reported (hit := hit) hc hc hs' ht' (by rw [hhit]; exact List.ne_nil_of_mem hp) hst
      have hu' : (u, hit s t) ∈ Cloud.inter hit c c ∧ ∃ k, g.triangle k = .ok u := by
        rcases hu with rfl | rfl
        · exact ⟨hr.1, f, hs⟩
        · exact ⟨hr.2, h, ht⟩
      obtain ⟨x, hx, e1, e2⟩ := h4 _ hu'.1
      obtain ⟨q, hq, hpq⟩ := e2 p (by rw [hhit]; exact hp)
      refine ⟨x, hx, ?_, q, hq, hpq⟩
      obtain ⟨k, -, hk⟩ := hout x hx
      obtain ⟨k', hk'⟩ := hu'.2
      have e3 : k = k' := (hid _ _ hk).symm.trans (e1.trans (hid _ _ hk'))
      subst e3
      rw [hk] at hk'
      exact Except.ok.inj hk'

/-- If no test of intersection of two faces succeeds, for instance for a grid of one face, the program fails with `IndexError`. -/
theorem C96_no_contact_violation {rc : Vec F → R} {sqrt round10 : F → F} {sort : List (Vec F) → List (Vec F)} (hsort : ∀ l, (sort l).Perm l) {addr : Nat → Nat}
    (hinj : Function.Injective addr) {g : Grid F R} (G : Good rc g) (hf : g.faces ≠ [])
    (h : ∀ f ∈ g.faces, ∀ h ∈ g.faces, ∀ s t, g.triangle f = .ok s → g.triangle h = .ok t → s.intersectTriangle sqrt round10 sort t = []) :
    Refine.refineGrid rc sqrt round10 sort addr g = .error .index := by
  rcases C96_program hsort hinj G hf with ⟨h1, -⟩ | ⟨l, jobs, -, -, -, h2, h3, -⟩
  · exact h1
  · exfalso
    obtain ⟨x, hx⟩ := List.exists_mem_of_ne_nil _ h2
    obtain ⟨h4, h5⟩ := h3 x hx
    obtain ⟨p, hp⟩ := List.exists_mem_of_ne_nil _ h4
    obtain ⟨f, hf, k, hk, s, t, e1, e2, hpt⟩ := h5 p hp
    rw [h f hf k hk s t e1 e2] at hpt
    cases hpt

/-- A grid of one face cannot be refined. -/
theorem C96_one_face_violation {rc : Vec F → R} {sqrt round10 : F → F} {sort : List (Vec F) → List (Vec F)} (hsort : ∀ l, (sort l).Perm l) {addr : Nat → Nat}
    (hinj : Function.Injective addr) {g : Grid F R} (G : Good rc g) {f : Nat} (hf : g.faces = [f]) :
    Refine.refineGrid rc sqrt round10 sort addr g = .error .index := by
  refine C96_no_contact_violation hsort hinj G (by rw [hf]; simp) ?_
  intro k hk h hh s t hs ht
  rw [hf, List.mem_singleton] at hk hh
  subst hk
  subst hh
  rw [hs] at ht
  obtain rfl := Except.ok.inj ht
  unfold Tri.intersectTriangle
  rw [if_pos rfl]

/-- Missing for C96: failures as in C93, and edges between zones which are cut, see `C77_cross_zone_violation`. The new grid file can be
read, and then has the zones, and in each of them the triangles and the data of the refined grid in the same order. -/
theorem C96_file_partial (c : Codec F) (hc : c.Lawful) {rc : Vec F → R} {sqrt round10 : F → F} {sort : List (Vec F) → List (Vec F)} {addr : Nat → Nat}
    {g0 g g' : Grid F R} {text : Str} (hload : loadText rc c true g0 text = .ok g) (G : Good rc g) (hg : Storable g) (hv : SameVars g)
    (h0 : sqrt 0 = 0) (hd : Distinct sqrt g) {l : List (Tri F × List (Vec F))} {jobs : List (Nat × Change F)}
    (hl : Refine.refineGrid rc sqrt round10 sort addr g = Refine.refine rc sqrt round10 g l) (hj : Jobs sqrt round10 g l jobs) (hs : Separated rc g jobs)
    (hw : WithinZones g jobs) (hr : Refine.refineGrid rc sqrt round10 sort addr g = .ok g') :
    Refined g g' jobs ∧ ∃ text', Refine.refineText rc c sqrt round10 sort addr g0 text = .ok text' ∧
      ∀ (merge : Bool) (g1 : Grid F R), ∃ g2, loadText rc c merge g1 text' = .ok g2 ∧ g2.name = g.name ∧
        g2.zones.map g2.zName = g.zones.map g.zName ∧
        List.Forall₂ (fun z z' => List.Forall₂ (fun f f' => g2.fData f' = g'.fData f ∧
          (g2.fNodes f').map g2.nP = (g'.fNodes f).map g'.nP) (g'.zFaces z) (g2.zFaces z')) g.zones g2.zones := by
  obtain ⟨-, -, h1⟩ := C93_outcome_partial G h0 hd hj hs
  obtain ⟨-, h2, -, h3⟩ := h1 g' (hl ▸ hr)
  have hz' := (h3 (fun p _ => p) (fun _ _ => 0) (fun _ _ => true)).2 hw
  obtain ⟨text', e1, -⟩ := C77_roundtrip c hc 0 G hg hv hz' true
  refine ⟨h2, text', ?_, fun merge g1 => ?_⟩
  · unfold Refine.refineText
    rw [hload, res_bind_ok, hr, res_bind_ok, e1]
  · obtain ⟨text'', e2, e3⟩ := C77_roundtrip c hc 0 G hg hv hz' merge
    rw [e1] at e2
    obtain rfl := Except.ok.inj e2
    exact e3 g1

/-- In a grid with one zone no edge is between zones. -/
theorem withinZones_of_one {rc : Vec F → R} {g : Grid F R} (G : Good rc g) {z : Nat} (hz : g.zones = [z]) {sqrt round10 : F → F}
    {l : List (Tri F × List (Vec F))} {jobs : List (Nat × Change F)} (hj : Jobs sqrt round10 g l jobs) : WithinZones g jobs := by
  intro j hjm e he
  obtain ⟨x, -, hx⟩ := forall₂_rev hj hjm
  exact ⟨z, fun f hf => oneZone G.zones hz ((G.mesh.edge_face e (cuts_edge G hx he) f).1 hf).1⟩

end

/-! ### Samples -/

/-- `list.sort` of points. -/
def sortVec (l : List (Vec ℚ)) : List (Vec ℚ) := l.insertionSort (fun u v => v.lt u = false)

theorem sortVec_perm (l : List (Vec ℚ)) : (sortVec l).Perm l := List.perm_insertionSort _ _

/-- The corners of a triangle, and a triangle which crosses its side from the first to the second corner, perpendicular to it. -/
def finPts : List (Vec ℚ) := [⟨0, 0, 0⟩, ⟨4, 0, 0⟩, ⟨2, 4, 0⟩, ⟨1, 0, -1⟩, ⟨3, 0, -1⟩, ⟨2, 0, 1⟩, ⟨2, -4, 0⟩]

/-- The triangle and the fin, as a file with two zones. -/
def finText : Str := "# crys-gsu
TITLE=\"t\"
VARIABLES=\"X\", \"Y\", \"Z\", \"T\"
ZONE T=\"a\"
NODES=3
ELEMENTS=1
DATAPACKING=BLOCK
ZONETYPE=FETRIANGLE
VARLOCATION=([4-4]=CELLCENTERED)
0 4 2
0 0 4
0 0 0
5
1 2 3
ZONE T=\"b\"
NODES=3
ELEMENTS=1
DATAPACKING=BLOCK
ZONETYPE=FETRIANGLE
VARLOCATION=([4-4]=CELLCENTERED)
1 3 2
0 0 0
-1 -1 1
6
1 2 3
".toList

/-- The zones of the file. -/
def fin2 : List (ZoneBlock ℚ) :=
  [ { name := "a".toList, pts := finPts.take 3, faces := [([("T".toList, 5)], [1, 2, 3])] },
    { name := "b".toList, pts := (finPts.drop 3).take 3, faces := [([("T".toList, 6)], [1, 2, 3])] } ]

/-- The triangle, its neighbour beyond the side, and the fin. -/
def fin3 : List (ZoneBlock ℚ) := [{ name := "a".toList, pts := finPts, faces := [([], [1, 2, 3]), ([], [2, 1, 7]), ([], [4, 5, 6])] }]

/-- Two triangles which cross each other. -/
def cross2 : List (ZoneBlock ℚ) :=
  [ { name := "a".toList
      pts := [⟨0, 0, 0⟩, ⟨4, 0, 0⟩, ⟨2, 4, 0⟩, ⟨0, 1, -1⟩, ⟨4, 1, -1⟩, ⟨2, 1, 1⟩]
      faces := [([], [1, 2, 3]), ([], [4, 5, 6])] } ]

/-- The grid loaded from the blocks. -/
@[irreducible] def refineSample (b : List (ZoneBlock ℚ)) : Grid ℚ (ℚ × ℚ × ℚ) :=
  match loadBlocks ratKey true { (Grid.empty : Grid ℚ (ℚ × ℚ × ℚ)) with name := "t".toList } b with
  | .ok g => g
  | .error _ => Grid.empty

theorem refineSample_good {b : List (ZoneBlock ℚ)} (h1 : ∀ x ∈ b, x.Valid) (h2 : NonDegenerate ratKey true b)
    (h3 : (fileFaces ratKey true b).Pairwise (fun s t => ∃ c ∈ s, c ∉ t)) (h : (loadBlocks (R := ℚ × ℚ × ℚ) ratKey true { Grid.empty with name := "t".toList } b).isOk = true) :
    Good ratKey (refineSample b) := by
  have hl : loadBlocks ratKey true { Grid.empty with name := "t".toList } b = .ok (refineSample b) := by
    unfold refineSample
    split
    · assumption
    · rename_i e he; rw [he] at h; cases h
  refine (C32_loaded_good ratKey _ _ b h2 (h3.imp ?_) hl).1
  rintro s t ⟨c, h1, h2⟩ h3
  exact h2 ((h3 c).1 h1)

theorem fin2_good : Good ratKey (refineSample fin2) :=
  refineSample_good (by unfold ZoneBlock.Valid; decide +kernel) (by unfold NonDegenerate; decide +kernel) (by decide +kernel) (by decide +kernel)

theorem fin3_good : Good ratKey (refineSample fin3) :=
  refineSample_good (by unfold ZoneBlock.Valid; decide +kernel) (by unfold NonDegenerate; decide +kernel) (by decide +kernel) (by decide +kernel)

theorem cross2_good : Good ratKey (refineSample cross2) :=
  refineSample_good (by unfold ZoneBlock.Valid; decide +kernel) (by unfold NonDegenerate; decide +kernel) (by decide +kernel) (by decide +kernel)

theorem sideAt_of {g : Grid F R} {f e a b : Nat} {n : Vec F × Vec F} (h1 : e ∈ g.fEdges f) (h2 : g.eNodes e = [a, b] ∨ g.eNodes e = [b, a])
    (h3 : g.nP a = n.1 ∧ g.nP b = n.2) : SideAt g f e n := by
  refine ⟨h1, a, b, ?_, h3.1, h3.2⟩
  rcases h2 with h2 | h2 <;> rw [h2] <;> simp [or_comm]

/-- Two points on a side of the triangle, which is cut there. The fin stays as it is, since the points are on different sides of it. -/
def finJobs : List (Nat × Change ℚ) := [(0, .side2 0 ⟨3 / 2, 0, 0⟩ ⟨5 / 2, 0, 0⟩), (1, .keep)]

/-- What the program found. -/
def finFound : List (Tri ℚ × List (Vec ℚ)) :=
  [(⟨0, ⟨0, 0, 0⟩, ⟨4, 0, 0⟩, ⟨2, 4, 0⟩, some 0⟩, [⟨3 / 2, 0, 0⟩, ⟨5 / 2, 0, 0⟩]), (⟨1, ⟨1, 0, -1⟩, ⟨3, 0, -1⟩, ⟨2, 0, 1⟩, some 1⟩, [⟨3 / 2, 0, 0⟩, ⟨5 / 2, 0, 0⟩])]

theorem finJobs_jobs : Jobs ratSqrt id (refineSample fin2) finFound finJobs := by
  refine .cons ⟨by decide +kernel, by decide +kernel, ?_⟩ (.cons ⟨by decide +kernel, by decide +kernel, ?_⟩ .nil)
  · refine ⟨by decide +kernel, by decide +kernel, by decide +kernel, sideAt_of (a := 0) (b := 1) ?_ ?_ ?_, sideAt_of (a := 0) (b := 1) ?_ ?_ ?_⟩ <;> decide +kernel
  · refine Or.inr (Or.inr ⟨⟨3 / 2, 0, 0⟩, ⟨5 / 2, 0, 0⟩, by decide +kernel, Or.inr (Or.inr ⟨4, 5, by decide, sideAt_of (a := 5) (b := 3) ?_ ?_ ?_, sideAt_of (a := 4) (b := 5) ?_ ?_ ?_⟩)⟩) <;> decide +kernel

theorem finJobs_separated : Separated ratKey (refineSample fin2) finJobs := by
  refine ⟨by decide, ?_, ?_, ?_⟩
  · unfold NewPlace; decide +kernel
  · intro i hi j hj hij _ p hp q hq
    simp only [finJobs, List.mem_cons, List.not_mem_nil, or_false] at hi hj
    rcases hi with rfl | rfl
    · rcases hj with rfl | rfl
      · exact absurd rfl hij
      · cases hq
    · cases hp
  · intro j hj e p q h
    simp only [finJobs, List.mem_cons, List.not_mem_nil, or_false] at hj
    rcases hj with rfl | rfl
    · cases h; decide +kernel
    · cases h

theorem finJobs_within : WithinZones (refineSample fin2) finJobs := by
  intro j hj e he
  simp only [finJobs, List.mem_cons, List.not_mem_nil, or_false] at hj
  rcases hj with rfl | rfl
  · obtain rfl : 0 = e := he
    exact ⟨0, by decide +kernel⟩
  · cases he

/-- The hypotheses of `C93_outcome_partial`, with success. -/
example : Good ratKey (refineSample fin2) ∧ ratSqrt 0 = 0 ∧ Distinct ratSqrt (refineSample fin2) ∧ Jobs ratSqrt id (refineSample fin2) finFound finJobs ∧
    Separated ratKey (refineSample fin2) finJobs ∧ ∃ g', Refine.refine ratKey ratSqrt id (refineSample fin2) finFound = .ok g' ∧ g'.faces.length = 4 := by
  refine ⟨fin2_good, by decide +kernel, by unfold Distinct; decide +kernel, finJobs_jobs, finJobs_separated, ?_⟩
  have h : (match Refine.refine ratKey ratSqrt id (refineSample fin2) finFound with
    | .ok g' => decide (g'.faces.length = 4)
    | .error _ => false) = true := by decide +kernel
  split at h
  · rename_i g' hg; exact ⟨g', hg, of_decide_eq_true h⟩
  · cases h

/-- The program itself finds these entries. -/
example : Refine.refineGrid ratKey ratSqrt id sortVec id (refineSample fin2) = Refine.refine ratKey ratSqrt id (refineSample fin2) finFound := by
  have h : (do
      let ts ← (refineSample fin2).faces.mapM (refineSample fin2).triangle
      let cloud ← Cloud.ofList ts
      Refine.collect sortVec id (Cloud.inter (Tri.intersectTriangle ratSqrt id sortVec) cloud cloud)) = .ok finFound := by decide +kernel
  have h' : Refine.refineGrid ratKey ratSqrt id sortVec id (refineSample fin2) = ((do
      let ts ← (refineSample fin2).faces.mapM (refineSample fin2).triangle
      let cloud ← Cloud.ofList ts
      Refine.collect sortVec id (Cloud.inter (Tri.intersectTriangle ratSqrt id sortVec) cloud cloud)) >>= fun l =>
        Refine.refine ratKey ratSqrt id (refineSample fin2) l) := by
    unfold Refine.refineGrid
    simp only [bind_assoc]
  rw [h', h, res_bind_ok]

deriving instance DecidableEq for ZoneBlock

/-- The remaining hypotheses of `C96_file_partial`. -/
example : loadText ratKey ratCodec true Grid.empty finText = .ok (refineSample fin2) ∧ Storable (refineSample fin2) ∧ SameVars (refineSample fin2) ∧
    (refineSample fin2).zones = [0, 1] ∧ WithinZones (refineSample fin2) finJobs := by
  have hl : loadText ratKey ratCodec true Grid.empty finText = .ok (refineSample fin2) := by
    have h1 : (match parseFile ratCodec (Py.readlines finText).length ⟨[], [], []⟩ (Py.readlines finText) with
      | .ok s => decide (s.name = "t".toList ∧ s.blocks = fin2)
      | .error _ => false) = true := by decide +kernel
    have h2 : (loadBlocks (R := ℚ × ℚ × ℚ) ratKey true { Grid.empty with name := "t".toList } fin2).isOk = true := by decide +kernel
    unfold loadText
    dsimp only
    rw [show (Grid.empty : Grid ℚ (ℚ × ℚ × ℚ)).name = [] from rfl]
    split at h1
    · rename_i s hs
      obtain ⟨h3, h4⟩ := of_decide_eq_true h1
      rw [hs, res_bind_ok, h3, h4]
      unfold refineSample
      split
      · assumption
      · rename_i e he; rw [he] at h2; cases h2
    · cases h1
  obtain ⟨g, h1, h2, h3⟩ := importCheck_sound (text := finText) (P := fun g => decide (∀ f ∈ g.faces, (g.fData f).map Prod.fst = g.vars) && decide (g.zones = [0, 1]))
    (by decide +kernel)
  rw [hl] at h1
  obtain rfl := Except.ok.inj h1
  rw [Bool.and_eq_true, decide_eq_true_eq, decide_eq_true_eq] at h3
  exact ⟨hl, h2, h3.1, h3.2, finJobs_within⟩

/-- The triangle with its neighbour beyond the side: the first of both is cut together with the other one, for which the common side is
not found any more. -/
theorem C93_sample_violation : Good ratKey (refineSample fin3) ∧ Refine.refineGrid ratKey ratSqrt id sortVec id (refineSample fin3) = .error .index := by
  refine ⟨fin3_good, ?_⟩
  have h : (match Refine.refineGrid ratKey ratSqrt id sortVec id (refineSample fin3) with
    | .ok _ => false
    | .error e => decide (e = .index)) = true := by decide +kernel
  split at h
  · cases h
  · rename_i e he; rw [he, of_decide_eq_true h]

/-- Two triangles which cross each other along a segment: the new grid is the old one. The ends of the segment are inside of one triangle and
on different sides of the other one. -/
theorem C96_crossing_violation : Good ratKey (refineSample cross2) ∧ ∃ g', Refine.refineGrid ratKey ratSqrt id sortVec id (refineSample cross2) = .ok g' ∧
    g'.nodes = (refineSample cross2).nodes ∧ g'.faces = (refineSample cross2).faces ∧
    ∃ s t : Tri ℚ, (refineSample cross2).triangle 0 = .ok s ∧ (refineSample cross2).triangle 1 = .ok t ∧
      s.intersectTriangle ratSqrt id sortVec t = [⟨1, 1, 0⟩, ⟨3, 1, 0⟩] := by
  refine ⟨cross2_good, ?_⟩
  have h : (match Refine.refineGrid ratKey ratSqrt id sortVec id (refineSample cross2) with
    | .ok g' => decide (g'.nodes = (refineSample cross2).nodes ∧ g'.faces = (refineSample cross2).faces)
    | .error _ => false) = true := by decide +kernel
  split at h
  · rename_i g' hg
    obtain ⟨h1, h2⟩ := of_decide_eq_true h
    refine ⟨g', hg, h1, h2, ⟨0, ⟨0, 0, 0⟩, ⟨4, 0, 0⟩, ⟨2, 4, 0⟩, some 0⟩, ⟨1, ⟨0, 1, -1⟩, ⟨4, 1, -1⟩, ⟨2, 1, 1⟩, some 1⟩, ?_, ?_, ?_⟩ <;> decide +kernel
  · cases h

/-- The lists of points are extended in place, and an entry shares its list with another one: the fin of `fin3` gets the end (0, 0, 0) of the
common side of the other triangles, which is not a point of it. -/
theorem C95_foreign_violation : ∃ (c : Cloud ℚ) (out : List (Tri ℚ × List (Vec ℚ))) (x : Tri ℚ × List (Vec ℚ)),
    Refine.collect sortVec id (Cloud.inter (Tri.intersectTriangle ratSqrt id sortVec) c c) = .ok out ∧ x ∈ out ∧ ⟨0, 0, 0⟩ ∈ x.2 ∧
      ∀ y ∈ Cloud.inter (Tri.intersectTriangle ratSqrt id sortVec) c c, y.1 = x.1 → (⟨0, 0, 0⟩ : Vec ℚ) ∉ y.2 := by
  have h : (match (do let ts ← (refineSample fin3).faces.mapM (refineSample fin3).triangle; Cloud.ofList ts) with
    | .error _ => false
    | .ok c => match Refine.collect sortVec id (Cloud.inter (Tri.intersectTriangle ratSqrt id sortVec) c c) with
      | .error _ => false
      | .ok out => match out[2]? with
        | none => false
        | some x => decide ((⟨0, 0, 0⟩ : Vec ℚ) ∈ x.2 ∧ ∀ y ∈ Cloud.inter (Tri.intersectTriangle ratSqrt id sortVec) c c, y.1 = x.1 → (⟨0, 0, 0⟩ : Vec ℚ) ∉ y.2)) = true := by
    decide +kernel
  split at h
  · cases h
  · rename_i c _
    split at h
    · cases h
    · rename_i out ho
      split at h
      · cases h
      · rename_i x hx
        obtain ⟨h1, h2⟩ := of_decide_eq_true h
        exact ⟨c, out, x, ho, List.mem_of_getElem? hx, h1, h2⟩

/-- The hypotheses of `C95_merged_partial` and `C96_program` for `fin2`; a grid as in `C96_one_face_violation`. -/
example : (∃ c d : Cloud ℚ, Cloud.inter (Tri.intersectTriangle ratSqrt id sortVec) c d ≠ []) ∧ (refineSample fin2).faces ≠ [] ∧
    ∃ b, Good ratKey (refineSample b) ∧ (refineSample b).faces = [0] := by
  refine ⟨?_, by decide +kernel, fin2.take 1, refineSample_good (by unfold ZoneBlock.Valid; decide +kernel)
    (by unfold NonDegenerate; decide +kernel) (by decide +kernel) (by decide +kernel), by decide +kernel⟩
  have h : (match (do let ts ← (refineSample fin2).faces.mapM (refineSample fin2).triangle; Cloud.ofList ts) with
    | .error _ => false
    | .ok c => decide (Cloud.inter (Tri.intersectTriangle ratSqrt id sortVec) c c ≠ [])) = true := by decide +kernel
  split at h
  · cases h
  · rename_i c _; exact ⟨c, c, of_decide_eq_true h⟩

end Verif.Props
