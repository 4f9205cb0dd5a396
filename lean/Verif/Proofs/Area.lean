import Verif.Spec.Area
import Verif.Proofs.Orient
import Verif.Model.Remesh
import Mathlib.Algebra.BigOperators.Group.List.Basic

/-! Sums over the surface. -/

namespace Verif
open Grid
variable {F R : Type} [Field F] [LinearOrder F] [IsStrictOrderedRing F]

omit [LinearOrder F] [IsStrictOrderedRing F] in
/-- Sums over the faces before and after faces were replaced. -/
theorem sum_swaps {g g' : Grid F R} {df de nn en fn : List Nat} (m : g.faces.Nodup) (m' : g'.faces.Nodup) (sw : Swaps df de nn en fn g g')
    (hd : df.Nodup) (hn : fn.Nodup) (hdf : ∀ f ∈ df, f ∈ g.faces) {φ φ' : Nat → F} (hk : ∀ f ∈ g.faces, f ∉ df → φ' f = φ f) :
    (g'.faces.map φ').sum + (df.map φ).sum = (g.faces.map φ).sum + (fn.map φ').sum := by
  have p1 : g.faces.Perm (df ++ g.faces.filter (fun f => decide (f ∉ df))) := by
    rw [List.perm_ext_iff_of_nodup m]
    · intro f
      simp only [List.mem_append, List.mem_filter, decide_eq_true_eq]
      constructor
      · intro h
        by_cases hf : f ∈ df
        · exact Or.inl hf
        · exact Or.inr ⟨h, hf⟩
      · rintro (h | h)
        · exact hdf f h
        · exact h.1
    · rw [List.nodup_append]
      refine ⟨hd, m.filter _, ?_⟩
      intro a ha b hb hab
      subst hab
      simp [ha] at hb
  have p2 : g'.faces.Perm (fn ++ g.faces.filter (fun f => decide (f ∉ df))) := by
    rw [List.perm_ext_iff_of_nodup m']
    · intro f
      rw [sw.faces]
      simp only [List.mem_append, List.mem_filter, decide_eq_true_eq]
      tauto
    · rw [List.nodup_append]
      refine ⟨hn, m.filter _, ?_⟩
      intro a ha b hb hab
      subst hab
      exact sw.fresh.2.2 a ha (List.mem_filter.1 hb).1
  have e1 := (p1.map φ).sum_eq
  have e2 := (p2.map φ').sum_eq
  have e3 : (g.faces.filter (fun f => decide (f ∉ df))).map φ' = (g.faces.filter (fun f => decide (f ∉ df))).map φ := by
    apply List.map_congr_left
    intro f hf
    obtain ⟨h1, h2⟩ := List.mem_filter.1 hf
    exact hk f h1 (by simpa using h2)
  rw [List.map_append, List.sum_append] at e1 e2
  rw [e1, e2, e3]
  ring

/-- The area of the triangle `a b c`. -/
def triArea (sqrt : F → F) (a b c : Vec F) : F :=
  1 / 2 * sqrt ((normal a b c).x * (normal a b c).x + (normal a b c).y * (normal a b c).y + (normal a b c).z * (normal a b c).z)

section
variable {sqrt : F → F}

omit [LinearOrder F] [IsStrictOrderedRing F] in
theorem faceArea_eq {g : Grid F R} {f a b c : Nat} (h : g.fNodes f = [a, b, c]) :
    faceArea sqrt g f = triArea sqrt (g.nP a) (g.nP b) (g.nP c) := by
  unfold faceArea triArea
  rw [h]
  simp only
  congr 2
  simp only [normal]
  ring

theorem triArea_scaled (hs : ∀ x, 0 ≤ x → 0 ≤ sqrt x ∧ sqrt x * sqrt x = x) {a b c a' b' c' : Vec F} {k : F}
    (h : normal a' b' c' = (normal a b c).mul k) : triArea sqrt a' b' c' = |k| * triArea sqrt a b c := by
  unfold triArea
  rw [h]
  generalize normal a b c = n
  have q0 : 0 ≤ n.x * n.x + n.y * n.y + n.z * n.z :=
    add_nonneg (add_nonneg (mul_self_nonneg _) (mul_self_nonneg _)) (mul_self_nonneg _)
  obtain ⟨r1, r2⟩ := hs _ q0
  have e : (n.mul k).x * (n.mul k).x + (n.mul k).y * (n.mul k).y + (n.mul k).z * (n.mul k).z = k * k * (n.x * n.x + n.y * n.y + n.z * n.z) := by
    simp only [Vec.mul]; ring
  rw [e]
  obtain ⟨r3, r4⟩ := hs _ (mul_nonneg (mul_self_nonneg k) q0)
  have : sqrt (k * k * (n.x * n.x + n.y * n.y + n.z * n.z)) = |k| * sqrt (n.x * n.x + n.y * n.y + n.z * n.z) := by
    rw [← abs_of_nonneg r3, ← abs_of_nonneg (mul_nonneg (abs_nonneg k) r1)]
    rw [abs_eq_abs]
    apply mul_self_eq_mul_self_iff.1
    rw [r4]
    calc k * k * (n.x * n.x + n.y * n.y + n.z * n.z) = (|k| * |k|) * (n.x * n.x + n.y * n.y + n.z * n.z) := by rw [abs_mul_abs_self]
      _ = (|k| * |k|) * (sqrt (n.x * n.x + n.y * n.y + n.z * n.z) * sqrt (n.x * n.x + n.y * n.y + n.z * n.z)) := by rw [r2]
      _ = _ := by ring
  rw [this]
  ring

omit [LinearOrder F] [IsStrictOrderedRing F] in
theorem triArea_def (a b c : Vec F) : triArea sqrt a b c = 1 / 2 * sqrt ((normal a b c).x * (normal a b c).x + (normal a b c).y * (normal a b c).y + (normal a b c).z * (normal a b c).z) := rfl

theorem triArea_nonneg (hs : ∀ x, 0 ≤ x → 0 ≤ sqrt x ∧ sqrt x * sqrt x = x) (a b c : Vec F) : 0 ≤ triArea sqrt a b c := by
  rw [triArea_def]
  exact mul_nonneg (by norm_num) (hs _ (add_nonneg (add_nonneg (mul_self_nonneg _) (mul_self_nonneg _)) (mul_self_nonneg _))).1

theorem triArea_swap (hs : ∀ x, 0 ≤ x → 0 ≤ sqrt x ∧ sqrt x * sqrt x = x) (a b c : Vec F) : triArea sqrt b a c = triArea sqrt a b c := by
  rw [triArea_scaled hs (normal_swap a b c)]; simp

theorem triArea_rot (a b c : Vec F) : triArea sqrt b c a = triArea sqrt a b c := by
  unfold triArea; rw [normal_rot]

/-- The area of a face with the corners `a`, `b`, `c`, listed in any order. -/
theorem faceArea_corners (hs : ∀ x, 0 ≤ x → 0 ≤ sqrt x ∧ sqrt x * sqrt x = x) {g : Grid F R} (m : Mesh g) {f a b c : Nat} (hf : f ∈ g.faces)
    (h : ∀ n, n ∈ g.fNodes f ↔ n = a ∨ n = b ∨ n = c) : faceArea sqrt g f = triArea sqrt (g.nP a) (g.nP b) (g.nP c) := by
  obtain ⟨h1, h2, _⟩ := m.face_nodes f hf
  obtain ⟨x, y, z, hx⟩ := List.length_eq_three.1 h1
  rw [faceArea_eq hx]
  rw [hx] at h h2
  simp only [List.mem_cons, List.not_mem_nil, or_false] at h
  simp only [List.nodup_cons, List.mem_cons, List.not_mem_nil, or_false, not_or, List.nodup_nil, and_true, not_false_eq_true] at h2
  obtain ⟨⟨n1, n2⟩, n3⟩ := h2
  have hx := (h x).1 (Or.inl rfl)
  have hy := (h y).1 (Or.inr (Or.inl rfl))
  have hz := (h z).1 (Or.inr (Or.inr rfl))
  have sw := triArea_swap hs
  have rt := triArea_rot (sqrt := sqrt)
  rcases hx with rfl | rfl | rfl <;> rcases hy with rfl | rfl | rfl <;> rcases hz with rfl | rfl | rfl <;>
    first
    | rfl
    | exact absurd rfl n1
    | exact absurd rfl n2
    | exact absurd rfl n3
    | exact sw _ _ _
    | exact rt _ _ _
    | exact (rt _ _ _).symm
    | exact (rt _ _ _).trans (rt _ _ _)
    | exact (rt _ _ _).symm.trans (sw _ _ _)
    | exact (sw _ _ _).trans (rt _ _ _)
    | exact ((rt _ _ _).symm.trans (rt _ _ _).symm)
    | exact ((sw _ _ _).trans (rt _ _ _).symm)


/-- The quantity of one face. -/
def faceTerm (sqrt : F → F) (g : Grid F R) (q : List (Str × F) → Option Nat → F) (f : Nat) : F := faceArea sqrt g f * q (g.fData f) (g.fZone f)

omit [LinearOrder F] [IsStrictOrderedRing F] in
theorem faceArea_congr {g g' : Grid F R} {f : Nat} (h : g'.fNodes f = g.fNodes f) (hp : ∀ n ∈ g.fNodes f, g'.nP n = g.nP n) :
    faceArea sqrt g' f = faceArea sqrt g f := by
  unfold faceArea
  rw [h]
  split
  · rename_i a b c hn
    rw [hn] at hp
    rw [hp a (by simp), hp b (by simp), hp c (by simp)]
  · rfl

variable [DecidableEq R]

omit [LinearOrder F] [IsStrictOrderedRing F] [DecidableEq R] in
theorem Outcome.sums {P : Patch} {rc : Vec F → R} {z : Nat} {g g' : Grid F R} (o : Outcome P rc z g g') (G : Good rc g)
    (hdf : ∀ f ∈ P.df, f ∈ g.faces) (hd : P.df.Nodup) (hn : P.fn.Nodup) (q : List (Str × F) → Option Nat → F) :
    surfaceSum sqrt g' q + (P.df.map (faceTerm sqrt g q)).sum = surfaceSum sqrt g q + (P.fn.map (faceTerm sqrt g' q)).sum := by
  refine sum_swaps G.mesh.faces_nodup o.good.mesh.faces_nodup o.swaps hd hn hdf (φ := faceTerm sqrt g q) (φ' := faceTerm sqrt g' q) ?_
  intro f hf hnd
  obtain ⟨_, k1, _, k2, k3, _⟩ := o.keeps.faces f hf hnd
  unfold faceTerm
  rw [k2, k3, faceArea_congr k1 (fun n hm => (o.keeps.nodes n ((G.mesh.face_nodes f hf).2.2 n hm)).2.1)]


omit [DecidableEq R] in
theorem term_isFace (hs : ∀ x, 0 ≤ x → 0 ≤ sqrt x ∧ sqrt x * sqrt x = x) {g : Grid F R} (m : Mesh g) {f a b c z : Nat} {d : List (Str × F)}
    (h : IsFace g f a b c d z) (q : List (Str × F) → Option Nat → F) :
    faceTerm sqrt g q f = triArea sqrt (g.nP a) (g.nP b) (g.nP c) * q d (some z) := by
  unfold faceTerm
  rw [h.data, h.zone, faceArea_corners hs m h.face h.corners]

theorem divide_sum (hs : ∀ x, 0 ≤ x → 0 ≤ sqrt x ∧ sqrt x * sqrt x = x) {rc : Vec F → R} {g : Grid F R} (G : Good rc g) {f a b c : Nat}
    (hf : f ∈ g.faces) (hn : g.fNodes f = [a, b, c]) {s t u : F} (h1 : s + t + u = 1)
    (hp : NewPlace rc g (mix s (g.nP a) t (g.nP b) u (g.nP c))) (q : List (Str × F) → Option Nat → F) :
    ∃ g', g.divideFace rc f (mix s (g.nP a) t (g.nP b) u (g.nP c)) = .ok g' ∧ Good rc g' ∧
      surfaceSum sqrt g' q = surfaceSum sqrt g q + (|s| + |t| + |u| - 1) * faceTerm sqrt g q f := by
  obtain ⟨z, _, _, hz⟩ := zone_of G.zones hf
  obtain ⟨P, g', d1, d2, d3, d4, d5, hr, o, hpn, f1, f2, f3, -⟩ := divideFace_outcome G hf hn hz hp
  have hm := (G.mesh.face_nodes f hf).2.2
  rw [hn] at hm
  have pa := (o.keeps.nodes a (hm a (by simp))).2.1
  have pb := (o.keeps.nodes b (hm b (by simp))).2.1
  have pc := (o.keeps.nodes c (hm c (by simp))).2.1
  refine ⟨g', hr, o.good, ?_⟩
  have S := Outcome.sums o (sqrt := sqrt) G (by rw [d1]; simpa using hf) (by rw [d1]; simp) (by rw [d5]; simp) q
  have A : faceTerm sqrt g q f = triArea sqrt (g.nP a) (g.nP b) (g.nP c) * q (g.fData f) (some z) := by
    unfold faceTerm; rw [hz, faceArea_eq hn]
  rw [d1, d5] at S
  simp only [List.map_cons, List.map_nil, List.sum_cons, List.sum_nil, add_zero] at S
  rw [term_isFace hs o.good.mesh f1, term_isFace hs o.good.mesh f2, term_isFace hs o.good.mesh f3, pa, pb, pc, hpn,
    triArea_scaled hs (mix_ab _ _ _ h1), triArea_scaled hs (mix_bc _ _ _ h1), triArea_scaled hs (mix_ac _ _ _ h1), abs_neg] at S
  rw [A] at S ⊢
  linear_combination S

omit [LinearOrder F] [IsStrictOrderedRing F] [DecidableEq R] in
theorem along_ac (a b c : Vec F) (t : F) : normal a (along a b t) c = (normal a b c).mul t := by
  simp only [normal, along, Vec.mul, Vec.mk.injEq]; exact ⟨by ring, by ring, by ring⟩
omit [LinearOrder F] [IsStrictOrderedRing F] [DecidableEq R] in
theorem along_bc (a b c : Vec F) (t : F) : normal b (along a b t) c = (normal a b c).mul (t - 1) := by
  simp only [normal, along, Vec.mul, Vec.mk.injEq]; exact ⟨by ring, by ring, by ring⟩
omit [LinearOrder F] [IsStrictOrderedRing F] [DecidableEq R] in
theorem along_st (a b c : Vec F) (s t : F) : normal (along a b s) (along a b t) c = (normal a b c).mul (t - s) := by
  simp only [normal, along, Vec.mul, Vec.mk.injEq]; exact ⟨by ring, by ring, by ring⟩

/-- The sum over the faces of an edge. -/
def edgeTerm (sqrt : F → F) (g : Grid F R) (q : List (Str × F) → Option Nat → F) (e : Nat) : F := ((g.eFaces e).map (faceTerm sqrt g q)).sum

theorem cutBorder_sum (hs : ∀ x, 0 ≤ x → 0 ≤ sqrt x ∧ sqrt x * sqrt x = x) {rc : Vec F → R} {g : Grid F R} (G : Good rc g) {e f a b : Nat}
    (he : e ∈ g.edges) (hf : g.eFaces e = [f]) (hn : g.eNodes e = [a, b]) {t : F}
    (hp : NewPlace rc g (along (g.nP a) (g.nP b) t)) (q : List (Str × F) → Option Nat → F) :
    ∃ g', g.cutBorder rc e (along (g.nP a) (g.nP b) t) = .ok g' ∧ Good rc g' ∧
      surfaceSum sqrt g' q = surfaceSum sqrt g q + (|t| + |1 - t| - 1) * edgeTerm sqrt g q e := by
  obtain ⟨hfm, hfe⟩ := (G.mesh.edge_face e he f).1 (by simp [hf])
  obtain ⟨z, _, _, hz⟩ := zone_of G.zones hfm
  obtain ⟨P, g', c, d1, d2, d3, d4, d5, hr, o, hpn, hc, -, f1, f2, -⟩ := cutBorder_outcome G he hf hn hz hp
  have hm := (G.mesh.face_nodes f hfm).2.2
  have pa := (o.keeps.nodes a (hm a ((hc a).2 (Or.inl rfl)))).2.1
  have pb := (o.keeps.nodes b (hm b ((hc b).2 (Or.inr (Or.inl rfl))))).2.1
  have pc := (o.keeps.nodes c (hm c ((hc c).2 (Or.inr (Or.inr rfl))))).2.1
  refine ⟨g', hr, o.good, ?_⟩
  have S := Outcome.sums o (sqrt := sqrt) G (by rw [d1]; simpa using hfm) (by rw [d1]; simp) (by rw [d5]; simp) q
  have A : faceTerm sqrt g q f = triArea sqrt (g.nP a) (g.nP b) (g.nP c) * q (g.fData f) (some z) :=
    term_isFace hs G.mesh ⟨hfm, hc, rfl, hz⟩ q
  rw [d1, d5] at S
  unfold edgeTerm
  rw [hf]
  simp only [List.map_cons, List.map_nil, List.sum_cons, List.sum_nil, add_zero] at S ⊢
  rw [term_isFace hs o.good.mesh f1, term_isFace hs o.good.mesh f2, pa, pb, pc, hpn,
    triArea_scaled hs (along_ac _ _ _ t), triArea_scaled hs (along_bc _ _ _ t), abs_sub_comm t 1] at S
  rw [A] at S ⊢
  linear_combination S

theorem cutBorder2_sum (hs : ∀ x, 0 ≤ x → 0 ≤ sqrt x ∧ sqrt x * sqrt x = x) {rc : Vec F → R} {g : Grid F R} (G : Good rc g) {e f a b : Nat}
    (he : e ∈ g.edges) (hf : g.eFaces e = [f]) (hn : g.eNodes e = [a, b]) {s t : F}
    (hp1 : NewPlace rc g (along (g.nP a) (g.nP b) s)) (hp2 : NewPlace rc g (along (g.nP a) (g.nP b) t))
    (hpp : rc (along (g.nP a) (g.nP b) t) ≠ rc (along (g.nP a) (g.nP b) s)) (q : List (Str × F) → Option Nat → F) :
    ∃ g', g.cutBorder2 rc e (along (g.nP a) (g.nP b) s) (along (g.nP a) (g.nP b) t) = .ok g' ∧ Good rc g' ∧
      surfaceSum sqrt g' q = surfaceSum sqrt g q + (|s| + |t - s| + |1 - t| - 1) * edgeTerm sqrt g q e := by
  obtain ⟨hfm, hfe⟩ := (G.mesh.edge_face e he f).1 (by simp [hf])
  obtain ⟨z, _, _, hz⟩ := zone_of G.zones hfm
  obtain ⟨P, g', c, d1, d2, d3, d4, d5, hr, o, hpn, hpn2, hc, -, f1, f2, f3⟩ := cutBorder2_outcome G he hf hn hz hp1 hp2 hpp
  have hm := (G.mesh.face_nodes f hfm).2.2
  have pa := (o.keeps.nodes a (hm a ((hc a).2 (Or.inl rfl)))).2.1
  have pb := (o.keeps.nodes b (hm b ((hc b).2 (Or.inr (Or.inl rfl))))).2.1
  have pc := (o.keeps.nodes c (hm c ((hc c).2 (Or.inr (Or.inr rfl))))).2.1
  refine ⟨g', hr, o.good, ?_⟩
  have S := Outcome.sums o (sqrt := sqrt) G (by rw [d1]; simpa using hfm) (by rw [d1]; simp) (by rw [d5]; simp) q
  have A : faceTerm sqrt g q f = triArea sqrt (g.nP a) (g.nP b) (g.nP c) * q (g.fData f) (some z) :=
    term_isFace hs G.mesh ⟨hfm, hc, rfl, hz⟩ q
  rw [d1, d5] at S
  unfold edgeTerm
  rw [hf]
  simp only [List.map_cons, List.map_nil, List.sum_cons, List.sum_nil, add_zero] at S ⊢
  rw [term_isFace hs o.good.mesh f1, term_isFace hs o.good.mesh f2, term_isFace hs o.good.mesh f3, pa, pb, pc, hpn, hpn2,
    triArea_scaled hs (along_ac _ _ _ s), triArea_scaled hs (along_bc _ _ _ t), triArea_scaled hs (along_st _ _ _ s t), abs_sub_comm t 1] at S
  rw [A] at S ⊢
  linear_combination S

theorem cutInner_sum (hs : ∀ x, 0 ≤ x → 0 ≤ sqrt x ∧ sqrt x * sqrt x = x) {rc : Vec F → R} {g : Grid F R} (G : Good rc g) {e f h a b : Nat}
    (he : e ∈ g.edges) (hf : g.eFaces e = [f, h]) (hn : g.eNodes e = [a, b]) {t : F}
    (hp : NewPlace rc g (along (g.nP a) (g.nP b) t)) (q : List (Str × F) → Option Nat → F)
    (hq : OneZone g e ∨ ∀ d z z', q d z = q d z') :
    ∃ g', g.cutInner rc e (along (g.nP a) (g.nP b) t) = .ok g' ∧ Good rc g' ∧
      surfaceSum sqrt g' q = surfaceSum sqrt g q + (|t| + |1 - t| - 1) * edgeTerm sqrt g q e := by
  obtain ⟨hfm, hfe⟩ := (G.mesh.edge_face e he f).1 (by simp [hf])
  obtain ⟨hhm, hhe⟩ := (G.mesh.edge_face e he h).1 (by simp [hf])
  have hfh : f ≠ h := by
    have := (G.mesh.edge_faces e he).2
    rw [hf] at this
    simpa using this
  obtain ⟨z, _, _, hz⟩ := zone_of G.zones hfm
  obtain ⟨y, _, _, hy⟩ := zone_of G.zones hhm
  have hyz : q (g.fData h) (some z) = q (g.fData h) (some y) := by
    rcases hq with ⟨w, hw⟩ | hq
    · have e1 := hw f (by simp [hf])
      have e2 := hw h (by simp [hf])
      rw [hz] at e1
      rw [hy] at e2
      rw [e1, e2]
    · exact hq _ _ _
  obtain ⟨P, g', c, c', d1, d2, d3, d4, d5, hr, o, hpn, hc, hc', -, f1, f2, f3, f4, -⟩ := cutInner_outcome G he hf hn hz hp
  have hm := (G.mesh.face_nodes f hfm).2.2
  have hm' := (G.mesh.face_nodes h hhm).2.2
  have pa := (o.keeps.nodes a (hm a ((hc a).2 (Or.inl rfl)))).2.1
  have pb := (o.keeps.nodes b (hm b ((hc b).2 (Or.inr (Or.inl rfl))))).2.1
  have pc := (o.keeps.nodes c (hm c ((hc c).2 (Or.inr (Or.inr rfl))))).2.1
  have pc' := (o.keeps.nodes c' (hm' c' ((hc' c').2 (Or.inr (Or.inr rfl))))).2.1
  refine ⟨g', hr, o.good, ?_⟩
  have S := Outcome.sums o (sqrt := sqrt) G (by rw [d1]; simp [hfm, hhm]) (by rw [d1]; simp [hfh]) (by rw [d5]; simp) q
  have A : faceTerm sqrt g q f = triArea sqrt (g.nP a) (g.nP b) (g.nP c) * q (g.fData f) (some z) :=
    term_isFace hs G.mesh ⟨hfm, hc, rfl, hz⟩ q
  have B : faceTerm sqrt g q h = triArea sqrt (g.nP a) (g.nP b) (g.nP c') * q (g.fData h) (some z) := by
    rw [hyz]
    exact term_isFace hs G.mesh ⟨hhm, hc', rfl, hy⟩ q
  rw [d1, d5] at S
  unfold edgeTerm
  rw [hf]
  simp only [List.map_cons, List.map_nil, List.sum_cons, List.sum_nil, add_zero] at S ⊢
  rw [term_isFace hs o.good.mesh f1, term_isFace hs o.good.mesh f2, term_isFace hs o.good.mesh f3, term_isFace hs o.good.mesh f4,
    pa, pb, pc, pc', hpn, triArea_scaled hs (along_ac _ _ _ t), triArea_scaled hs (along_bc _ _ _ t),
    triArea_scaled hs (along_ac _ _ _ t), triArea_scaled hs (along_bc _ _ _ t), abs_sub_comm t 1] at S
  rw [A, B] at S ⊢
  linear_combination S

theorem cutInner2_sum (hs : ∀ x, 0 ≤ x → 0 ≤ sqrt x ∧ sqrt x * sqrt x = x) {rc : Vec F → R} {g : Grid F R} (G : Good rc g) {e f h a b : Nat}
    (he : e ∈ g.edges) (hf : g.eFaces e = [f, h]) (hn : g.eNodes e = [a, b]) {s t : F}
    (hp1 : NewPlace rc g (along (g.nP a) (g.nP b) s)) (hp2 : NewPlace rc g (along (g.nP a) (g.nP b) t))
    (hpp : rc (along (g.nP a) (g.nP b) t) ≠ rc (along (g.nP a) (g.nP b) s)) (q : List (Str × F) → Option Nat → F)
    (hq : OneZone g e ∨ ∀ d z z', q d z = q d z') :
    ∃ g', g.cutInner2 rc e (along (g.nP a) (g.nP b) s) (along (g.nP a) (g.nP b) t) = .ok g' ∧ Good rc g' ∧
      surfaceSum sqrt g' q = surfaceSum sqrt g q + (|s| + |t - s| + |1 - t| - 1) * edgeTerm sqrt g q e := by
  obtain ⟨hfm, hfe⟩ := (G.mesh.edge_face e he f).1 (by simp [hf])
  obtain ⟨hhm, hhe⟩ := (G.mesh.edge_face e he h).1 (by simp [hf])
  have hfh : f ≠ h := by
    have := (G.mesh.edge_faces e he).2
    rw [hf] at this
    simpa using this
  obtain ⟨z, _, _, hz⟩ := zone_of G.zones hfm
  obtain ⟨y, _, _, hy⟩ := zone_of G.zones hhm
  have hyz : q (g.fData h) (some z) = q (g.fData h) (some y) := by
    rcases hq with ⟨w, hw⟩ | hq
    · have e1 := hw f (by simp [hf])
      have e2 := hw h (by simp [hf])
      rw [hz] at e1
      rw [hy] at e2
      rw [e1, e2]
    · exact hq _ _ _
  obtain ⟨P, g', c, c', d1, d2, d3, d4, d5, hr, o, hpn, hpn2, hc, hc', -, f1, f2, f3, f4, f5, f6⟩ := cutInner2_outcome G he hf hn hz hp1 hp2 hpp
  have hm := (G.mesh.face_nodes f hfm).2.2
  have hm' := (G.mesh.face_nodes h hhm).2.2
  have pa := (o.keeps.nodes a (hm a ((hc a).2 (Or.inl rfl)))).2.1
  have pb := (o.keeps.nodes b (hm b ((hc b).2 (Or.inr (Or.inl rfl))))).2.1
  have pc := (o.keeps.nodes c (hm c ((hc c).2 (Or.inr (Or.inr rfl))))).2.1
  have pc' := (o.keeps.nodes c' (hm' c' ((hc' c').2 (Or.inr (Or.inr rfl))))).2.1
  refine ⟨g', hr, o.good, ?_⟩
  have S := Outcome.sums o (sqrt := sqrt) G (by rw [d1]; simp [hfm, hhm]) (by rw [d1]; simp [hfh]) (by rw [d5]; simp) q
  have A : faceTerm sqrt g q f = triArea sqrt (g.nP a) (g.nP b) (g.nP c) * q (g.fData f) (some z) :=
    term_isFace hs G.mesh ⟨hfm, hc, rfl, hz⟩ q
  have B : faceTerm sqrt g q h = triArea sqrt (g.nP a) (g.nP b) (g.nP c') * q (g.fData h) (some z) := by
    rw [hyz]
    exact term_isFace hs G.mesh ⟨hhm, hc', rfl, hy⟩ q
  rw [d1, d5] at S
  unfold edgeTerm
  rw [hf]
  simp only [List.map_cons, List.map_nil, List.sum_cons, List.sum_nil, add_zero] at S ⊢
  rw [term_isFace hs o.good.mesh f1, term_isFace hs o.good.mesh f2, term_isFace hs o.good.mesh f3, term_isFace hs o.good.mesh f4,
    term_isFace hs o.good.mesh f5, term_isFace hs o.good.mesh f6,
    pa, pb, pc, pc', hpn, hpn2, triArea_scaled hs (along_ac _ _ _ s), triArea_scaled hs (along_bc _ _ _ t), triArea_scaled hs (along_st _ _ _ s t),
    triArea_scaled hs (along_ac _ _ _ s), triArea_scaled hs (along_bc _ _ _ t), triArea_scaled hs (along_st _ _ _ s t), abs_sub_comm t 1] at S
  rw [A, B] at S ⊢
  linear_combination S

end
end Verif
