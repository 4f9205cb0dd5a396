import Verif.Spec.Geom
import Verif.Proofs.Basic
import Mathlib.Tactic.Ring
import Mathlib.Tactic.FieldSimp
import Mathlib.Tactic.LinearCombination
import Mathlib.Tactic.Linarith
import Mathlib.Tactic.NormNum

/-! Lemmas about boxes, triangles and clouds. -/

namespace Verif
variable {F : Type}

/-! ### Minimum and maximum -/

section
variable [LinearOrder F]

theorem foldl_min_le (xs : List F) (x : F) :
    (xs.foldl (fun m y => if y < m then y else m) x ≤ x) ∧ ∀ y ∈ xs, xs.foldl (fun m y => if y < m then y else m) x ≤ y := by
  induction xs generalizing x with
  | nil => simp
  | cons a t ih =>
    simp only [List.foldl_cons, List.mem_cons, forall_eq_or_imp]
    obtain ⟨h1, h2⟩ := ih (if a < x then a else x)
    have : (if a < x then a else x) ≤ x ∧ (if a < x then a else x) ≤ a := by
      split_ifs with h
      · exact ⟨h.le, le_rfl⟩
      · exact ⟨le_rfl, not_lt.1 h⟩
    exact ⟨h1.trans this.1, h1.trans this.2, h2⟩

theorem foldl_min_mem (xs : List F) (x : F) : xs.foldl (fun m y => if y < m then y else m) x ∈ x :: xs := by
  induction xs generalizing x with
  | nil => simp
  | cons a t ih =>
    have h := ih (if a < x then a else x)
    simp only [List.foldl_cons]
    rcases List.mem_cons.1 h with h | h
    · rw [h]; split_ifs <;> simp
    · exact List.mem_cons_of_mem _ (List.mem_cons_of_mem _ h)

theorem le_foldl_max (xs : List F) (x : F) :
    (x ≤ xs.foldl (fun m y => if m < y then y else m) x) ∧ ∀ y ∈ xs, y ≤ xs.foldl (fun m y => if m < y then y else m) x := by
  induction xs generalizing x with
  | nil => simp
  | cons a t ih =>
    simp only [List.foldl_cons, List.mem_cons, forall_eq_or_imp]
    obtain ⟨h1, h2⟩ := ih (if x < a then a else x)
    have : x ≤ (if x < a then a else x) ∧ a ≤ (if x < a then a else x) := by
      split_ifs with h
      · exact ⟨h.le, le_rfl⟩
      · exact ⟨le_rfl, not_lt.1 h⟩
    exact ⟨this.1.trans h1, this.2.trans h1, h2⟩

theorem foldl_max_mem (xs : List F) (x : F) : xs.foldl (fun m y => if m < y then y else m) x ∈ x :: xs := by
  induction xs generalizing x with
  | nil => simp
  | cons a t ih =>
    have h := ih (if x < a then a else x)
    simp only [List.foldl_cons]
    rcases List.mem_cons.1 h with h | h
    · rw [h]; split_ifs <;> simp
    · exact List.mem_cons_of_mem _ (List.mem_cons_of_mem _ h)

theorem minimum_ok {l : List F} (h : l ≠ []) : ∃ m, Py.minimum l = .ok m ∧ m ∈ l ∧ ∀ y ∈ l, m ≤ y := by
  cases l with
  | nil => exact absurd rfl h
  | cons x xs => exact ⟨_, rfl, foldl_min_mem xs x, by simpa using foldl_min_le xs x⟩

theorem maximum_ok {l : List F} (h : l ≠ []) : ∃ m, Py.maximum l = .ok m ∧ m ∈ l ∧ ∀ y ∈ l, y ≤ m := by
  cases l with
  | nil => exact absurd rfl h
  | cons x xs => exact ⟨_, rfl, foldl_max_mem xs x, by simpa using le_foldl_max xs x⟩

/-! ### Boxes -/

theorem ofPoints_ok {ps : List (Vec F)} (h : ps ≠ []) : ∃ b, Box.ofPoints ps = .ok b ∧ Bounds b ps ∧
    (∃ p ∈ ps, b.minX = p.x) ∧ (∃ p ∈ ps, b.minY = p.y) ∧ (∃ p ∈ ps, b.minZ = p.z) ∧
    (∃ p ∈ ps, b.maxX = p.x) ∧ (∃ p ∈ ps, b.maxY = p.y) ∧ ∃ p ∈ ps, b.maxZ = p.z := by
  have hn : ∀ f : Vec F → F, ps.map f ≠ [] := fun f e => h (List.map_eq_nil_iff.1 e)
  obtain ⟨a1, e1, m1, l1⟩ := minimum_ok (hn (·.x))
  obtain ⟨a2, e2, m2, l2⟩ := minimum_ok (hn (·.y))
  obtain ⟨a3, e3, m3, l3⟩ := minimum_ok (hn (·.z))
  obtain ⟨a4, e4, m4, l4⟩ := maximum_ok (hn (·.x))
  obtain ⟨a5, e5, m5, l5⟩ := maximum_ok (hn (·.y))
  obtain ⟨a6, e6, m6, l6⟩ := maximum_ok (hn (·.z))
  simp only [List.mem_map, forall_exists_index, and_imp, forall_apply_eq_imp_iff₂] at *
  obtain ⟨p1, q1, rfl⟩ := m1
  obtain ⟨p2, q2, rfl⟩ := m2
  obtain ⟨p3, q3, rfl⟩ := m3
  obtain ⟨p4, q4, rfl⟩ := m4
  obtain ⟨p5, q5, rfl⟩ := m5
  obtain ⟨p6, q6, rfl⟩ := m6
  refine ⟨⟨p1.x, p2.y, p3.z, p4.x, p5.y, p6.z⟩, ?_, ⟨?_, ?_⟩, ⟨p1, q1, rfl⟩, ⟨p2, q2, rfl⟩, ⟨p3, q3, rfl⟩, ⟨p4, q4, rfl⟩,
    ⟨p5, q5, rfl⟩, ⟨p6, q6, rfl⟩⟩
  · simp [Box.ofPoints, e1, e2, e3, e4, e5, e6, res_bind_ok]
  · intro p hp
    exact ⟨⟨l1 p hp, l4 p hp⟩, ⟨l2 p hp, l5 p hp⟩, l3 p hp, l6 p hp⟩
  · intro o ho p hp
    exact ⟨⟨(ho p1 q1).1.1.trans hp.1.1, hp.1.2.trans (ho p4 q4).1.2⟩,
      ⟨(ho p2 q2).2.1.1.trans hp.2.1.1, hp.2.1.2.trans (ho p5 q5).2.1.2⟩,
      (ho p3 q3).2.2.1.trans hp.2.2.1, hp.2.2.2.trans (ho p6 q6).2.2.2⟩

theorem isPointInside_iff (b : Box F) (p : Vec F) : b.isPointInside p = true ↔ InBox b p := by
  simp [Box.isPointInside, InBox, and_assoc]

theorem meetsBox_of {b o : Box F} {x : Vec F} (h1 : InBox b x) (h2 : InBox o x) : b.meetsBox o = true := by
  obtain ⟨⟨a1, a2⟩, ⟨a3, a4⟩, a5, a6⟩ := h1
  obtain ⟨⟨b1, b2⟩, ⟨b3, b4⟩, b5, b6⟩ := h2
  simp [Box.meetsBox, b1.trans a2, a1.trans b2, b3.trans a4, a3.trans b4, b5.trans a6, a5.trans b6]

theorem meetsSegment_eq (b : Box F) (p q : Vec F) : ∃ sb, Box.ofPoints [p, q] = .ok sb ∧ Bounds sb [p, q] ∧
    b.meetsSegment p q = .ok (b.meetsBox sb) := by
  obtain ⟨sb, h, hb, -⟩ := ofPoints_ok (ps := [p, q]) (by simp)
  refine ⟨sb, h, hb, ?_⟩
  simp only [Box.meetsSegment, h, res_bind_ok, Box.meetsBox]
  split_ifs <;> rfl

/-- A point of every box that contains `p` and `q`. -/
def InHull (p q x : Vec F) : Prop := ∀ o : Box F, InBox o p → InBox o q → InBox o x

theorem meetsSegment_of {b : Box F} {p q x : Vec F} (h1 : InBox b x) (h2 : InHull p q x) : b.meetsSegment p q = .ok true := by
  obtain ⟨sb, -, hb, e⟩ := meetsSegment_eq b p q
  rw [e, meetsBox_of h1 (h2 sb (hb.1 p (by simp)) (hb.1 q (by simp)))]

theorem Bounds.sub {b c : Box F} {ps qs : List (Vec F)} (hb : Bounds b ps) (hc : Bounds c qs) (h : ∀ p ∈ ps, p ∈ qs) {x : Vec F}
    (hx : InBox b x) : InBox c x := hb.2 c (fun p hp => hc.1 p (h p hp)) x hx

end

variable [Field F] [LinearOrder F]

/-! ### Building the tree -/

theorem sortByAxis_perm (ts : List (Tri F)) (i : Fin 3) : (Tri.sortByAxis ts i).Perm ts := List.perm_insertionSort _ _

theorem sorted_ok {ts : List (Tri F)} (h : 1 < ts.length) : ∃ i b, Box.ofPoints (ts.map Tri.centroid) = .ok b ∧
    i = Cloud.longAxis b ∧ Cloud.sorted ts = .ok (Tri.sortByAxis ts i) := by
  obtain ⟨b, hb, -⟩ := ofPoints_ok (ps := ts.map Tri.centroid) (by
    intro e; rw [List.map_eq_nil_iff.1 e] at h; simp at h)
  exact ⟨_, b, hb, rfl, by simp [Cloud.sorted, h, hb, res_bind_ok]⟩

theorem ofTriangles_ok {ts : List (Tri F)} (h : ts ≠ []) : ∃ b, Box.ofTriangles ts = .ok b ∧ Bounds b (ts.flatMap Tri.points) := by
  obtain ⟨b, hb, hB, -⟩ := ofPoints_ok (ps := ts.flatMap Tri.points) (by
    obtain ⟨t, l, rfl⟩ := List.exists_cons_of_ne_nil h
    simp [Tri.points])
  exact ⟨b, hb, hB⟩

theorem Bounds.perm {b : Box F} {ts us : List (Tri F)} (h : Bounds b (ts.flatMap Tri.points)) (hp : us.Perm ts) :
    Bounds b (us.flatMap Tri.points) := by
  have : ∀ p, p ∈ us.flatMap Tri.points ↔ p ∈ ts.flatMap Tri.points := fun p => (hp.flatMap_right _).mem_iff
  refine ⟨fun p hq => h.1 p ((this p).1 hq), fun o ho => h.2 o (fun p hq => ho p ((this p).2 hq))⟩

theorem build_ok (n : Nat) : ∀ ts : List (Tri F), ts ≠ [] → ts.length ≤ 2 ^ n →
    ∃ c us, Cloud.build (n + 1) ts = .ok c ∧ TreeOf c us ∧ us.Perm ts := by
  induction n with
  | zero =>
    intro ts h hl
    obtain ⟨t, l, rfl⟩ := List.exists_cons_of_ne_nil h
    have : l = [] := by
      simp only [List.length_cons, pow_zero] at hl
      exact List.length_eq_zero_iff.1 (by omega)
    subst this
    obtain ⟨b, hb, hB⟩ := ofTriangles_ok (ts := [t]) (by simp)
    exact ⟨.mk b [t] [], [t], by simp [Cloud.build, hb, res_bind_ok], .leaf (by simpa using hB), List.Perm.refl _⟩
  | succ n ih =>
    intro ts h hl
    obtain ⟨b, hb, hB⟩ := ofTriangles_ok h
    by_cases h1 : 1 < ts.length
    · obtain ⟨i, -, -, -, hs⟩ := sorted_ok h1
      have hp := sortByAxis_perm ts i
      generalize Tri.sortByAxis ts i = us at hs hp
      have hlen := hp.length_eq
      have hl' : ts.length ≤ 2 ^ n * 2 := by rw [← pow_succ]; exact hl
      obtain ⟨c1, u1, e1, t1, p1⟩ := ih (us.take (us.length / 2)) (by
        intro e; have := congrArg List.length e; rw [List.length_take, List.length_nil] at this; omega) (by rw [List.length_take]; omega)
      obtain ⟨c2, u2, e2, t2, p2⟩ := ih (us.drop (us.length / 2)) (by
        intro e; have := congrArg List.length e; simp at this; omega) (by simp; omega)
      have hpp : (u1 ++ u2).Perm ts := ((p1.append p2).trans (by rw [List.take_append_drop])).trans hp
      refine ⟨.mk b [] [c1, c2], u1 ++ u2, ?_, .node t1 t2 ?_ ?_ (hB.perm hpp), hpp⟩
      · rw [Cloud.build, hb]
        simp [h1, Cloud.separate, hs, res_bind_ok, e1, e2]
      · rintro rfl
        have := p1.length_eq; simp at this; omega
      · rintro rfl
        have := p2.length_eq; simp at this; omega
    · obtain ⟨t, l, rfl⟩ := List.exists_cons_of_ne_nil h
      have : l = [] := by
        simp only [List.length_cons] at h1
        exact List.length_eq_zero_iff.1 (by omega)
      subst this
      exact ⟨.mk b [t] [], [t], by simp [Cloud.build, hb, res_bind_ok], .leaf (by simpa using hB), List.Perm.refl _⟩

/-! ### Searching the tree -/

theorem TreeOf.bounds {c : Cloud F} {ts : List (Tri F)} (h : TreeOf c ts) : Bounds c.box (ts.flatMap Tri.points) := by
  cases h with
  | leaf h => simpa [Cloud.box] using h
  | node _ _ _ _ h => exact h

theorem InTriangle.inBox [IsStrictOrderedRing F] {t : Tri F} {x : Vec F} (h : InTriangle t x) {b : Box F}
    (hb : ∀ p ∈ t.points, InBox b p) : InBox b x := by
  obtain ⟨u, v, w, hu, hv, hw, h1, rfl⟩ := h
  obtain ⟨⟨a1, a2⟩, ⟨a3, a4⟩, a5, a6⟩ := hb t.a (by simp [Tri.points])
  obtain ⟨⟨b1, b2⟩, ⟨b3, b4⟩, b5, b6⟩ := hb t.b (by simp [Tri.points])
  obtain ⟨⟨c1, c2⟩, ⟨c3, c4⟩, c5, c6⟩ := hb t.c (by simp [Tri.points])
  obtain rfl : u = 1 - v - w := by linear_combination h1
  have key : ∀ m a b c : F, m ≤ a → m ≤ b → m ≤ c → m ≤ (1 - v - w) * a + v * b + w * c := by
    intro m a b c h1 h2 h3
    have := mul_nonneg hu (sub_nonneg.2 h1)
    have := mul_nonneg hv (sub_nonneg.2 h2)
    have := mul_nonneg hw (sub_nonneg.2 h3)
    linarith
  have key' : ∀ m a b c : F, a ≤ m → b ≤ m → c ≤ m → (1 - v - w) * a + v * b + w * c ≤ m := by
    intro m a b c h1 h2 h3
    have := mul_nonneg hu (sub_nonneg.2 h1)
    have := mul_nonneg hv (sub_nonneg.2 h2)
    have := mul_nonneg hw (sub_nonneg.2 h3)
    linarith
  exact ⟨⟨key _ _ _ _ a1 b1 c1, key' _ _ _ _ a2 b2 c2⟩, ⟨key _ _ _ _ a3 b3 c3, key' _ _ _ _ a4 b4 c4⟩,
    key _ _ _ _ a5 b5 c5, key' _ _ _ _ a6 b6 c6⟩

theorem OnSegment.inHull [IsStrictOrderedRing F] {p q x : Vec F} (h : OnSegment p q x) : InHull p q x := by
  obtain ⟨k, h0, h1, rfl⟩ := h
  rintro o ⟨⟨a1, a2⟩, ⟨a3, a4⟩, a5, a6⟩ ⟨⟨b1, b2⟩, ⟨b3, b4⟩, b5, b6⟩
  have h1' : 0 ≤ 1 - k := by linarith
  have key : ∀ m a b : F, m ≤ a → m ≤ b → m ≤ a + k * (b - a) := by
    intro m a b h2 h3
    have := mul_nonneg h1' (sub_nonneg.2 h2)
    have := mul_nonneg h0 (sub_nonneg.2 h3)
    linarith
  have key' : ∀ m a b : F, a ≤ m → b ≤ m → a + k * (b - a) ≤ m := by
    intro m a b h2 h3
    have := mul_nonneg h1' (sub_nonneg.2 h2)
    have := mul_nonneg h0 (sub_nonneg.2 h3)
    linarith
  exact ⟨⟨key _ _ _ a1 b1, key' _ _ _ a2 b2⟩, ⟨key _ _ _ a3 b3, key' _ _ _ a4 b4⟩, key _ _ _ a5 b5, key' _ _ _ a6 b6⟩

/-- The box of the triangle and the box of the segment have a common point. -/
def Touches (t : Tri F) (p q : Vec F) : Prop :=
  ∃ x, InHull p q x ∧ ∀ o : Box F, (∀ v ∈ t.points, InBox o v) → InBox o x

theorem Meets.touches [IsStrictOrderedRing F] {t : Tri F} {p q : Vec F} (h : Meets t p q) : Touches t p q := by
  obtain ⟨x, h1, h2⟩ := h
  exact ⟨x, h1.inHull, fun o ho => h2.inBox ho⟩

theorem first_ok {hit : Tri F → List (Vec F)} {p q : Vec F} {c : Cloud F} {ts : List (Tri F)} (h : TreeOf c ts) :
    ∃ r, Cloud.first hit p q c = .ok r ∧ (∀ t, r = some t → t ∈ ts ∧ hit t ≠ []) ∧
      (r = none → ∀ t ∈ ts, Touches t p q → hit t = []) := by
  induction h with
  | @leaf b t hb =>
    obtain ⟨sb, -, hsb, e⟩ := meetsSegment_eq b p q
    rcases hm : b.meetsBox sb with _ | _
    · refine ⟨none, by simp [Cloud.first, e, hm, res_bind_ok], by simp, ?_⟩
      rintro - u hu ⟨x, hx, hx'⟩
      obtain rfl : u = t := by simpa using hu
      have := meetsSegment_of (hx' b hb.1) hx
      rw [e, hm] at this
      exact absurd this (by simp)
    · rcases ht : hit t with _ | ⟨v, vs⟩
      · exact ⟨none, by simp [Cloud.first, e, hm, res_bind_ok, Cloud.isList, Cloud.tris, Cloud.subs, Cloud.firstTri, ht],
          by simp, by simp [ht]⟩
      · exact ⟨some t, by simp [Cloud.first, e, hm, res_bind_ok, Cloud.isList, Cloud.tris, Cloud.subs, Cloud.firstTri, ht],
          by simp [ht], by simp⟩
  | @node b l r ls rs hl hr _ _ hb ihl ihr =>
    obtain ⟨sb, -, hsb, e⟩ := meetsSegment_eq b p q
    rcases hm : b.meetsBox sb with _ | _
    · refine ⟨none, by simp [Cloud.first, e, hm, res_bind_ok], by simp, ?_⟩
      rintro - u hu ⟨x, hx, hx'⟩
      have := meetsSegment_of (hx' b (fun v hv => hb.1 v (List.mem_flatMap.2 ⟨u, hu, hv⟩))) hx
      rw [e, hm] at this
      exact absurd this (by simp)
    · obtain ⟨r1, e1, s1, n1⟩ := ihl
      obtain ⟨r2, e2, s2, n2⟩ := ihr
      have hfirst : Cloud.first hit p q (.mk b [] [l, r]) = .ok (match r1 with | some t => some t | none => r2) := by
        simp only [Cloud.first, e, hm, res_bind_ok, Cloud.isList, Cloud.tris, Cloud.subs, Cloud.firstSub, e1, e2]
        cases r1 <;> cases r2 <;> simp
      refine ⟨_, hfirst, ?_, ?_⟩
      · intro t ht
        cases r1 with
        | some u => exact ⟨List.mem_append_left _ (s1 t ht).1, (s1 t ht).2⟩
        | none => exact ⟨List.mem_append_right _ (s2 t ht).1, (s2 t ht).2⟩
      · intro hn t ht hT
        cases r1 with
        | some u => simp at hn
        | none =>
          rcases List.mem_append.1 ht with ht | ht
          · exact n1 rfl t ht hT
          · exact n2 hn t ht hT

/-! ### Pairs of triangles -/

theorem pairs_append_left (hit : Tri F → Tri F → List (Vec F)) (a b c : List (Tri F)) :
    Cloud.pairs hit (a ++ b) c = Cloud.pairs hit a c ++ Cloud.pairs hit b c := by simp [Cloud.pairs]

theorem flatMap_append_perm {α β : Type} (s : List α) (f g : α → List β) :
    (s.flatMap (fun x => f x ++ g x)).Perm (s.flatMap f ++ s.flatMap g) := by
  induction s with
  | nil => simp
  | cons x t ih =>
    simp only [List.flatMap_cons]
    refine (ih.append_left (f x ++ g x)).trans ?_
    rw [List.append_assoc, List.append_assoc]
    refine List.Perm.append_left _ ?_
    rw [← List.append_assoc, ← List.append_assoc]
    exact List.Perm.append_right _ List.perm_append_comm

theorem pairs_append_right (hit : Tri F → Tri F → List (Vec F)) (a b c : List (Tri F)) :
    (Cloud.pairs hit c (a ++ b)).Perm (Cloud.pairs hit c a ++ Cloud.pairs hit c b) := by
  simp only [Cloud.pairs, List.flatMap_append]
  exact flatMap_append_perm _ _ _

theorem pairs_perm (hit : Tri F → Tri F → List (Vec F)) {a a' b b' : List (Tri F)} (h : a.Perm a') (h' : b.Perm b') :
    (Cloud.pairs hit a b).Perm (Cloud.pairs hit a' b') := by
  unfold Cloud.pairs
  refine (h.flatMap_right _).trans ?_
  exact List.Perm.flatMap_left _ (fun x _ => h'.flatMap_right _)

/-- The boxes of two triangles have a common point. -/
def BoxesMeet (s t : Tri F) : Prop :=
  ∃ x, (∀ o : Box F, (∀ v ∈ s.points, InBox o v) → InBox o x) ∧ ∀ o : Box F, (∀ v ∈ t.points, InBox o v) → InBox o x

/-- `hit` restricted to the pairs of triangles that satisfy `P`. -/
def restrict (P : Tri F → Tri F → Prop) [∀ s t, Decidable (P s t)] (hit : Tri F → Tri F → List (Vec F)) (s t : Tri F) :
    List (Vec F) := if P s t then hit s t else []

theorem pairs_nil {hit : Tri F → Tri F → List (Vec F)} {ss ts : List (Tri F)} (h : ∀ s ∈ ss, ∀ t ∈ ts, hit s t = []) :
    Cloud.pairs hit ss ts = [] := by
  simp only [Cloud.pairs, List.flatMap_eq_nil_iff]
  intro s hs t ht
  simp [h s hs t ht]

theorem pairs_congr {hit hit' : Tri F → Tri F → List (Vec F)} {ss ts : List (Tri F)}
    (h : ∀ s ∈ ss, ∀ t ∈ ts, hit s t = hit' s t) : Cloud.pairs hit ss ts = Cloud.pairs hit' ss ts := by
  simp only [Cloud.pairs]
  refine List.flatMap_congr (fun s hs => List.flatMap_congr (fun t ht => ?_))
  rw [h s hs t ht]

theorem not_meetsBox {b o : Box F} (h : b.meetsBox o = false) {ss ts : List (Tri F)} (hb : Bounds b (ss.flatMap Tri.points))
    (ho : Bounds o (ts.flatMap Tri.points)) {s t : Tri F} (hs : s ∈ ss) (ht : t ∈ ts) : ¬ BoxesMeet s t := by
  rintro ⟨x, h1, h2⟩
  have := meetsBox_of (h1 b (fun v hv => hb.1 v (List.mem_flatMap.2 ⟨s, hs, hv⟩)))
    (h2 o (fun v hv => ho.1 v (List.mem_flatMap.2 ⟨t, ht, hv⟩)))
  rw [h] at this
  exact absurd this (by simp)

/-- Every pair reported by the trees is reported by the double loop; a pair of the double loop is left out only if the boxes of
its triangles have no common point. -/
def BetweenNum (hit : Tri F → Tri F → List (Vec F)) (ss ts : List (Tri F)) (res : List (Tri F × List (Vec F))) : Prop :=
  ∃ lost, (res ++ lost).Perm (Cloud.pairs hit ss ts) ∧
    ((∀ s ∈ ss, ∀ t ∈ ts, hit s t ≠ [] → BoxesMeet s t) → lost = [])

theorem between_nil {hit : Tri F → Tri F → List (Vec F)} {ss ts : List (Tri F)} (h : ∀ s ∈ ss, ∀ t ∈ ts, ¬ BoxesMeet s t) :
    BetweenNum hit ss ts [] := by
  refine ⟨Cloud.pairs hit ss ts, by simp, fun hh => pairs_nil fun s hs t ht => ?_⟩
  by_contra hc
  exact h s hs t ht (hh s hs t ht hc)

theorem interLeaf_between {hit : Tri F → Tri F → List (Vec F)} {b : Box F} {s : Tri F} (hb : Bounds b s.points) {c : Cloud F}
    {ts : List (Tri F)} (h : TreeOf c ts) : BetweenNum hit [s] ts (Cloud.interLeaf hit b [s] c) := by
  have hb' : Bounds b ([s].flatMap Tri.points) := by simpa using hb
  induction h with
  | @leaf b' t ht =>
    rcases hm : b.meetsBox b' with _ | _
    · simp only [Cloud.interLeaf, hm]
      exact between_nil (fun s' hs t' ht' => not_meetsBox hm hb' (ts := [t]) (by simpa using ht) hs ht')
    · exact ⟨[], by simp [Cloud.interLeaf, hm], fun _ => rfl⟩
  | @node b' l r ls rs hl hr _ _ hB ihl ihr =>
    rcases hm : b.meetsBox b' with _ | _
    · simp only [Cloud.interLeaf, hm]
      exact between_nil (fun s' hs t' ht' => not_meetsBox hm hb' hB hs ht')
    · obtain ⟨l1, p1, n1⟩ := ihl
      obtain ⟨l2, p2, n2⟩ := ihr
      refine ⟨l1 ++ l2, ?_, fun hh => ?_⟩
      · simp only [Cloud.interLeaf, hm, Cloud.interLeafSub, List.append_nil]
        refine List.Perm.trans ?_ ((p1.append p2).trans (pairs_append_right hit ls rs [s]).symm)
        simp only [List.isEmpty_cons, Bool.not_true, Bool.not_false, Bool.false_eq_true, if_false, if_true]
        rw [List.append_assoc, List.append_assoc]
        refine List.Perm.append_left _ ?_
        rw [← List.append_assoc, ← List.append_assoc]
        exact List.Perm.append_right _ List.perm_append_comm
      · rw [n1 (fun s' hs t ht => hh s' hs t (List.mem_append_left _ ht)),
          n2 (fun s' hs t ht => hh s' hs t (List.mem_append_right _ ht))]; rfl

theorem inter_between {hit : Tri F → Tri F → List (Vec F)} {c d : Cloud F} {ss ts : List (Tri F)} (h : TreeOf c ss)
    (h' : TreeOf d ts) : BetweenNum hit ss ts (Cloud.inter hit c d) := by
  induction h with
  | @leaf b s hs =>
    rcases hm : b.meetsBox d.box with _ | _
    · simp only [Cloud.inter, hm]
      exact between_nil (fun s' hs' t' ht' => not_meetsBox hm (ss := [s]) (by simpa using hs) h'.bounds hs' ht')
    · simpa [Cloud.inter, hm] using interLeaf_between (hit := hit) hs h'
  | @node b l r ls rs hl hr _ _ hB ihl ihr =>
    rcases hm : b.meetsBox d.box with _ | _
    · simp only [Cloud.inter, hm]
      exact between_nil (fun s' hs' t' ht' => not_meetsBox hm hB h'.bounds hs' ht')
    · obtain ⟨l1, p1, n1⟩ := ihl
      obtain ⟨l2, p2, n2⟩ := ihr
      refine ⟨l1 ++ l2, ?_, fun hh => ?_⟩
      · simp only [Cloud.inter, hm, Cloud.interSub, List.append_nil]
        rw [pairs_append_left]
        refine List.Perm.trans ?_ (p1.append p2)
        simp only [List.isEmpty_cons, Bool.not_true, Bool.not_false, Bool.false_eq_true, if_false, if_true]
        rw [List.append_assoc, List.append_assoc]
        refine List.Perm.append_left _ ?_
        rw [← List.append_assoc, ← List.append_assoc]
        exact List.Perm.append_right _ List.perm_append_comm
      · rw [n1 (fun s' hs t ht => hh s' (List.mem_append_left _ hs) t ht),
          n2 (fun s' hs t ht => hh s' (List.mem_append_right _ hs) t ht)]; rfl

/-! ### Triangle and segment -/

theorem det3_volume (t : Tri F) (p q : Vec F) : Tri.det3 (t.b.sub t.a) (t.c.sub t.a) (p.sub q) = volume t p q := by
  simp only [Tri.det3, Vec.sub, volume]; ring

variable [IsStrictOrderedRing F]

theorem intersectSegment_general {r : F → F} {t : Tri F} {p q : Vec F} (h : 1 / 10 ^ 10 ≤ |volume t p q|) :
    (t.intersectSegment r p q).length ≤ 1 ∧ ∀ x, x ∈ t.intersectSegment r p q ↔ OnSegment p q x ∧ InTriangle t x := by
  have hd : volume t p q ≠ 0 := by
    intro h0
    rw [h0, abs_zero] at h
    exact absurd h (not_le.2 (by positivity))
  simp only [Tri.intersectSegment, det3_volume t p q]
  rw [if_neg (not_lt.2 h)]
  generalize hD : volume t p q = D at hd h
  have hD' := hD
  obtain ⟨id, ⟨ax, ay, az⟩, ⟨bx, by', bz⟩, ⟨cx, cy, cz⟩, bk⟩ := t
  obtain ⟨px, py, pz⟩ := p
  obtain ⟨qx, qy, qz⟩ := q
  simp only [volume] at hD
  set al := Tri.det3 (Vec.sub ⟨px, py, pz⟩ ⟨ax, ay, az⟩) (Vec.sub ⟨cx, cy, cz⟩ ⟨ax, ay, az⟩) (Vec.sub ⟨px, py, pz⟩ ⟨qx, qy, qz⟩) / D
    with hal
  set be := Tri.det3 (Vec.sub ⟨bx, by', bz⟩ ⟨ax, ay, az⟩) (Vec.sub ⟨px, py, pz⟩ ⟨ax, ay, az⟩) (Vec.sub ⟨px, py, pz⟩ ⟨qx, qy, qz⟩) / D
    with hbe
  set ph := Tri.det3 (Vec.sub ⟨bx, by', bz⟩ ⟨ax, ay, az⟩) (Vec.sub ⟨cx, cy, cz⟩ ⟨ax, ay, az⟩) (Vec.sub ⟨px, py, pz⟩ ⟨ax, ay, az⟩) / D
    with hph
  have eal : al * D = Tri.det3 (Vec.sub ⟨px, py, pz⟩ ⟨ax, ay, az⟩) (Vec.sub ⟨cx, cy, cz⟩ ⟨ax, ay, az⟩)
      (Vec.sub ⟨px, py, pz⟩ ⟨qx, qy, qz⟩) := by rw [hal]; field_simp
  have ebe : be * D = Tri.det3 (Vec.sub ⟨bx, by', bz⟩ ⟨ax, ay, az⟩) (Vec.sub ⟨px, py, pz⟩ ⟨ax, ay, az⟩)
      (Vec.sub ⟨px, py, pz⟩ ⟨qx, qy, qz⟩) := by rw [hbe]; field_simp
  have eph : ph * D = Tri.det3 (Vec.sub ⟨bx, by', bz⟩ ⟨ax, ay, az⟩) (Vec.sub ⟨cx, cy, cz⟩ ⟨ax, ay, az⟩)
      (Vec.sub ⟨px, py, pz⟩ ⟨ax, ay, az⟩) := by rw [hph]; field_simp
  simp only [Tri.det3, Vec.sub] at eal ebe eph
  clear_value al be ph
  clear hal hbe hph
  -- the solution of the system
  have sx : al * (bx - ax) + be * (cx - ax) + ph * (px - qx) = px - ax := by
    refine mul_right_cancel₀ hd ?_
    linear_combination (bx - ax) * eal + (cx - ax) * ebe + (px - qx) * eph + (px - ax) * hD
  have sy : al * (by' - ay) + be * (cy - ay) + ph * (py - qy) = py - ay := by
    refine mul_right_cancel₀ hd ?_
    linear_combination (by' - ay) * eal + (cy - ay) * ebe + (py - qy) * eph + (py - ay) * hD
  have sz : al * (bz - az) + be * (cz - az) + ph * (pz - qz) = pz - az := by
    refine mul_right_cancel₀ hd ?_
    linear_combination (bz - az) * eal + (cz - az) * ebe + (pz - qz) * eph + (pz - az) * hD
  -- every solution is this one
  have uniq : ∀ u v k : F, u * (bx - ax) + v * (cx - ax) + k * (px - qx) = px - ax →
      u * (by' - ay) + v * (cy - ay) + k * (py - qy) = py - ay → u * (bz - az) + v * (cz - az) + k * (pz - qz) = pz - az →
      u = al ∧ v = be ∧ k = ph := by
    intro u v k h1 h2 h3
    refine ⟨mul_right_cancel₀ hd ?_, mul_right_cancel₀ hd ?_, mul_right_cancel₀ hd ?_⟩
    · rw [eal, ← h1, ← h2, ← h3, ← hD]; ring
    · rw [ebe, ← h1, ← h2, ← h3, ← hD]; ring
    · rw [eph, ← h1, ← h2, ← h3, ← hD]; ring
  constructor
  · split_ifs <;> simp
  · intro x
    constructor
    · intro hx
      split_ifs at hx with hc
      · obtain rfl : x = _ := by simpa using hx
        obtain ⟨⟨h1, h2, h3⟩, h4, h5⟩ := hc
        refine ⟨⟨ph, h4, h5, ?_⟩, ⟨1 - al - be, al, be, by linarith, h1, h2, by ring, ?_⟩⟩
        · simp only [Vec.sub, Vec.smul, Vec.mk.injEq]
          exact ⟨by ring, by ring, by ring⟩
        · simp only [Vec.sub, Vec.smul, Vec.mk.injEq]
          exact ⟨by linear_combination -sx, by linear_combination -sy, by linear_combination -sz⟩
      · simp at hx
    · rintro ⟨⟨k, k0, k1, rfl⟩, u, v, w, hu, hv, hw, h1, he⟩
      simp only [Vec.mk.injEq] at he
      obtain ⟨e1, e2, e3⟩ := he
      obtain rfl : u = 1 - v - w := by linear_combination h1
      obtain ⟨rfl, rfl, rfl⟩ := uniq v w k (by linear_combination -e1) (by linear_combination -e2) (by linear_combination -e3)
      rw [if_pos ⟨⟨hv, hw, by linarith⟩, k0, k1⟩]
      simp only [List.mem_singleton, Vec.sub, Vec.smul, Vec.mk.injEq]
      exact ⟨by ring, by ring, by ring⟩

theorem intersectSegment_small {r : F → F} {t : Tri F} {p q : Vec F} (h0 : volume t p q ≠ 0) (h : |volume t p q| < 1 / 10 ^ 10) :
    t.intersectSegment r p q = [] := by
  simp only [Tri.intersectSegment, det3_volume]
  rw [if_pos h, if_neg]
  intro hc
  simp only [Tri.pointInOnePlane, Bool.and_eq_true, decide_eq_true_eq] at hc
  apply h0
  have : volume t p q = Tri.det3 (p.sub t.a) (t.b.sub t.a) (t.c.sub t.a) - Tri.det3 (q.sub t.a) (t.b.sub t.a) (t.c.sub t.a) := by
    simp only [volume, Tri.det3, Vec.sub]; ring
  rw [this, hc.1, hc.2, sub_zero]

theorem pointInOnePlane_iff (t : Tri F) (p : Vec F) : t.pointInOnePlane p = true ↔ InPlane t p := by
  simp only [Tri.pointInOnePlane, decide_eq_true_eq, InPlane]
  have : Tri.det3 (p.sub t.a) (t.b.sub t.a) (t.c.sub t.a) = volume t p t.a := by
    simp only [volume, Tri.det3, Vec.sub]; ring
  rw [this]

/-- A segment outside the plane of the triangle is hit only where it meets the triangle. -/
theorem hit_meets {r : F → F} {t : Tri F} {p q : Vec F} (hn : ¬ (InPlane t p ∧ InPlane t q))
    (h : t.intersectSegment r p q ≠ []) : Meets t p q := by
  by_cases hv : |volume t p q| < 1 / 10 ^ 10
  · refine absurd ?_ h
    simp only [Tri.intersectSegment, det3_volume t p q]
    rw [if_pos hv, if_neg]
    rw [Bool.and_eq_true, pointInOnePlane_iff, pointInOnePlane_iff]
    exact hn
  · obtain ⟨x, hx⟩ := List.exists_mem_of_ne_nil _ h
    exact ⟨x, ((intersectSegment_general (not_lt.1 hv)).2 x).1 hx⟩

theorem pairs_doubleLoop (hit : Tri F → Tri F → List (Vec F)) (ss ts : List (Tri F)) :
    Cloud.pairs hit ss ts = doubleLoop hit ss ts := by
  simp only [Cloud.pairs, doubleLoop, List.product, List.flatMap_assoc, List.flatMap_map]
  simp only [ne_eq, ite_not]

theorem Share.boxesMeet {s t : Tri F} (h : Share s t) : BoxesMeet s t := by
  obtain ⟨x, h1, h2⟩ := h
  exact ⟨x, fun o ho => h1.inBox ho, fun o ho => h2.inBox ho⟩

theorem side_in {t : Tri F} {x : Vec F} (h : OnSegment t.a t.b x ∨ OnSegment t.b t.c x ∨ OnSegment t.c t.a x) : InTriangle t x := by
  rcases h with ⟨k, h0, h1, rfl⟩ | ⟨k, h0, h1, rfl⟩ | ⟨k, h0, h1, rfl⟩
  · refine ⟨1 - k, k, 0, by linarith, h0, le_rfl, by ring, ?_⟩
    simp only [Vec.mk.injEq]; exact ⟨by ring, by ring, by ring⟩
  · refine ⟨0, 1 - k, k, le_rfl, by linarith, h0, by ring, ?_⟩
    simp only [Vec.mk.injEq]; exact ⟨by ring, by ring, by ring⟩
  · refine ⟨k, 0, 1 - k, h0, le_rfl, by linarith, by ring, ?_⟩
    simp only [Vec.mk.injEq]; exact ⟨by ring, by ring, by ring⟩

theorem dedup_ne_nil {sqrt : F → F} {l : List (Vec F)} : Tri.dedup sqrt l = [] ↔ l = [] := by
  cases l <;> simp [Tri.dedup]

theorem intersectTriangle_eq_nil {sqrt r : F → F} {sort : List (Vec F) → List (Vec F)} (hs : ∀ l, (sort l).Perm l) (s t : Tri F) :
    s.intersectTriangle sqrt r sort t = [] ↔ s.id = t.id ∨
      s.intersectSegment r t.a t.b = [] ∧ s.intersectSegment r t.b t.c = [] ∧ s.intersectSegment r t.c t.a = [] ∧
      t.intersectSegment r s.a s.b = [] ∧ t.intersectSegment r s.b s.c = [] ∧ t.intersectSegment r s.c s.a = [] := by
  unfold Tri.intersectTriangle
  by_cases hid : s.id = t.id
  · simp [hid]
  · simp only [hid, if_false, false_or]
    generalize hl : s.intersectSegment r t.a t.b ++ s.intersectSegment r t.b t.c ++ s.intersectSegment r t.c t.a ++
      t.intersectSegment r s.a s.b ++ t.intersectSegment r s.b s.c ++ t.intersectSegment r s.c s.a = l
    have hl' : l = [] ↔ s.intersectSegment r t.a t.b = [] ∧ s.intersectSegment r t.b t.c = [] ∧
        s.intersectSegment r t.c t.a = [] ∧ t.intersectSegment r s.a s.b = [] ∧ t.intersectSegment r s.b s.c = [] ∧
        t.intersectSegment r s.c s.a = [] := by rw [← hl]; simp only [List.append_eq_nil_iff, and_assoc]
    rw [← hl']
    split_ifs with h
    · rfl
    · rw [dedup_ne_nil]
      constructor
      · intro e
        have := (hs l).length_eq
        rw [e] at this
        exact List.length_eq_zero_iff.1 this.symm
      · exact fun e => absurd e h

theorem hit_share {sqrt r : F → F} {sort : List (Vec F) → List (Vec F)} (hs : ∀ l, (sort l).Perm l) {s t : Tri F} (ha : Apart s t)
    (h : s.intersectTriangle sqrt r sort t ≠ []) : Share s t := by
  obtain ⟨a1, a2, a3, a4, a5, a6⟩ := ha
  by_contra hc
  apply h
  rw [intersectTriangle_eq_nil hs]
  refine Or.inr ⟨?_, ?_, ?_, ?_, ?_, ?_⟩ <;> by_contra hh <;> apply hc
  · obtain ⟨x, h1, h2⟩ := hit_meets a1 hh; exact ⟨x, h2, side_in (.inl h1)⟩
  · obtain ⟨x, h1, h2⟩ := hit_meets a2 hh; exact ⟨x, h2, side_in (.inr (.inl h1))⟩
  · obtain ⟨x, h1, h2⟩ := hit_meets a3 hh; exact ⟨x, h2, side_in (.inr (.inr h1))⟩
  · obtain ⟨x, h1, h2⟩ := hit_meets a4 hh; exact ⟨x, side_in (.inl h1), h2⟩
  · obtain ⟨x, h1, h2⟩ := hit_meets a5 hh; exact ⟨x, side_in (.inr (.inl h1)), h2⟩
  · obtain ⟨x, h1, h2⟩ := hit_meets a6 hh; exact ⟨x, side_in (.inr (.inr h1)), h2⟩

omit [IsStrictOrderedRing F] in
theorem longest_axis (b : Box F) : ∀ i : Fin 3, b.side i ≤ b.side (Cloud.longAxis b) := by
  have key : b.side (Cloud.longAxis b) = max (max (b.side 0) (b.side 1)) (b.side 2) := by
    simp only [Cloud.longAxis]
    split_ifs with h1 h2
    · exact h1
    · exact h2
    · rcases le_total (max (b.maxX - b.minX) (b.maxY - b.minY)) (b.maxZ - b.minZ) with h | h
      · exact (max_eq_right h).symm
      · rw [max_eq_left h] at h1 h2
        rcases le_total (b.maxX - b.minX) (b.maxY - b.minY) with h' | h'
        · rw [max_eq_right h'] at h2; exact absurd rfl h2
        · rw [max_eq_left h'] at h1; exact absurd rfl h1
  rw [key]
  intro i
  match i with
  | 0 => exact (le_max_left _ _).trans (le_max_left _ _)
  | 1 => exact (le_max_right _ _).trans (le_max_left _ _)
  | 2 => exact le_max_right _ _

/-! ### The bounds found by `intersection_of_intervals` are finite -/

theorem solveLinear_bounds {a b : F} {d : ExtNum F × ExtNum F} (h : d ∈ (Tri.solveLinear a b).toList) : d.1 ≠ .posInf ∧ d.2 ≠ .negInf := by
  unfold Tri.solveLinear at h
  split_ifs at h <;> simp at h <;> subst h <;> simp

theorem ExtNum.max_ne {x y : ExtNum F} (hx : x ≠ .posInf) (hy : y ≠ .posInf) : x.max y ≠ .posInf := by
  unfold ExtNum.max; split_ifs <;> assumption

theorem ExtNum.min_ne {x y : ExtNum F} (hx : x ≠ .negInf) (hy : y ≠ .negInf) : x.min y ≠ .negInf := by
  unfold ExtNum.min; split_ifs <;> assumption

theorem ExtNum.isClose_fin {x : ExtNum F} {y : F} (h : x.isClose y = true) : ∃ k, x = .fin k := by
  cases x with
  | fin k => exact ⟨k, rfl⟩
  | _ => simp [ExtNum.isClose] at h

theorem clip_fin {r0 r1 : ExtNum F} (a0 : r0 ≠ .posInf) (a1 : r1 ≠ .negInf) {aps : F} (h0 : 0 < aps) {r : ExtNum F × ExtNum F}
    (hr : r = if ExtNum.le (r0.add (-aps)) (.fin 0) && ExtNum.le (.fin 1) (r1.add aps) then (.fin 0, .fin 1)
        else if ExtNum.le (r0.add (-aps)) (.fin 0) && ExtNum.lt r1 (.fin 1) then (.fin 0, r1)
        else if ExtNum.lt (.fin 0) r0 && ExtNum.le (.fin 1) (r1.add aps) then (r0, .fin 1)
        else (r0, r1)) : (∃ x, r.1 = .fin x) ∧ ∃ x, r.2 = .fin x := by
  rcases r0 with _ | x | _
  · rcases r1 with _ | y | _
    · exact absurd rfl a1
    · by_cases h : 1 ≤ y + aps
      · simp [ExtNum.le, ExtNum.add, h] at hr; simp [hr]
      · have : y < 1 := by linarith
        simp [ExtNum.le, ExtNum.lt, ExtNum.add, h, this] at hr; simp [hr]
    · simp [ExtNum.le, ExtNum.add] at hr; simp [hr]
  · rcases r1 with _ | y | _
    · exact absurd rfl a1
    · rw [hr]
      split_ifs <;> simp
    · by_cases h : x + -aps ≤ 0
      · simp [ExtNum.le, ExtNum.add, h] at hr; simp [hr]
      · have : 0 < x := by linarith
        simp [ExtNum.le, ExtNum.lt, ExtNum.add, h, this] at hr; simp [hr]
  · exact absurd rfl a0

theorem intersectIntervals_fin {data : List (ExtNum F × ExtNum F)} (h : ∀ d ∈ data, d.1 ≠ .posInf ∧ d.2 ≠ .negInf) {aps : F} (h0 : 0 < aps)
    {e : ExtNum F} (he : e ∈ Tri.intersectIntervals data aps) : ∃ x, e = .fin x := by
  unfold Tri.intersectIntervals at he
  split at he
  · rename_i d0 d1 d2
    have a0 := ExtNum.max_ne (ExtNum.max_ne (h d0 (by simp)).1 (h d1 (by simp)).1) (h d2 (by simp)).1
    have a1 := ExtNum.min_ne (ExtNum.min_ne (h d0 (by simp)).2 (h d1 (by simp)).2) (h d2 (by simp)).2
    dsimp only at he
    generalize (d0.1.max d1.1).max d2.1 = r0 at a0 he
    generalize (d0.2.min d1.2).min d2.2 = r1 at a1 he
    obtain ⟨r, hr⟩ : ∃ r, r = if ExtNum.le (r0.add (-aps)) (.fin 0) && ExtNum.le (.fin 1) (r1.add aps) then (ExtNum.fin 0, ExtNum.fin 1)
        else if ExtNum.le (r0.add (-aps)) (.fin 0) && ExtNum.lt r1 (.fin 1) then (.fin 0, r1)
        else if ExtNum.lt (.fin 0) r0 && ExtNum.le (.fin 1) (r1.add aps) then (r0, .fin 1)
        else (r0, r1) := ⟨_, rfl⟩
    obtain ⟨⟨x, hx⟩, y, hy⟩ := clip_fin a0 a1 h0 hr
    rw [← hr] at he
    split at he
    · simp at he
    split at he
    · rename_i hc
      rw [List.mem_singleton.1 he]
      exact ExtNum.isClose_fin ((Bool.and_eq_true _ _).mp hc).1
    split at he
    · rename_i hc
      rw [List.mem_singleton.1 he]
      exact ExtNum.isClose_fin ((Bool.and_eq_true _ _).mp hc).1
    split at he
    · rcases List.mem_cons.1 he with he | he
      · exact ⟨x, he.trans hx⟩
      · exact ⟨y, (List.mem_singleton.1 he).trans hy⟩
    · simp at he
  · simp at he

end Verif
