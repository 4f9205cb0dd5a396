import Verif.Spec.Layer
import Verif.Proofs.Remesh

/-! Heights of ice layers and volumes. -/

namespace Verif.Ice
variable {F R : Type} [Field F] [LinearOrder F] [IsStrictOrderedRing F]

theorem solveShift_root {sqrt : F → F} (hs : ∀ x, 0 ≤ x → 0 ≤ sqrt x ∧ sqrt x * sqrt x = x) {a b v h0 : F} (ha : 0 < a) (hv : 0 < v)
    (hb : 1 / 10 ^ 10 < |b|) (hd : 0 ≤ a * a + 4 * b * v) :
    0 ≤ solveShift sqrt a b v h0 ∧ a * solveShift sqrt a b v h0 + b * solveShift sqrt a b v h0 ^ 2 = v ∧
      ∀ k, 0 ≤ k → a * k + b * k ^ 2 = v → solveShift sqrt a b v h0 ≤ k := by
  have hb0 : b ≠ 0 := by
    rintro rfl
    rw [abs_zero] at hb
    exact absurd hb (not_lt.2 (by positivity))
  obtain ⟨hr, hrr⟩ := hs _ hd
  unfold solveShift
  rw [if_pos hb]
  dsimp only
  rw [if_pos hd]
  generalize sqrt (a * a + 4 * b * v) = r at hr hrr
  obtain ⟨x, hx⟩ : ∃ x, x = (-a + r) / (2 * b) := ⟨_, rfl⟩
  obtain ⟨y, hy⟩ : ∃ y, y = (-a - r) / (2 * b) := ⟨_, rfl⟩
  rw [← hx, ← hy]
  have ex : 2 * b * x = -a + r := by rw [hx]; field_simp
  have ey : 2 * b * y = -a - r := by rw [hy]; field_simp
  have root : ∀ z, (2 * b * z + a) * (2 * b * z + a) = r * r → a * z + b * z ^ 2 = v := by
    intro z hz
    have : 4 * b * (a * z + b * z ^ 2) = 4 * b * v := by linear_combination hz + hrr
    exact mul_left_cancel₀ (by simpa using hb0) this
  have rx := root x (by rw [ex]; ring)
  have ry := root y (by rw [ey]; ring)
  have only : ∀ k, a * k + b * k ^ 2 = v → k = x ∨ k = y := by
    intro k hk
    have : (2 * b * k - 2 * b * x) * (2 * b * k - 2 * b * y) = 0 := by
      rw [ex, ey]
      linear_combination 4 * b * hk - hrr
    rcases mul_eq_zero.1 this with h | h
    · left
      exact mul_left_cancel₀ (mul_ne_zero two_ne_zero hb0) (sub_eq_zero.1 h)
    · right
      exact mul_left_cancel₀ (mul_ne_zero two_ne_zero hb0) (sub_eq_zero.1 h)
  rcases lt_or_gt_of_ne hb0 with hneg | hpos
  · have h1 : r < a := by
      by_contra h
      have := mul_le_mul (not_lt.1 h) (not_lt.1 h) ha.le hr
      nlinarith [mul_neg_of_neg_of_pos hneg hv]
    have hx0 : 0 < x := by
      by_contra h
      nlinarith [mul_nonneg_of_nonpos_of_nonpos hneg.le (not_lt.1 h)]
    have hy0 : 0 < y := by
      by_contra h
      nlinarith [mul_nonneg_of_nonpos_of_nonpos hneg.le (not_lt.1 h)]
    rw [if_pos ⟨hx0.le, hy0.le⟩]
    refine ⟨le_min hx0.le hy0.le, ?_, fun k _ hk => ?_⟩
    · rcases min_choice x y with h | h <;> rw [h] <;> assumption
    · rcases only k hk with rfl | rfl
      · exact min_le_left _ _
      · exact min_le_right _ _
  · have h1 : a < r := by
      by_contra h
      have := mul_le_mul (not_lt.1 h) (not_lt.1 h) hr ha.le
      nlinarith [mul_pos hpos hv]
    have hx0 : 0 < x := by
      by_contra h
      nlinarith [mul_nonneg hpos.le (neg_nonneg.2 (not_lt.1 h))]
    have hy0 : y < 0 := by
      by_contra h
      nlinarith [mul_nonneg hpos.le (not_lt.1 h)]
    rw [if_neg (fun h => absurd h.2 (not_le.2 hy0)), if_pos hx0.le]
    refine ⟨hx0.le, rx, fun k hk0 hk => ?_⟩
    rcases only k hk with rfl | rfl
    · exact le_rfl
    · exact absurd hk0 (not_le.2 hy0)

theorem solveShift_nonneg {sqrt : F → F} {a b v h0 : F} (h : 0 ≤ h0) : 0 ≤ solveShift sqrt a b v h0 := by
  unfold solveShift
  dsimp only
  split_ifs <;> first | assumption | skip
  rename_i h1
  exact le_min h1.1 h1.2

theorem solveShift_linear {sqrt : F → F} {a b v h0 : F} (h : |b| ≤ 1 / 10 ^ 10 ∨ a * a + 4 * b * v < 0) : solveShift sqrt a b v h0 = h0 := by
  unfold solveShift
  rcases h with h | h
  · rw [if_neg (not_lt.2 h)]
  · dsimp only
    rw [if_neg (not_le.2 h)]
    split_ifs <;> rfl

theorem div_ok {u w : Vec F} {k : F} (h : u.div k = .ok w) : k ≠ 0 ∧ w = u.smul (1 / k) := by
  unfold Vec.div at h
  split_ifs at h with h0
  exact ⟨h0, (Except.ok.inj h).symm⟩

theorem coefs_ok {sqrt : F → F} (hs : ∀ x, 0 ≤ x → 0 ≤ sqrt x ∧ sqrt x * sqrt x = x) {p1 p2 p3 d1 d2 d3 n : Vec F} {a b : F}
    (hn : (⟨0, p1, p2, p3, none⟩ : Tri F).normalOrth sqrt = .ok n)
    (h : prizmatoidCoefs sqrt p1 p2 p3 d1 d2 d3 n = .ok (a, b)) :
    a = (⟨0, p1, p2, p3, none⟩ : Tri F).area sqrt ∧ ∃ c, LayerCoefs n p1 p2 p3 d1 d2 d3 a b c := by
  unfold prizmatoidCoefs at h
  obtain ⟨u1, hu1, h⟩ := res_bind_eq_ok.1 h
  obtain ⟨u2, hu2, h⟩ := res_bind_eq_ok.1 h
  obtain ⟨u3, hu3, h⟩ := res_bind_eq_ok.1 h
  obtain ⟨k1, rfl⟩ := div_ok hu1
  obtain ⟨k2, rfl⟩ := div_ok hu2
  obtain ⟨k3, rfl⟩ := div_ok hu3
  have e := Except.ok.inj h
  obtain ⟨ea, eb⟩ := Prod.mk.inj e
  unfold Tri.normalOrth Vec.orth at hn
  obtain ⟨hm, hn⟩ := div_ok hn
  have hcr : (p2.sub p1).cross (p3.sub p1) = (p2.sub p1).cross (p3.sub p2) := by
    simp only [Vec.sub, Vec.cross, Vec.mk.injEq]
    refine ⟨by ring, by ring, by ring⟩
  have ha : a = (⟨0, p1, p2, p3, none⟩ : Tri F).area sqrt := by rw [← ea, hcr]; rfl
  refine ⟨ha, ?_⟩
  dsimp only at hm hn
  obtain ⟨w, hw⟩ : ∃ w, w = (p2.sub p1).cross (p3.sub p2) := ⟨_, rfl⟩
  rw [← hw] at hm hn hcr
  have hsq := (hs w.mod2 (add_nonneg (add_nonneg (mul_self_nonneg _) (mul_self_nonneg _)) (mul_self_nonneg _))).2
  have ea' : n.dot w = w.mod sqrt := by
    rw [hn]
    have : (w.smul (1 / w.mod sqrt)).dot w = w.mod2 / w.mod sqrt := by
      simp only [Vec.smul, Vec.dot, Vec.mod2]; field_simp
    rw [this, ← hsq]
    exact mul_div_cancel_right₀ _ hm
  have hA : a = 1 / 2 * n.dot ((p2.sub p1).cross (p3.sub p1)) := by rw [hcr, ea', ← ea, hcr]
  subst eb
  rw [hA]
  clear hA ha ea ea' hsq hn hm hcr hw
  simp only [Vec.dot] at k1 k2 k3
  refine ⟨1 / 6 * n.dot ((((d2.smul (1 / n.dot d2)).sub (d1.smul (1 / n.dot d1))).cross ((d3.smul (1 / n.dot d3)).sub (d1.smul (1 / n.dot d1))))),
    fun t => ?_⟩
  simp only [projArea, lifted, Vec.dot, Vec.cross, Vec.sub, Vec.smul, Vec.add]
  generalize n.x * d1.x + n.y * d1.y + n.z * d1.z = q1 at k1
  generalize n.x * d2.x + n.y * d2.y + n.z * d2.z = q2 at k2
  generalize n.x * d3.x + n.y * d3.y + n.z * d3.z = q3 at k3
  simp only [div_eq_mul_inv, one_mul]
  generalize q1⁻¹ = i1
  generalize q2⁻¹ = i2
  generalize q3⁻¹ = i3
  ring

theorem area_pos {sqrt : F → F} (hs : ∀ x, 0 ≤ x → 0 ≤ sqrt x ∧ sqrt x * sqrt x = x) {t : Tri F} (h : t.area sqrt ≠ 0) : 0 < t.area sqrt := by
  refine lt_of_le_of_ne ?_ (Ne.symm h)
  unfold Tri.area
  have := (hs (((t.b.sub t.a).cross (t.c.sub t.b)).mod2) (add_nonneg (add_nonneg (mul_self_nonneg _) (mul_self_nonneg _)) (mul_self_nonneg _))).1
  unfold Vec.mod
  positivity

/-- The height found for a face. -/
theorem faceShift_ok {sqrt : F → F} (hs : ∀ x, 0 ≤ x → 0 ≤ sqrt x ∧ sqrt x * sqrt x = x) {s : Ice F R} {f : Nat} {h : F}
    (hf : faceShift sqrt s f = .ok h) {n1 n2 n3 : Nat} (h3 : s.g.fNodes f = [n1, n2, n3]) :
    0 < faceArea sqrt s.g f ∧ (s.chunk f ≤ 1 / 10 ^ 10 → h = s.chunk f / faceArea sqrt s.g f) ∧
      (1 / 10 ^ 10 < s.chunk f → ∃ n b c, (⟨0, s.g.nP n1, s.g.nP n2, s.g.nP n3, none⟩ : Tri F).normalOrth sqrt = .ok n ∧
        LayerCoefs n (s.g.nP n1) (s.g.nP n2) (s.g.nP n3) (s.nDir n1) (s.nDir n2) (s.nDir n3) (faceArea sqrt s.g f) b c ∧
        h = solveShift sqrt (faceArea sqrt s.g f) b (s.chunk f) (s.chunk f / faceArea sqrt s.g f)) := by
  unfold faceShift at hf
  obtain ⟨t, ht, hf⟩ := res_bind_eq_ok.1 hf
  have hA := triangle_area ht (by rw [h3]; rfl) sqrt
  have et : t = ⟨f, s.g.nP n1, s.g.nP n2, s.g.nP n3, some f⟩ := by
    unfold Grid.triangle at ht
    rw [h3] at ht
    exact (Except.ok.inj ht).symm
  rw [hA] at hf
  split_ifs at hf with hz h1
  · refine ⟨hA ▸ area_pos hs (hA.symm ▸ hz), fun h => absurd h (not_le.2 h1), fun _ => ?_⟩
    rw [h3] at hf
    change (t.normalOrth sqrt >>= fun nf => _) = _ at hf
    obtain ⟨n, hn, hf⟩ := res_bind_eq_ok.1 hf
    obtain ⟨⟨a, b⟩, hab, hf⟩ := res_bind_eq_ok.1 hf
    have hn' : (⟨0, s.g.nP n1, s.g.nP n2, s.g.nP n3, none⟩ : Tri F).normalOrth sqrt = .ok n := by rw [← hn, et]; rfl
    obtain ⟨ea, c, hc⟩ := coefs_ok hs hn' hab
    have ea' : a = faceArea sqrt s.g f := by rw [← hA, ea, et]; rfl
    rw [ea'] at hc hf
    exact ⟨n, b, c, hn', hc, (Except.ok.inj hf).symm⟩
  · exact ⟨hA ▸ area_pos hs (hA.symm ▸ hz), fun _ => (Except.ok.inj hf).symm, fun h => absurd h h1⟩

/-- Coefficients of the layer are unique. -/
theorem LayerCoefs.unique {n p1 p2 p3 d1 d2 d3 : Vec F} {a b c a' b' c' : F} (h : LayerCoefs n p1 p2 p3 d1 d2 d3 a b c)
    (h' : LayerCoefs n p1 p2 p3 d1 d2 d3 a' b' c') : a = a' ∧ b = b' ∧ c = c' := by
  have e0 := (h 0).symm.trans (h' 0)
  have e1 := (h 1).symm.trans (h' 1)
  have e2 := (h (-1)).symm.trans (h' (-1))
  refine ⟨by linarith, by linarith, by linarith⟩

/-! ### Displaced triangles -/

theorem volume4_translate (a b c t : Vec F) :
    volume4 a b c (c.add t) + volume4 a b (b.add t) (c.add t) + volume4 a (a.add t) (b.add t) (c.add t) =
      |t.x * ((b.y - a.y) * (c.z - a.z) - (b.z - a.z) * (c.y - a.y)) + t.y * ((b.z - a.z) * (c.x - a.x) - (b.x - a.x) * (c.z - a.z))
        + t.z * ((b.x - a.x) * (c.y - a.y) - (b.y - a.y) * (c.x - a.x))| / 2 := by
  have h : ∀ x y z w : F, |x| = |w| → |y| = |w| → |z| = |w| → |x| / 6 + |y| / 6 + |z| / 6 = |w| / 2 := by
    intro x y z w h1 h2 h3
    rw [h1, h2, h3]; ring
  unfold volume4
  simp only [Vec.add]
  refine h _ _ _ _ ?_ ?_ ?_
  · rw [← abs_neg]; congr 1; ring
  · congr 1; ring
  · rw [← abs_neg]; congr 1; ring

end Verif.Ice

/-! ### The whole run -/

namespace Verif
variable {F R : Type} [Field F] [LinearOrder F]

/-- Only border marks and coordinates differ. -/
def SameTopo (g g' : Grid F R) : Prop :=
  ∃ p b c, g' = { g with nP := p, nBorder := b, borderCnt := c } ∧ ∀ n ∉ g.nodes, p n = g.nP n

theorem SameTopo.mesh {g g' : Grid F R} (h : SameTopo g g') (hm : Mesh g) : Mesh g' := by
  obtain ⟨p, b, c, rfl, -⟩ := h
  exact ⟨hm.1, hm.2, hm.3, hm.4, hm.5, hm.6, hm.7, hm.8, hm.9, hm.10, hm.11, hm.12, hm.13, hm.14, hm.15⟩

theorem calculateNsteps_marked (P : RemeshPar F) (g : Grid F R) (b : Nat → Bool) (c : Nat) :
    ({ g with nBorder := b, borderCnt := c } : Grid F R).calculateNsteps P = g.calculateNsteps P := rfl

theorem run_ok {P : RemeshPar F} {g : Grid F R} {r : Ice F R} (hm : Mesh g) (h : Ice.run P g = .ok r) :
    ∃ (k : Int) (ss : Nat → Ice F R), g.calculateNsteps P = .ok k ∧ P.pseudo2d = false ∧ IceSteps P g k.toNat ss r ∧
      (∀ i ≤ k.toNat, SameTopo g (ss i).g) ∧ r = { ss k.toNat with g := (ss k.toNat).g.faces.foldl (fun g f => g.setData f "Hi".toList 0) (ss k.toNat).g } := by
  unfold Ice.run at h
  obtain ⟨s0, h0, h⟩ := res_bind_eq_ok.1 h
  obtain ⟨hg, hst⟩ := Ice.start_ok h0
  obtain ⟨s1, e1⟩ : ∃ s1, s1 = (if P.nssFixNodes then { s0 with g := s0.g.markFixedNodes } else s0) := ⟨_, rfl⟩
  rw [← e1] at h
  have t1 : s1.target = s0.target ∧ s1.rest = s0.rest ∧ s1.actual = s0.actual := by rw [e1]; split_ifs <;> exact ⟨rfl, rfl, rfl⟩
  have g1 : ∃ b c, s1.g = { g with nBorder := b, borderCnt := c } := by
    rw [e1]
    split_ifs
    · obtain ⟨b, c, e⟩ := Grid.marks_frame (s0.g.borderEnds s0.g.edges) s0.g
      refine ⟨b, c, ?_⟩
      dsimp only
      rw [Grid.markFixed_eq, e, hg]
    · exact ⟨g.nBorder, g.borderCnt, hg⟩
  obtain ⟨b, c, g1⟩ := g1
  dsimp only at h
  obtain ⟨k, hk, h⟩ := res_bind_eq_ok.1 h
  rw [g1, calculateNsteps_marked] at hk
  cases hp : P.pseudo2d with
  | true =>
    rw [hp] at h
    simp only [if_true] at h
    split_ifs at h
  | false =>
    rw [hp] at h
    simp only [Bool.false_eq_true, if_false] at h
    obtain ⟨s2, h2, h⟩ := res_bind_eq_ok.1 h
    obtain ⟨ss, z0, zn, zs⟩ := Ice.fold_states h2
    have hr := (Except.ok.inj h).symm
    have htopo : ∀ i ≤ k.toNat, SameTopo g (ss i).g ∧ (ss i).target = s0.target := by
      intro i
      induction i with
      | zero =>
        intro _
        rw [z0]
        exact ⟨⟨g.nP, b, c, g1, fun _ _ => rfl⟩, t1.1⟩
      | succ i ih =>
        intro hi
        obtain ⟨ht, htt⟩ := ih (by omega)
        obtain ⟨⟨q, hq⟩, m2, m3, -⟩ := Ice.turn_ok (ht.mesh hm) (zs i (by omega))
        refine ⟨?_, m2.trans htt⟩
        obtain ⟨p', b', c', e', hn'⟩ := ht
        refine ⟨q, b', c', by rw [hq, e'], fun n hn => ?_⟩
        have := m3 n (by rw [e']; exact hn)
        rw [hq, e'] at this
        exact this.trans (hn' n hn)
    refine ⟨k, ss, hk, rfl, ⟨fun i hi f hf => ?_, fun f hf => ?_, fun f hf => ?_, ?_, fun i hi => ?_, ?_⟩, fun i hi => (htopo i hi).1, ?_⟩
    · rw [(htopo i hi).2]
      obtain ⟨a, ha, ht, -⟩ := hst f hf
      obtain ⟨t, htt, ha⟩ := res_bind_eq_ok.1 ha
      rw [ht, ← Except.ok.inj ha, triangle_area htt (hm.face_nodes f hf).1]
    · obtain ⟨a, ha, -, h1, -⟩ := hst f hf
      rw [z0, t1.1, t1.2.1, h1]
    · obtain ⟨a, ha, -, -, h1⟩ := hst f hf
      rw [z0, t1.2.2, h1]
    · rw [z0, g1]
    · have := zs i hi
      rwa [show ((k.toNat : Int) - i) = k - i from by omega]
    · rw [hr, zn]
      refine ⟨?_, rfl, rfl, rfl⟩
      dsimp only
      have : ∀ (l : List Nat) (g : Grid F R), (l.foldl (fun g f => g.setData f "Hi".toList 0) g).nP = g.nP := by
        intro l
        induction l with
        | nil => intro g; rfl
        | cons a l ih => intro g; rw [List.foldl_cons, ih]; rfl
      rw [this]
    · rw [hr, zn]

theorem run_remeshed {P : RemeshPar F} {g : Grid F R} {r : Ice F R} (hm : Mesh g) (h : Ice.run P g = .ok r) : Remeshed g r.g := by
  obtain ⟨k, ss, -, -, -, ht, hr⟩ := run_ok hm h
  obtain ⟨p, b, c, e, hp⟩ := ht k.toNat le_rfl
  rw [hr]
  dsimp only
  rw [e]
  dsimp only
  obtain ⟨D, eD, h1, h2⟩ := foldUpdP (f := fun (g : Grid F R) f => g.setData f "Hi".toList 0)
    (fun D => { g with nP := p, nBorder := b, borderCnt := c, fData := D }) (fun x _ => Py.dictSet x "Hi".toList 0)
    (by intro m a; rfl) hm.faces_nodup (m := g.fData)
  refine ⟨p, b, c, D, eD, hp, h2, fun f hf => ?_⟩
  rw [h1 f hf]
  refine ⟨Utils.dictGet?_set_self _ _ _, ?_, fun k hk => Utils.dictGet?_set_ne _ _ _ _ (Ne.symm hk)⟩
  rw [Utils.dictSet_keys]
  split_ifs
  · rw [List.append_nil]
  · rfl


/-! ### No ice -/

namespace Ice
variable [IsStrictOrderedRing F]

/-- Faces without ice have no height. -/
theorem faceShift_zero {sqrt : F → F} {s : Ice F R} {f : Nat} {h : F} (hf : faceShift sqrt s f = .ok h) (hc : s.chunk f = 0) : h = 0 := by
  unfold faceShift at hf
  obtain ⟨t, ht, hf⟩ := res_bind_eq_ok.1 hf
  rw [hc] at hf
  split_ifs at hf with h1 h2
  · exact absurd h2 (not_lt.2 (by positivity))
  · rw [← Except.ok.inj hf, zero_div]

theorem sum_zero {l : List Nat} {a : Nat → F} (h : ∀ f ∈ l, a f = 0) : (l.map a).sum = 0 := by
  rw [List.map_congr_left h]
  simp

/-- Nodes whose faces have no ice have no height. -/
theorem defineShifts_zero {sqrt : F → F} {s s' : Ice F R} (h : defineShifts sqrt s = .ok s') :
    (∀ f ∈ s.g.faces, s.chunk f = 0 → s'.fShift f = 0) ∧
      ∀ n ∈ s.g.nodes, (∀ f ∈ s.g.nFaces n, f ∈ s.g.faces ∧ s.chunk f = 0) → s'.nShift n = 0 := by
  obtain ⟨a, b, rfl, ha, hb⟩ := defineShifts_ok h
  refine ⟨fun f hf hc => faceShift_zero (ha f hf) hc, fun n hn hc => ?_⟩
  show b n = 0
  rw [(hb n hn).2.1, sum_zero fun f hf => faceShift_zero (ha f (hc f hf).1) (hc f hf).2, zero_div]

/-- The movement of nodes in a step. -/
theorem turn_moves {P : RemeshPar F} {n : Int} {s s' : Ice F R} (hm : Mesh s.g) (h : turn P n s = .ok s') :
    ∃ c s1 s2 s3 s4, (∀ f ∈ s.g.faces, c f = s.rest f / n) ∧ initDirs P.sqrt { s with chunk := c } = .ok s1 ∧ normalsSmoothing P s1 = .ok s2 ∧
      defineShifts P.sqrt s2 = .ok s3 ∧ heightsSmoothing P s3 = .ok s4 ∧ s1.g = s.g ∧ s2.g = s.g ∧ s3.g = s.g ∧ s4.g = s.g ∧
      s1.chunk = c ∧ s2.chunk = c ∧ s3.chunk = c ∧ s3.nDir = s2.nDir ∧ s4.nDir = s2.nDir ∧ s'.fShift = s4.fShift ∧
      ∀ k ∈ s.g.nodes, s'.g.nP k = (s.g.nP k).add ((s4.nDir k).smul (s4.nShift k)) := by
  unfold turn at h
  obtain ⟨s0, h0, h⟩ := res_bind_eq_ok.1 h
  obtain ⟨c, rfl, hc⟩ := calcChunks_ok h0
  obtain ⟨s1, s2, s3, s4, s5, s6, h1, h2, h3, h4, h5, h6, h7⟩ := step_ok h
  have q1 : s1.g = s.g ∧ s1.chunk = c := by obtain ⟨_, _, e, -⟩ := initDirs_ok h1; rw [e]; exact ⟨rfl, rfl⟩
  have q2 : s2.g = s1.g ∧ s2.chunk = s1.chunk := by obtain ⟨_, _, e⟩ := normalsSmoothing_ok h2; rw [e]; exact ⟨rfl, rfl⟩
  have q3 : s3.g = s2.g ∧ s3.chunk = s2.chunk ∧ s3.nDir = s2.nDir := by
    obtain ⟨_, _, e, -⟩ := defineShifts_ok h3; rw [e]; exact ⟨rfl, rfl, rfl⟩
  have hg3 : s3.g = s.g := q3.1.trans (q2.1.trans q1.1)
  have hm3 : Mesh s3.g := hg3 ▸ hm
  have q4 : s4.g = s3.g ∧ s4.nDir = s3.nDir := by
    obtain ⟨_, _, _, _, e, -⟩ := heightsSmoothing_ok hm3.faces_nodup (fun e he f hf => ((hm3.edge_face e he f).1 hf).1) h4
    rw [e]; exact ⟨rfl, rfl⟩
  obtain ⟨-, -, -, m, -⟩ := after_ok (q4.1 ▸ hm3) h5 h6 h7
  have hg4 : s4.g = s.g := q4.1.trans hg3
  rw [hg4] at m
  exact ⟨c, s1, s2, s3, s4, fun f hf => (hc f hf).2, h1, h2, h3, h4, q1.1, q2.1.trans q1.1, hg3, hg4, q1.2, q2.2.trans q1.2,
    q3.2.1.trans (q2.2.trans q1.2), q3.2.2, q4.2.trans q3.2.2, (after_chunk (q4.1 ▸ hm3) h5 h6 h7).2, m⟩

theorem add_zero_move (p d : Vec F) : p.add (d.smul 0) = p := by simp [Vec.add, Vec.smul]

/-- Without smoothing of heights, nodes whose faces have no ice stay. -/
theorem turn_still {P : RemeshPar F} {n : Int} {s s' : Ice F R} (hm : Mesh s.g) (h : turn P n s = .ok s') (hs : P.hsmoothSteps ≤ 0) {k : Nat}
    (hk : k ∈ s.g.nodes) (hf : ∀ f ∈ s.g.nFaces k, s.rest f = 0) : s'.g.nP k = s.g.nP k := by
  obtain ⟨c, s1, s2, s3, s4, hc, h1, h2, h3, h4, g1, g2, g3, g4, c1, c2, c3, -, -, -, m⟩ := turn_moves hm h
  rw [m k hk, smoothing_zero hs h4]
  have := (defineShifts_zero h3).2 k (by rw [g2]; exact hk) (by
    rw [g2]
    intro f hfk
    have hfs := ((hm.node_face k hk f).1 hfk).1
    refine ⟨hfs, ?_⟩
    rw [c2, hc f hfs, hf f hfk, zero_div])
  rw [this, add_zero_move]

/-- A face without ice to grow never gets any. -/
theorem turn_rest_zero {P : RemeshPar F} {n : Int} {s s' : Ice F R} (hm : Mesh s.g) (h : turn P n s = .ok s') {f : Nat} (hf : f ∈ s.g.faces)
    (h0 : s.rest f = 0) : s'.rest f = 0 := by
  obtain ⟨-, -, -, -, m⟩ := turn_ok hm h
  rw [(m f hf).2.2.2, h0]
  have := grown_nonneg s.g s'.g f
  split_ifs with h1 h2
  · rfl
  · linarith
  · rfl

theorem foldlM_zero {A S : Type} {f : S → A → Res S} {l : List A} {s s' : S} (h : l.foldlM f s = .ok s') (I : S → Prop) (h0 : I s)
    (hs : ∀ a ∈ l, ∀ s s', I s → f s a = .ok s' → I s') : I s' :=
  foldlM_partial f l (fun _ s => I s) _ _ h h0 (fun pre a post t t' hl hi ht => hs a (by rw [hl]; simp) t t' hi ht)

/-- Nothing to smooth. -/
structure NoIce (s : Ice F R) (g : Grid F R) : Prop where
  grid : s.g = g
  chunk : ∀ f ∈ g.faces, s.chunk f = 0
  fShift : ∀ f ∈ g.faces, s.fShift f = 0
  nShift : ∀ n ∈ g.nodes, s.nShift n = 0

theorem max_zero {l : List Nat} {a : Nat → F} (h : ∀ f ∈ l, a f = 0) {m : F} (hm : Py.maximum (l.map a) = .ok m) : m = 0 := by
  cases l with
  | nil => cases hm
  | cons x l =>
    rw [List.map_congr_left h] at hm
    obtain rfl := Except.ok.inj hm
    clear h hm
    induction l with
    | nil => rfl
    | cons y l ih => simpa using ih

theorem defineShifts_noIce {sqrt : F → F} {s s' : Ice F R} (hm : Mesh s.g) (h : defineShifts sqrt s = .ok s')
    (hc : ∀ f ∈ s.g.faces, s.chunk f = 0) : NoIce s' s.g := by
  obtain ⟨h1, h2⟩ := defineShifts_zero h
  have e : s'.g = s.g ∧ s'.chunk = s.chunk := by obtain ⟨_, _, e, -⟩ := defineShifts_ok h; rw [e]; exact ⟨rfl, rfl⟩
  refine ⟨e.1, fun f hf => by rw [e.2]; exact hc f hf, fun f hf => h1 f hf (hc f hf), fun n hn => h2 n hn fun f hf => ?_⟩
  have := ((hm.node_face n hn f).1 hf).1
  exact ⟨this, hc f this⟩

theorem smoothEdge_zero {P : RemeshPar F} {s s' : Ice F R} {e : Nat} (hf : ∀ f ∈ s.g.eFaces e, s.fShift f = 0)
    (h : smoothEdge P 0 s e = .ok s') : s' = s := by
  have key : ∀ x y : Nat, upd (upd s.loc x (s.loc x - 0)) y (upd s.loc x (s.loc x - 0) y + 0) = s.loc := by
    intro x y
    have h1 : upd s.loc x (s.loc x - 0) = s.loc := by funext k; simp only [upd_apply]; split_ifs with hk <;> simp [hk]
    rw [h1]
    funext k; simp only [upd_apply]; split_ifs with hk <;> simp [hk]
  unfold smoothEdge at h
  split at h
  · rename_i x y hxy
    rw [hxy] at hf
    have hx := hf x (by simp)
    have hy := hf y (by simp)
    simp only [hx, hy, lt_irrefl, if_false, if_true, sub_self, mul_zero, min_self, zero_mul, key] at h
    obtain ⟨a, -, h⟩ := res_bind_eq_ok.1 h
    exact (Except.ok.inj h).symm
  · exact (Except.ok.inj h).symm

theorem heightsTurn_zero {P : RemeshPar F} {s s' : Ice F R} {g : Grid F R} (hm : Mesh g) (h0 : NoIce s g) (h : heightsTurn P s = .ok s') :
    NoIce s' g := by
  obtain ⟨rfl, hc, hf, -⟩ := h0
  unfold heightsTurn at h
  obtain ⟨l0, e0, h0, -⟩ := foldUpdP (f := fun s f => { s with loc := upd s.loc f (s.chunk f) }) (fun m => { s with loc := m })
    (fun _ f => s.chunk f) (by intro m a; rfl) hm.faces_nodup (m := s.loc)
  rw [show s = { s with loc := s.loc } from rfl, e0] at h
  dsimp only at h
  obtain ⟨maxH, hM, h⟩ := res_bind_eq_ok.1 h
  obtain rfl := max_zero hf hM
  obtain ⟨s1, h1, h⟩ := res_bind_eq_ok.1 h
  have e1 : s1 = { s with loc := l0 } := foldlM_zero h1 (fun t => t = { s with loc := l0 }) rfl (by
    rintro e he t t' rfl ht
    exact smoothEdge_zero (fun f hfe => hf f ((hm.edge_face e he f).1 hfe).1) ht)
  rw [e1] at h
  obtain ⟨c2, e2, h2, -⟩ := foldUpdP (f := fun s f => { s with chunk := upd s.chunk f (s.loc f) }) (fun m => { s with loc := l0, chunk := m })
    (fun _ f => l0 f) (by intro m a; rfl) hm.faces_nodup (m := s.chunk)
  dsimp only at h
  rw [e2] at h
  have hz : ∀ f ∈ s.g.faces, c2 f = 0 := fun f hf => by rw [h2 f hf, h0 f hf]; exact hc f hf
  have key := defineShifts_noIce (by exact hm) h (by exact hz)
  exact key

/-- Without ice nothing moves. -/
theorem turn_still_all {P : RemeshPar F} {n : Int} {s s' : Ice F R} (hm : Mesh s.g) (h : turn P n s = .ok s')
    (hf : ∀ f ∈ s.g.faces, s.rest f = 0) : s'.g.nP = s.g.nP := by
  obtain ⟨-, -, m0, -, -⟩ := turn_ok hm h
  obtain ⟨c, s1, s2, s3, s4, hc, h1, h2, h3, h4, g1, g2, g3, g4, c1, c2, c3, -, -, -, m⟩ := turn_moves hm h
  have n3 : NoIce s3 s2.g := defineShifts_noIce (by rw [g2]; exact hm) h3 (by
    rw [g2, c2]
    intro f hfs
    rw [hc f hfs, hf f hfs, zero_div])
  have n4 : NoIce s4 s2.g := foldlM_zero h4 (fun t => NoIce t s2.g) n3 (fun _ _ t t' ht h => heightsTurn_zero (by rw [g2]; exact hm) ht h)
  funext k
  by_cases hk : k ∈ s.g.nodes
  · rw [m k hk, n4.nShift k (by rw [g2]; exact hk), add_zero_move]
  · exact m0 k hk

end Ice
end Verif
