import Verif.Proofs.Drops
import Verif.Props.Geom
import Mathlib.Analysis.SpecialFunctions.Pow.Real

/-! Properties of the flight of droplets and of the secondary impingement. -/

namespace Verif.Props
open Verif
variable {F R : Type}

section
variable [Field F] [LinearOrder F] [IsStrictOrderedRing F]

/-! ### C62: the nearest point of the velocity field -/

/-- `find_nearest` returns a point of the field with its velocity, and no point of the field is nearer. -/
theorem C62_nearest {sqrt : F → F} (hs : ∀ x y, 0 ≤ x → x < y → sqrt x < sqrt y) {ds : List (Vec F × Vec F)} {s : Space F}
    (h : Space.make ds = .ok s) (p : Vec F) : ∃ w, s.findNearest sqrt p = .ok w ∧ w ∈ ds ∧
      ∀ e ∈ ds, (w.1.x - p.x) ^ 2 + (w.1.y - p.y) ^ 2 + (w.1.z - p.z) ^ 2 ≤
        (e.1.x - p.x) ^ 2 + (e.1.y - p.y) ^ 2 + (e.1.z - p.z) ^ 2 := by
  obtain ⟨rfl, hne, -⟩ := make_ok h
  obtain ⟨w, h1, h2, h3⟩ := findNearest_ok (sqrt := sqrt) hne p
  refine ⟨w, h1, h2, fun e he => ?_⟩
  by_contra hlt
  refine absurd (h3 e he) (not_le.2 ?_)
  have := hs _ _ (by positivity) (not_le.1 hlt)
  simpa only [Vec.mod, Vec.mod2, Vec.dot, Vec.sub, pow_two] using this

/-- An empty field is rejected. -/
theorem C62_empty : Space.make ([] : List (Vec F × Vec F)) = .error .value := rfl

/-! ### C46: the flight of a droplet -/

/-- The flight ends: for a droplet of positive diameter it returns a result or raises the division by zero of C47. -/
theorem C46_terminates {sqrt : F → F} {pow : F → F → F} {round10 : F → F} (hs : ∀ x, 0 ≤ sqrt x) {d : F} (hd : 0 < d) {ts : List (Tri F)}
    {cloud : Cloud F} (hc : Cloud.ofList ts = .ok cloud) {ds : List (Vec F × Vec F)} {s : Space F} (h : Space.make ds = .ok s)
    (p vel : Vec F) (dt : F) (maxSteps : Int) :
    (∃ r, fly sqrt pow round10 s p vel d dt cloud maxSteps = .ok r) ∨
      fly sqrt pow round10 s p vel d dt cloud maxSteps = .error .zeroDiv :=
  flyLoop_total (fun p q => (C43_search hc p q).imp fun _ h => h.1) hs hd (by obtain ⟨rfl, hne, -⟩ := make_ok h; exact hne) _ _ _ _
    (by simp) (Nat.succ_pos _)

/-- The result of a flight is truthful, see `Ended`. -/
theorem C46_flight {sqrt : F → F} {pow : F → F → F} {round10 : F → F} {ts : List (Tri F)} {cloud : Cloud F}
    (hc : Cloud.ofList ts = .ok cloud) {s : Space F} {p vel : Vec F} {d dt : F} {maxSteps : Int} {r : Flight F}
    (h : fly sqrt pow round10 s p vel d dt cloud maxSteps = .ok r) :
    ∃ states, Ended sqrt pow round10 s d dt ts maxSteps r ((p, vel) :: states) := by
  refine flyLoop_ended (fun p q r hr => ?_) _ [] p vel [] r h (by simp) rfl (List.isChain_singleton _) (by simp) ?_
  · obtain ⟨r', e, h⟩ := C43_search (round10 := round10) hc p q
    rw [hr] at e
    obtain rfl := Except.ok.inj e
    exact h
  · intro pre a b q e
    have := congrArg List.length e
    simp at this
    omega

/-- Missing for C46: segments that are nearly parallel to a triangle or very short, see `C46_small_violation`. No segment of the
trajectory except the last one of a flight that ends with 'C' meets a triangle, if it spans a volume of 1e-10 or more with it. -/
theorem C46_clear_partial {sqrt : F → F} {pow : F → F → F} {round10 : F → F} {ts : List (Tri F)} {cloud : Cloud F}
    (hc : Cloud.ofList ts = .ok cloud) {s : Space F} {p vel : Vec F} {d dt : F} {maxSteps : Int} {r : Flight F}
    (h : fly sqrt pow round10 s p vel d dt cloud maxSteps = .ok r) {pre post : List (Vec F)} {a b : Vec F}
    (hr : r.points = pre ++ a :: b :: post) (hl : r.status = 'C' → post ≠ []) {t : Tri F} (ht : t ∈ ts)
    (hv : 1 / 10 ^ 10 ≤ |volume t a b|) : ¬ Meets t a b := by
  rintro ⟨x, hx⟩
  obtain ⟨st, hE⟩ := C46_flight hc h
  have h0 := hE.clear pre a b post hr hl t ht ⟨x, hx⟩
  have := ((C45_exact_partial (round10 := round10) hv).2 x).2 hx
  rw [h0] at this
  cases this

/-! ### C47: the step of a droplet -/

/-- Missing for C47: equal velocities, see `C47_equal_velocities_violation`. Otherwise the step returns the point moved with the
old velocity and a velocity changed towards that of the air. -/
theorem C47_step_partial {sqrt : F → F} {pow : F → F → F} (hs : ∀ x, 0 ≤ sqrt x) (hs0 : ∀ x, 0 < x → 0 < sqrt x)
    (hp : ∀ x y, 0 ≤ x → 0 ≤ pow x y) {d : F} (hd : 0 < d) (p : Vec F) {v vAir : Vec F} (hv : v ≠ vAir) (dt : F) :
    ∃ k, 0 ≤ k ∧ flyStep sqrt pow p v vAir d dt = .ok (⟨p.x + v.x * dt, p.y + v.y * dt, p.z + v.z * dt⟩,
      ⟨v.x + (vAir.x - v.x) * k * dt, v.y + (vAir.y - v.y) * k * dt, v.z + (vAir.z - v.z) * k * dt⟩) := by
  have hne : (v.sub vAir).mod sqrt ≠ 0 := by
    refine (hs0 _ ?_).ne'
    simp only [Vec.mod2, Vec.dot, Vec.sub]
    by_contra hn
    apply hv
    have h1 := mul_self_nonneg (v.x - vAir.x)
    have h2 := mul_self_nonneg (v.y - vAir.y)
    have h3 := mul_self_nonneg (v.z - vAir.z)
    have e1 : v.x - vAir.x = 0 := mul_self_eq_zero.1 (by linarith)
    have e2 : v.y - vAir.y = 0 := mul_self_eq_zero.1 (by linarith)
    have e3 : v.z - vAir.z = 0 := mul_self_eq_zero.1 (by linarith)
    obtain ⟨x, y, z⟩ := v
    obtain ⟨x', y', z'⟩ := vAir
    simp only at e1 e2 e3
    rw [sub_eq_zero.1 e1, sub_eq_zero.1 e2, sub_eq_zero.1 e3]
  rcases flyStep_cases (pow := pow) hs hd p v vAir dt with ⟨⟨fp, v'⟩, h⟩ | ⟨h, -⟩
  · obtain ⟨k, hk, e⟩ := flyStep_eq hs hp hd h
    exact ⟨k, hk, h.trans (by rw [e]; rfl)⟩
  · exact absurd h hne

/-- A droplet that moves exactly as the air around it: division by zero. -/
theorem C47_equal_velocities_violation {sqrt : F → F} (h0 : sqrt 0 = 0) (pow : F → F → F) (p v : Vec F) (d dt : F) :
    flyStep sqrt pow p v v d dt = .error .zeroDiv := by
  have : (v.sub v).mod sqrt = 0 := by simp [Vec.mod, Vec.mod2, Vec.dot, Vec.sub, h0]
  unfold flyStep
  rw [this]
  norm_num
end

/-! ### C48: secondary impingement -/

section
variable [Field F] [LinearOrder F] [IsStrictOrderedRing F]

/-- A droplet lands on a face of the grid. -/
theorem C48_target {P : Grid.DropsPar F} {g : Grid F R} {tris : List (Tri F)} {cloud : Cloud F} (ht : g.faces.mapM g.triangle = .ok tris)
    (hc : Cloud.ofList tris = .ok cloud) {air : Space F} {f h : Nat} (hl : landing P air cloud g f = some h) : h ∈ g.faces := by
  unfold landing at hl
  split_ifs at hl
  cases hr : g.dropFlight P air cloud f with
  | error e => rw [hr] at hl; cases hl
  | ok r =>
    rw [hr] at hl
    dsimp only at hl
    split_ifs at hl with hC
    unfold Grid.dropFlight at hr
    obtain ⟨t, -, hr⟩ := res_bind_eq_ok.1 hr
    obtain ⟨n, -, hr⟩ := res_bind_eq_ok.1 hr
    obtain ⟨st, hE⟩ := C46_flight hc hr
    rcases hE.status with ⟨e, -⟩ | ⟨e, -⟩ | ⟨e, -⟩ | ⟨-, _, _, _, t, -, htm, -, hf⟩
    · rw [hC] at e; exact absurd e (by decide)
    · rw [hC] at e; exact absurd e (by decide)
    · rw [hC] at e; exact absurd e (by decide)
    · obtain ⟨k, hk, e⟩ := triangles_back ht htm
      rw [hl, e] at hf
      rw [Option.some.inj hf]
      exact hk

/-- After `drops` the value `MImp2` of a face is the stall of the last face whose droplet landed on it, divided by the area; faces
on which none landed keep their value. -/
theorem C48_last_wins {P : Grid.DropsPar F} {ds : List (Vec F × Vec F)} {g g' : Grid F R} (h3 : ∀ f ∈ g.faces, (g.fNodes f).length = 3)
    (h : g.drops P ds = .ok g') : ∃ tris cloud air, g.faces.mapM g.triangle = .ok tris ∧ Cloud.ofList tris = .ok cloud ∧
      Space.make ds = .ok air ∧ ∀ k, g'.getData 0 k "MImp2".toList = caught P air cloud g g.faces k := by
  obtain ⟨tris, cloud, air, h1, h2, h4, g1, h5, h6⟩ := drops_ok h
  refine ⟨tris, cloud, air, h1, h2, h4, fun k => ?_⟩
  rw [h6.get k, (dropFaces_ok (fun f _ h hl => h3 h (C48_target h1 h2 hl)) h5).2.1]

/-- Missing for C48: several droplets on one face, see `C48_overwritten_violation`, and water from before. If no two droplets land
on the same face and there was no water before, then the water on the faces is the stall of the faces whose droplets landed. -/
theorem C48_mass_partial {P : Grid.DropsPar F} {ds : List (Vec F × Vec F)} {g g' : Grid F R} (hn : g.faces.Nodup)
    (h3 : ∀ f ∈ g.faces, (g.fNodes f).length = 3) (h0 : ∀ f ∈ g.faces, g.getData 0 f "MImp2".toList = 0)
    (h : g.drops P ds = .ok g') : ∃ tris cloud air, g.faces.mapM g.triangle = .ok tris ∧ Cloud.ofList tris = .ok cloud ∧
      Space.make ds = .ok air ∧
      ((∀ f ∈ g.faces, ∀ f' ∈ g.faces, landing P air cloud g f ≠ none → landing P air cloud g f = landing P air cloud g f' → f = f') →
        water P.sqrt g' = landed P air cloud g) := by
  obtain ⟨tris, cloud, air, h1, h2, h4, g1, h5, h6⟩ := drops_ok h
  refine ⟨tris, cloud, air, h1, h2, h4, fun hinj => ?_⟩
  obtain ⟨k1, k2, k3⟩ := dropFaces_ok (fun f _ h hl => h3 h (C48_target h1 h2 hl)) h5
  rw [water_eq k1 h6 k2]
  unfold landed
  rw [← sum_landed hn _ (fun f _ h hl => C48_target h1 h2 hl)]
  refine congrArg List.sum (List.map_congr_left fun k hk => ?_)
  rw [caught_one hn hinj (fun f hf => k3 f hf k) (h0 k hk)]

/-- In any case there is no more water on the faces than the stall of the faces whose droplets landed. -/
theorem C48_no_more {P : Grid.DropsPar F} (hthr : 0 ≤ P.stallThr) {ds : List (Vec F × Vec F)} {g g' : Grid F R} (hn : g.faces.Nodup)
    (h3 : ∀ f ∈ g.faces, (g.fNodes f).length = 3) (h0 : ∀ f ∈ g.faces, g.getData 0 f "MImp2".toList = 0)
    (h : g.drops P ds = .ok g') : ∃ tris cloud air, g.faces.mapM g.triangle = .ok tris ∧ Cloud.ofList tris = .ok cloud ∧
      Space.make ds = .ok air ∧ water P.sqrt g' ≤ landed P air cloud g := by
  obtain ⟨tris, cloud, air, h1, h2, h4, g1, h5, h6⟩ := drops_ok h
  refine ⟨tris, cloud, air, h1, h2, h4, ?_⟩
  obtain ⟨k1, k2, k3⟩ := dropFaces_ok (fun f _ h hl => h3 h (C48_target h1 h2 hl)) h5
  rw [water_eq k1 h6 k2]
  unfold landed
  rw [← sum_landed hn _ (fun f _ h hl => C48_target h1 h2 hl)]
  refine List.sum_le_sum fun k hk => ?_
  exact caught_le hthr (fun f hf => k3 f hf k) (h0 k hk)

end

/-! Samples -/

/-- A triangle with sides of 0.1 mm at the height 0. -/
noncomputable def tiny : Tri ℝ := ⟨0, ⟨0, 0, 0⟩, ⟨1 / 10 ^ 4, 0, 0⟩, ⟨0, 1 / 10 ^ 4, 0⟩, some 0⟩

/-- A large triangle 0.2 mm below. -/
noncomputable def large : Tri ℝ := ⟨1, ⟨-10, -10, -2 / 10 ^ 4⟩, ⟨10, -10, -2 / 10 ^ 4⟩, ⟨0, 10, -2 / 10 ^ 4⟩, some 1⟩

/-- Air with the velocity `u` above and `v` below. -/
noncomputable def wind (u v : Vec ℝ) : List (Vec ℝ × Vec ℝ) := [(⟨-1, -1, 1⟩, u), (⟨1, 1, -1⟩, v)]

theorem wind_make (u v : Vec ℝ) : Space.make (wind u v) = .ok ⟨wind u v, ⟨-1, -1, -1, 1, 1, 1⟩⟩ := by
  norm_num [Space.make, wind, Box.ofPoints, Py.minimum, Py.maximum, res_bind_ok]

theorem wind_nearest (u v p : Vec ℝ) : (p.x + p.y < p.z → Space.findNearest Real.sqrt ⟨wind u v, ⟨-1, -1, -1, 1, 1, 1⟩⟩ p =
      .ok (⟨-1, -1, 1⟩, u)) ∧
    (p.z < p.x + p.y → Space.findNearest Real.sqrt ⟨wind u v, ⟨-1, -1, -1, 1, 1, 1⟩⟩ p = .ok (⟨1, 1, -1⟩, v)) := by
  obtain ⟨w, h1, h2, h3⟩ := C62_nearest (sqrt := Real.sqrt) (fun x y hx h => Real.sqrt_lt_sqrt hx h) (wind_make u v) p
  have ha := h3 (⟨-1, -1, 1⟩, u) (by simp [wind])
  have hb := h3 (⟨1, 1, -1⟩, v) (by simp [wind])
  simp only [wind, List.mem_cons, List.not_mem_nil, or_false] at h2
  constructor
  · intro hp
    rw [h1]
    rcases h2 with rfl | rfl
    · rfl
    · exfalso; simp only at ha; nlinarith
  · intro hp
    rw [h1]
    rcases h2 with rfl | rfl
    · exfalso; simp only at hb; nlinarith
    · rfl

theorem test_nil {round10 : ℝ → ℝ} {t : Tri ℝ} {p q : Vec ℝ} (h0 : volume t p q ≠ 0) (h : ¬ Meets t p q) :
    t.intersectSegment round10 p q = [] := by
  by_cases hv : 1 / 10 ^ 10 ≤ |volume t p q|
  · rw [List.eq_nil_iff_forall_not_mem]
    intro x hx
    exact h ⟨x, ((C45_exact_partial hv).2 x).1 hx⟩
  · exact C45_small h0 (not_le.1 hv)

/-- A level triangle is not met by a segment above or below it. -/
theorem not_meets_level {t : Tri ℝ} {c : ℝ} (ha : t.a.z = c) (hb : t.b.z = c) (hc : t.c.z = c) {p q : Vec ℝ}
    (h : (c < p.z ∧ c < q.z) ∨ (p.z < c ∧ q.z < c)) : ¬ Meets t p q := by
  rintro ⟨x, ⟨k, hk0, hk1, rfl⟩, u, v, w, hu, hv, hw, hs, e⟩
  have e3 := congrArg Vec.z e
  simp only [ha, hb, hc] at e3
  have e4 : u * c + v * c + w * c = c := by rw [← add_mul, ← add_mul, hs, one_mul]
  rw [e4] at e3
  have e5 : (1 - k) * (p.z - c) + k * (q.z - c) = 0 := by linear_combination e3
  rcases h with ⟨h1, h2⟩ | ⟨h1, h2⟩
  · rcases hk0.eq_or_lt with rfl | hk
    · linarith
    · nlinarith [mul_nonneg (sub_nonneg.2 hk1) (sub_pos.2 h1).le, mul_pos hk (sub_pos.2 h2)]
  · rcases hk0.eq_or_lt with rfl | hk
    · linarith
    · nlinarith [mul_nonneg (sub_nonneg.2 hk1) (sub_pos.2 h1).le, mul_pos hk (sub_pos.2 h2)]

/-- A droplet flies downwards through the small triangle and lands on the large one: the small one is not noticed. -/
theorem C46_small_violation (round10 : ℝ → ℝ) : ∃ (ts : List (Tri ℝ)) (cloud : Cloud ℝ) (s : Space ℝ) (p vel : Vec ℝ) (r : Flight ℝ),
    Cloud.ofList ts = .ok cloud ∧
    fly Real.sqrt (fun x y => x ^ y) round10 s p vel (1 / 10 ^ 5) (1 / 10 ^ 4) cloud 10 = .ok r ∧ r.status = 'C' ∧
    ∃ a b c, r.points = [a, b, c] ∧ ∃ t ∈ ts, Meets t a b ∧ some t.id ≠ r.face := by
  obtain ⟨cloud, us, hc, -, -⟩ := C42_cloud (ts := [tiny, large]) (by simp)
  obtain ⟨x0, hx0⟩ : ∃ x0 : ℝ, x0 = 1 / (3 * 10 ^ 4) := ⟨_, rfl⟩
  have hx1 : 0 < x0 ∧ x0 < 1 := by rw [hx0]; norm_num
  obtain ⟨hx1, hx2⟩ := hx1
  have step : ∀ (p v vAir : Vec ℝ), v ≠ vAir → ∃ k, 0 ≤ k ∧ flyStep Real.sqrt (fun x y : ℝ => x ^ y) p v vAir (1 / 10 ^ 5) (1 / 10 ^ 4) =
      .ok (⟨p.x + v.x * (1 / 10 ^ 4), p.y + v.y * (1 / 10 ^ 4), p.z + v.z * (1 / 10 ^ 4)⟩,
        ⟨v.x + (vAir.x - v.x) * k * (1 / 10 ^ 4), v.y + (vAir.y - v.y) * k * (1 / 10 ^ 4), v.z + (vAir.z - v.z) * k * (1 / 10 ^ 4)⟩) :=
    fun p v vAir hv => C47_step_partial Real.sqrt_nonneg (fun x hx => Real.sqrt_pos.2 hx) (fun x y hx => Real.rpow_nonneg hx y)
      (by positivity) p hv _
  obtain ⟨k, hk, h1⟩ := step ⟨x0, x0, 1 / 10 ^ 4⟩ ⟨0, 0, -2⟩ ⟨0, 0, -3⟩ (by simp)
  obtain ⟨w, hw⟩ : ∃ w, w = -2 - k / 10 ^ 4 := ⟨_, rfl⟩
  have hw2 : w ≤ -2 := by rw [hw]; have : 0 ≤ k / 10 ^ 4 := by positivity
                          linarith
  obtain ⟨k2, -, h2⟩ := step ⟨x0, x0, -1 / 10 ^ 4⟩ ⟨0, 0, w⟩ ⟨1, 0, 0⟩ (by simp)
  have e1 : flyStep Real.sqrt (fun x y : ℝ => x ^ y) ⟨x0, x0, 1 / 10 ^ 4⟩ ⟨0, 0, -2⟩ ⟨0, 0, -3⟩ (1 / 10 ^ 5) (1 / 10 ^ 4) =
      .ok (⟨x0, x0, -1 / 10 ^ 4⟩, ⟨0, 0, w⟩) := by
    rw [h1, hw]; congr 3 <;> norm_num <;> ring
  obtain ⟨z, hz⟩ : ∃ z, z = -1 / 10 ^ 4 + w * (1 / 10 ^ 4) := ⟨_, rfl⟩
  simp only [zero_mul, add_zero, ← hz] at h2
  have hz3 : z ≤ -3 / 10 ^ 4 := by rw [hz]; linarith
  -- first turn
  obtain ⟨o, f1, f2, f3⟩ := C43_search (round10 := round10) hc ⟨x0, x0, 1 / 10 ^ 4⟩ ⟨x0, x0, -1 / 10 ^ 4⟩
  have ho : o = none := by
    cases o with
    | none => rfl
    | some t =>
      exfalso
      obtain ⟨ht, hh⟩ := f2 t rfl
      simp only [List.mem_cons, List.not_mem_nil, or_false] at ht
      rcases ht with rfl | rfl
      · refine hh (C45_small ?_ ?_)
        · simp only [volume, tiny]; norm_num
        · simp only [volume, tiny]; norm_num [abs_of_pos]
      · refine hh (test_nil ?_ (not_meets_level (c := -2 / 10 ^ 4) rfl rfl rfl (Or.inl ?_)))
        · simp only [volume, large]; norm_num
        · norm_num
  -- second turn
  obtain ⟨o', f1', f2', f3'⟩ := C43_search (round10 := round10) hc ⟨x0, x0, -1 / 10 ^ 4⟩ ⟨x0, x0, z⟩
  have ho' : o' = some large := by
    have hv : 1 / 10 ^ 10 ≤ |volume large ⟨x0, x0, -1 / 10 ^ 4⟩ ⟨x0, x0, z⟩| := by
      simp only [volume, large]
      rw [abs_of_nonneg] <;> norm_num <;> linarith
    have hm : Meets large ⟨x0, x0, -1 / 10 ^ 4⟩ ⟨x0, x0, z⟩ := by
      have hd : 0 < -1 / 10 ^ 4 - z := by linarith
      refine ⟨⟨x0, x0, -2 / 10 ^ 4⟩, ⟨1 / 10 ^ 4 / (-1 / 10 ^ 4 - z), by positivity, ?_, ?_⟩, (10 - 3 * x0) / 40, (10 + x0) / 40,
        (10 + x0) / 20, by linarith, by linarith, by linarith, by ring, ?_⟩
      · rw [div_le_one hd]; linarith
      · have : 1 / 10 ^ 4 / (-1 / 10 ^ 4 - z) * (z - -1 / 10 ^ 4) = -1 / 10 ^ 4 := by
          rw [div_mul_eq_mul_div, div_eq_iff hd.ne']; ring
        rw [this]
        simp
        norm_num
      · simp only [large]
        congr 1 <;> ring
    cases o' with
    | none =>
      exfalso
      have h0 := f3' rfl large (by simp) hm
      obtain ⟨x, hx⟩ := hm
      have := ((C45_exact_partial (round10 := round10) hv).2 x).2 hx
      rw [h0] at this
      cases this
    | some t =>
      obtain ⟨ht, hh⟩ := f2' t rfl
      simp only [List.mem_cons, List.not_mem_nil, or_false] at ht
      rcases ht with rfl | rfl
      · exfalso
        refine hh (test_nil ?_ (not_meets_level (c := 0) rfl rfl rfl (Or.inr ?_)))
        · simp only [volume, tiny]
          norm_num
          intro h
          linarith
        · constructor <;> norm_num; linarith
      · rfl
  subst ho ho'
  refine ⟨[tiny, large], cloud, ⟨wind ⟨0, 0, -3⟩ ⟨1, 0, 0⟩, ⟨-1, -1, -1, 1, 1, 1⟩⟩, ⟨x0, x0, 1 / 10 ^ 4⟩, ⟨0, 0, -2⟩,
    ⟨'C', some 1, [⟨x0, x0, 1 / 10 ^ 4⟩, ⟨x0, x0, -1 / 10 ^ 4⟩, ⟨x0, x0, z⟩]⟩, hc, ?_, rfl, _, _, _, rfl, tiny, by simp, ?_, by simp [tiny]⟩
  · unfold fly
    rw [show (Int.toNat 10 + 1) = 10 + 1 from rfl]
    rw [flyLoop_turn 10 (pre := []) (maxSteps := 10) (by simp) ?_ ((wind_nearest _ _ _).1 ?_) e1 ?_ f1]
    · dsimp only
      rw [flyLoop_turn 9 (by simp) ?_ ((wind_nearest _ _ _).2 ?_) h2 ?_ f1']
      · rfl
      · simp only [InBox]; norm_num; constructor <;> linarith
      · simp only; norm_num; linarith
      · simp only [Vec.distTo, Vec.mod, Vec.sub, Vec.mod2, Vec.dot]
        apply Real.le_sqrt_of_sq_le
        nlinarith
    · simp only [InBox]; norm_num; constructor <;> linarith
    · simp only; rw [hx0]; norm_num
    · simp only [Vec.distTo, Vec.mod, Vec.sub, Vec.mod2, Vec.dot]
      apply Real.le_sqrt_of_sq_le
      norm_num
  · refine ⟨⟨1 / (3 * 10 ^ 4), 1 / (3 * 10 ^ 4), 0⟩, ⟨1 / 2, by norm_num, by norm_num, by simp [hx0]; norm_num⟩,
      ⟨1 / 3, 1 / 3, 1 / 3, by norm_num, by norm_num, by norm_num, by norm_num, by simp [tiny]; norm_num⟩⟩

/-- The data of a face of a grid in STALL format. -/
noncomputable def stallData (stall : ℝ) : List (Str × ℝ) :=
  [("Stall".toList, stall), ("StallD".toList, 1 / 10 ^ 5), ("StallVX".toList, 0), ("StallVY".toList, 0), ("StallVZ".toList, 1),
    ("MImp2".toList, 0)]

/-- Two faces at the height 0, the first one wet, the second one with the given stall, and a dry one above them. -/
noncomputable def porch (s : ℝ) : Grid ℝ Unit :=
  { (Grid.empty : Grid ℝ Unit) with
    faces := [0, 1, 2]
    fNodes := fun f => [3 * f, 3 * f + 1, 3 * f + 2]
    nP := fun n => match n with
      | 0 => ⟨0, 0, 0⟩ | 1 => ⟨1, 0, 0⟩ | 2 => ⟨0, 1, 0⟩
      | 3 => ⟨0, 0, 0⟩ | 4 => ⟨0, 1, 0⟩ | 5 => ⟨-1, 0, 0⟩
      | 6 => ⟨-10, -10, 1 / 2⟩ | 7 => ⟨10, -10, 1 / 2⟩ | _ => ⟨0, 10, 1 / 2⟩
    fData := fun f => match f with
      | 0 => stallData 1 | 1 => stallData s | _ => stallData 0 }

noncomputable def porchPar (round10 : ℝ → ℝ) : Grid.DropsPar ℝ := ⟨Real.sqrt, fun x y => x ^ y, round10, 1 / 10, 1, 1 / 10 ^ 6, 200⟩

/-- The triangles of its faces. -/
noncomputable def porchTris : List (Tri ℝ) := [⟨0, ⟨0, 0, 0⟩, ⟨1, 0, 0⟩, ⟨0, 1, 0⟩, some 0⟩,
  ⟨1, ⟨0, 0, 0⟩, ⟨0, 1, 0⟩, ⟨-1, 0, 0⟩, some 1⟩, ⟨2, ⟨-10, -10, 1 / 2⟩, ⟨10, -10, 1 / 2⟩, ⟨0, 10, 1 / 2⟩, some 2⟩]

/-- A droplet that starts between the faces and flies upwards lands on the upper face. -/
theorem porch_up {round10 : ℝ → ℝ} {cloud : Cloud ℝ} (hc : Cloud.ofList porchTris = .ok cloud) {x y : ℝ} (hx : |x| ≤ 1) (hy : |y| ≤ 1)
    (hxy : x + y ≠ 1 / 10) : ∃ pts, fly Real.sqrt (fun x y => x ^ y) round10 ⟨wind ⟨0, 0, 0⟩ ⟨0, 0, 0⟩, ⟨-1, -1, -1, 1, 1, 1⟩⟩ ⟨x, y, 1 / 10⟩
      ⟨0, 0, 1⟩ (1 / 10 ^ 5) 1 cloud 200 = .ok ⟨'C', some 2, pts⟩ := by
  rw [abs_le] at hx hy
  obtain ⟨k, hk, h1⟩ := C47_step_partial (sqrt := Real.sqrt) (pow := fun x y : ℝ => x ^ y) Real.sqrt_nonneg
    (fun x hx => Real.sqrt_pos.2 hx) (fun x y hx => Real.rpow_nonneg hx y) (d := 1 / 10 ^ 5) (by positivity)
    ⟨x, y, 1 / 10⟩ (v := ⟨0, 0, 1⟩) (vAir := ⟨0, 0, 0⟩) (by simp) 1
  simp only [zero_mul, add_zero] at h1
  obtain ⟨o, f1, f2, f3⟩ := C43_search (round10 := round10) hc ⟨x, y, 1 / 10⟩ ⟨x, y, 1 / 10 + 1 * 1⟩
  obtain ⟨t2, ht2⟩ : ∃ t2 : Tri ℝ, t2 = ⟨2, ⟨-10, -10, 1 / 2⟩, ⟨10, -10, 1 / 2⟩, ⟨0, 10, 1 / 2⟩, some 2⟩ := ⟨_, rfl⟩
  have ho : o = some t2 := by
    have hv : 1 / 10 ^ 10 ≤ |volume t2 ⟨x, y, 1 / 10⟩ ⟨x, y, 1 / 10 + 1 * 1⟩| := by
      rw [ht2]
      simp only [volume]
      norm_num
    have hm : Meets t2 ⟨x, y, 1 / 10⟩ ⟨x, y, 1 / 10 + 1 * 1⟩ := by
      rw [ht2]
      refine ⟨⟨x, y, 1 / 2⟩, ⟨4 / 10, by norm_num, by norm_num, by simp; norm_num⟩, (10 - y) / 40 - x / 20, (10 - y) / 40 + x / 20,
        (10 + y) / 20, by linarith, by linarith, by linarith, by ring, ?_⟩
      congr 1 <;> ring
    cases o with
    | none =>
      exfalso
      have h0 := f3 rfl t2 (by simp [porchTris, ht2]) hm
      obtain ⟨x, hx⟩ := hm
      have := ((C45_exact_partial (round10 := round10) hv).2 x).2 hx
      rw [h0] at this
      cases this
    | some t =>
      obtain ⟨ht, hh⟩ := f2 t rfl
      simp only [porchTris, List.mem_cons, List.not_mem_nil, or_false] at ht
      rcases ht with rfl | rfl | rfl
      · exfalso
        refine hh (test_nil ?_ (not_meets_level (c := 0) rfl rfl rfl (Or.inl ?_)))
        · simp only [volume]; norm_num
        · norm_num
      · exfalso
        refine hh (test_nil ?_ (not_meets_level (c := 0) rfl rfl rfl (Or.inl ?_)))
        · simp only [volume]; norm_num
        · norm_num
      · rw [ht2]
  have hnear : ∃ p, Space.findNearest Real.sqrt ⟨wind ⟨0, 0, 0⟩ ⟨0, 0, 0⟩, ⟨-1, -1, -1, 1, 1, 1⟩⟩ ⟨x, y, 1 / 10⟩ =
      .ok (p, (⟨0, 0, 0⟩ : Vec ℝ)) := by
    rcases lt_or_gt_of_ne hxy with h | h
    · exact ⟨_, (wind_nearest _ _ _).1 h⟩
    · exact ⟨_, (wind_nearest _ _ _).2 h⟩
  obtain ⟨p, hnear⟩ := hnear
  refine ⟨[⟨x, y, 1 / 10⟩, ⟨x, y, 1 / 10 + 1 * 1⟩], ?_⟩
  subst ho
  unfold fly
  rw [show (Int.toNat 200 + 1) = 200 + 1 from rfl, flyLoop_turn 200 (pre := []) (maxSteps := 200) (by simp) ?_ hnear h1 ?_ f1]
  · rw [ht2]; rfl
  · simp only [InBox]; norm_num; exact ⟨hx, hy⟩
  · simp only [Vec.distTo, Vec.mod, Vec.sub, Vec.mod2, Vec.dot]
    apply Real.le_sqrt_of_sq_le
    norm_num

theorem unit_normal {t : Tri ℝ} (h : (t.b.sub t.a).cross (t.c.sub t.b) = ⟨0, 0, 1⟩) : t.normalOrth Real.sqrt = .ok ⟨0, 0, 1⟩ := by
  unfold Tri.normalOrth
  rw [h]
  simp [Vec.orth, Vec.div, Vec.mod, Vec.mod2, Vec.dot, Vec.smul]

theorem porch_flight (s : ℝ) {round10 : ℝ → ℝ} {cloud : Cloud ℝ} (hc : Cloud.ofList porchTris = .ok cloud) {f : Nat} (hf : f = 0 ∨ f = 1) :
    ∃ pts, (porch s).dropFlight (porchPar round10) ⟨wind ⟨0, 0, 0⟩ ⟨0, 0, 0⟩, ⟨-1, -1, -1, 1, 1, 1⟩⟩ cloud f = .ok ⟨'C', some 2, pts⟩ := by
  obtain ⟨t, x, y, ht, hn, hm, hx, hy, hxy, h1, h2, h3, h4⟩ : ∃ t x y, (porch s).triangle f = .ok t ∧
      (t.b.sub t.a).cross (t.c.sub t.b) = ⟨0, 0, 1⟩ ∧
      t.centroid = ⟨x, y, 0⟩ ∧ |x| ≤ 1 ∧ |y| ≤ 1 ∧ x + y ≠ 1 / 10 ∧ (porch s).getData 0 f "StallVX".toList = 0 ∧
      (porch s).getData 0 f "StallVY".toList = 0 ∧ (porch s).getData 0 f "StallVZ".toList = 1 ∧ (porch s).getData 0 f "StallD".toList = 1 / 10 ^ 5 := by
    rcases hf with rfl | rfl
    · refine ⟨_, 1 / 3, 1 / 3, rfl, ?_, ?_, by norm_num [abs_le], by norm_num [abs_le], by norm_num, rfl, rfl, rfl, rfl⟩
      · simp [Vec.sub, Vec.cross, porch]
      · simp [Tri.centroid, Vec.add, Vec.smul, porch]
    · refine ⟨_, -1 / 3, 1 / 3, rfl, ?_, ?_, by norm_num [abs_le], by norm_num [abs_le], by norm_num, rfl, rfl, rfl, rfl⟩
      · simp [Vec.sub, Vec.cross, porch]
      · simp [Tri.centroid, Vec.add, Vec.smul, porch]; norm_num
  obtain ⟨pts, h⟩ := porch_up (round10 := round10) hc hx hy hxy
  refine ⟨pts, ?_⟩
  unfold Grid.dropFlight
  rw [ht, res_bind_ok, show (porchPar round10).sqrt = Real.sqrt from rfl, unit_normal hn, res_bind_ok, hm, h1, h2, h3, h4, ← h]
  have : (⟨x, y, 0⟩ : Vec ℝ).add ((⟨0, 0, 1⟩ : Vec ℝ).smul (porchPar round10).d) = ⟨x, y, 1 / 10⟩ := by
    simp [Vec.add, Vec.smul, porchPar]
  rw [this]
  rfl

theorem porch_stall (round10 : ℝ → ℝ) : (porch 1).getData 0 0 "Stall".toList > (porchPar round10).stallThr ∧
    (porch 1).getData 0 1 "Stall".toList > (porchPar round10).stallThr ∧ ¬ (porch 1).getData 0 2 "Stall".toList > (porchPar round10).stallThr := by
  have e0 : (porch 1).getData 0 0 "Stall".toList = 1 := rfl
  have e1 : (porch 1).getData 0 1 "Stall".toList = 1 := rfl
  have e2 : (porch 1).getData 0 2 "Stall".toList = 0 := rfl
  rw [e0, e1, e2]
  norm_num [porchPar]

theorem porch_landing (round10 : ℝ → ℝ) {cloud : Cloud ℝ} (hc : Cloud.ofList porchTris = .ok cloud) :
    landing (porchPar round10) ⟨wind ⟨0, 0, 0⟩ ⟨0, 0, 0⟩, ⟨-1, -1, -1, 1, 1, 1⟩⟩ cloud (porch 1) 0 = some 2 ∧
    landing (porchPar round10) ⟨wind ⟨0, 0, 0⟩ ⟨0, 0, 0⟩, ⟨-1, -1, -1, 1, 1, 1⟩⟩ cloud (porch 1) 1 = some 2 ∧
    landing (porchPar round10) ⟨wind ⟨0, 0, 0⟩ ⟨0, 0, 0⟩, ⟨-1, -1, -1, 1, 1, 1⟩⟩ cloud (porch 1) 2 = none := by
  obtain ⟨s0, s1, s2⟩ := porch_stall round10
  refine ⟨?_, ?_, ?_⟩
  · obtain ⟨pts, h⟩ := porch_flight 1 (round10 := round10) hc (Or.inl rfl)
    unfold landing; rw [if_pos s0, h]; rfl
  · obtain ⟨pts, h⟩ := porch_flight 1 (round10 := round10) hc (Or.inr rfl)
    unfold landing; rw [if_pos s1, h]; rfl
  · unfold landing; rw [if_neg s2]

theorem porch_area : faceArea Real.sqrt (porch 1) 2 = 200 := by
  have : faceArea Real.sqrt (porch 1) 2 = 1 / 2 * Real.sqrt ((((-10 : ℝ) - -10) * (1 / 2 - 1 / 2) - (1 / 2 - 1 / 2) * (10 - -10)) ^ 2
    + ((1 / 2 - 1 / 2) * (0 - 10) - (10 - -10) * (1 / 2 - 1 / 2)) ^ 2 + ((10 - -10) * (10 - -10) - (-10 - -10) * (0 - 10)) ^ 2) := rfl
  rw [this, show (((-10 : ℝ) - -10) * (1 / 2 - 1 / 2) - (1 / 2 - 1 / 2) * (10 - -10)) ^ 2
    + ((1 / 2 - 1 / 2) * (0 - 10) - (10 - -10) * (1 / 2 - 1 / 2)) ^ 2 + ((10 - -10) * (10 - -10) - (-10 - -10) * (0 - 10)) ^ 2 =
    (400 : ℝ) ^ 2 by norm_num, Real.sqrt_sq (by norm_num)]
  norm_num

/-- Both droplets land on the upper face, but only the water of the second one is stored: half of the water is lost. -/
theorem C48_overwritten_violation (round10 : ℝ → ℝ) : ∃ (g' : Grid ℝ Unit) (cloud : Cloud ℝ) (air : Space ℝ),
    (porch 1).drops (porchPar round10) (wind ⟨0, 0, 0⟩ ⟨0, 0, 0⟩) = .ok g' ∧
    (porch 1).faces.mapM (porch 1).triangle = .ok porchTris ∧ Cloud.ofList porchTris = .ok cloud ∧
    Space.make (wind ⟨0, 0, 0⟩ ⟨0, 0, 0⟩) = .ok air ∧ water Real.sqrt g' = 1 ∧ landed (porchPar round10) air cloud (porch 1) = 2 := by
  obtain ⟨cloud, us, hc, -, -⟩ := C42_cloud (ts := porchTris) (by simp [porchTris])
  obtain ⟨l0, l1, l2⟩ := porch_landing round10 hc
  obtain ⟨s0, s1, s2⟩ := porch_stall round10
  obtain ⟨air, hair⟩ : ∃ air : Space ℝ, air = ⟨wind ⟨0, 0, 0⟩ ⟨0, 0, 0⟩, ⟨-1, -1, -1, 1, 1, 1⟩⟩ := ⟨_, rfl⟩
  rw [← hair] at l0 l1 l2
  have hm : (porch 1).faces.mapM (porch 1).triangle = .ok porchTris := rfl
  have hair' : Space.make (wind ⟨0, 0, 0⟩ ⟨0, 0, 0⟩) = .ok air := by rw [hair]; exact wind_make _ _
  have ha : Tri.area Real.sqrt ⟨2, ⟨-10, -10, 1 / 2⟩, ⟨10, -10, 1 / 2⟩, ⟨0, 10, 1 / 2⟩, some 2⟩ = 200 := by
    rw [← porch_area]; exact triangle_area rfl rfl _
  have step : ∀ g, SameBut (porch 1) g → ∀ f, f = 0 ∨ f = 1 → g.dropFace (porchPar round10) air cloud f = .ok (g.setData 2 imp (1 / 200)) := by
    intro g hg f hf
    obtain ⟨pts, h⟩ := porch_flight 1 (round10 := round10) hc hf
    unfold Grid.dropFace
    rw [hg.get f (by decide), hg.flight, hair, h]
    have e : (porch 1).getData 0 f "Stall".toList = 1 := by rcases hf with rfl | rfl <;> rfl
    rw [e, if_pos (by norm_num [porchPar]), res_bind_ok]
    dsimp only
    rw [if_pos rfl, hg.triangle]
    rw [show (porch 1).triangle 2 = .ok ⟨2, ⟨-10, -10, 1 / 2⟩, ⟨10, -10, 1 / 2⟩, ⟨0, 10, 1 / 2⟩, some 2⟩ from rfl, res_bind_ok,
      show (porchPar round10).sqrt = Real.sqrt from rfl, ha, if_neg (by norm_num)]
  have hfold : (porch 1).faces.foldlM (Grid.dropFace (porchPar round10) air cloud) (porch 1) =
      .ok (((porch 1).setData 2 imp (1 / 200)).setData 2 imp (1 / 200)) := by
    show [0, 1, 2].foldlM _ _ = _
    rw [List.foldlM_cons, step (porch 1) (SameBut.refl _) 0 (Or.inl rfl), res_bind_ok, List.foldlM_cons,
      step _ ((SameBut.refl _).set _ _) 1 (Or.inr rfl), res_bind_ok, List.foldlM_cons]
    have : Grid.dropFace (porchPar round10) air cloud (((porch 1).setData 2 imp (1 / 200)).setData 2 imp (1 / 200)) 2 =
        .ok (((porch 1).setData 2 imp (1 / 200)).setData 2 imp (1 / 200)) := by
      unfold Grid.dropFace
      rw [(((SameBut.refl (porch 1)).set 2 (1 / 200)).set 2 (1 / 200)).get 2 (by decide)]
      exact if_neg s2
    rw [this]
    rfl
  obtain ⟨g2, hg2⟩ : ∃ g2, (((porch 1).setData 2 imp (1 / 200)).setData 2 imp (1 / 200)).stallToCheckPoint = .ok g2 := ⟨_, rfl⟩
  have hd : (porch 1).drops (porchPar round10) (wind ⟨0, 0, 0⟩ ⟨0, 0, 0⟩) = .ok g2.cleanTHwHi := by
    unfold Grid.drops
    rw [hm, res_bind_ok, hc, res_bind_ok, hair', res_bind_ok, hfold, res_bind_ok, hg2]
    rfl
  refine ⟨_, cloud, air, hd, hm, hc, hair', ?_, ?_⟩
  · have h3 : ∀ f ∈ (porch 1).faces, ((porch 1).fNodes f).length = 3 := fun _ _ => rfl
    obtain ⟨k1, k2, -⟩ := dropFaces_ok (fun f _ h hl => h3 h (C48_target hm hc hl)) hfold
    obtain ⟨D, e, hD⟩ := stallToCheckPoint_keep hg2
    obtain ⟨D', e', hD'⟩ := cleanTHwHi_keep g2
    have hw : SameWater (((porch 1).setData 2 imp (1 / 200)).setData 2 imp (1 / 200)) g2.cleanTHwHi :=
      ⟨D', by rw [e', e], fun f => by rw [hD', e, ← hD]⟩
    have := water_eq (P := porchPar round10) k1 hw k2
    rw [show (porchPar round10).sqrt = Real.sqrt from rfl] at this
    rw [this, show (porch 1).faces = [0, 1, 2] from rfl]
    have c0 : caught (porchPar round10) air cloud (porch 1) [0, 1, 2] 0 = 0 := by
      unfold caught; simp only [List.filter, l0, l1, l2]; rfl
    have c1 : caught (porchPar round10) air cloud (porch 1) [0, 1, 2] 1 = 0 := by
      unfold caught; simp only [List.filter, l0, l1, l2]; rfl
    have c2 : caught (porchPar round10) air cloud (porch 1) [0, 1, 2] 2 = 1 / 200 := by
      rw [← porch_area]
      unfold caught; simp only [List.filter, l0, l1, l2]; rfl
    simp only [List.map_cons, List.map_nil, c0, c1, c2, porch_area]
    norm_num
  · unfold landed
    show (([0, 1, 2].filter _).map _).sum = _
    simp only [List.filter, l0, l1, l2]
    show (1 : ℝ) + (1 + 0) = 2
    norm_num

/-! The hypotheses of `C48_mass_partial` are met if the second face is dry. -/

example (round10 : ℝ → ℝ) {cloud : Cloud ℝ} (hc : Cloud.ofList porchTris = .ok cloud) {air : Space ℝ}
    (ha : Space.make (wind ⟨0, 0, 0⟩ ⟨0, 0, 0⟩) = .ok air) :
    landing (porchPar round10) air cloud (porch 0) 0 = some 2 ∧ ∀ f ∈ (porch 0).faces, ∀ f' ∈ (porch 0).faces,
      landing (porchPar round10) air cloud (porch 0) f ≠ none →
      landing (porchPar round10) air cloud (porch 0) f = landing (porchPar round10) air cloud (porch 0) f' → f = f' := by
  rw [wind_make] at ha
  obtain rfl := Except.ok.inj ha
  have s0 : (porch 0).getData 0 0 "Stall".toList = 1 := rfl
  have s1 : (porch 0).getData 0 1 "Stall".toList = 0 := rfl
  have s2 : (porch 0).getData 0 2 "Stall".toList = 0 := rfl
  have l0 : landing (porchPar round10) ⟨wind ⟨0, 0, 0⟩ ⟨0, 0, 0⟩, ⟨-1, -1, -1, 1, 1, 1⟩⟩ cloud (porch 0) 0 = some 2 := by
    obtain ⟨pts, h⟩ := porch_flight 0 (round10 := round10) hc (Or.inl rfl)
    unfold landing; rw [s0, if_pos (by norm_num [porchPar]), h]; rfl
  have l1 : landing (porchPar round10) ⟨wind ⟨0, 0, 0⟩ ⟨0, 0, 0⟩, ⟨-1, -1, -1, 1, 1, 1⟩⟩ cloud (porch 0) 1 = none := by
    unfold landing; rw [s1, if_neg (by norm_num [porchPar])]
  have l2 : landing (porchPar round10) ⟨wind ⟨0, 0, 0⟩ ⟨0, 0, 0⟩, ⟨-1, -1, -1, 1, 1, 1⟩⟩ cloud (porch 0) 2 = none := by
    unfold landing; rw [s2, if_neg (by norm_num [porchPar])]
  refine ⟨l0, ?_⟩
  show ∀ f ∈ [0, 1, 2], ∀ f' ∈ [0, 1, 2], _
  simp [l0, l1, l2]

example : (porch 0).faces.Nodup ∧ (∀ f ∈ (porch 0).faces, ((porch 0).fNodes f).length = 3) ∧
    ∀ f ∈ (porch 0).faces, (porch 0).getData 0 f "MImp2".toList = 0 := by
  refine ⟨by show [0, 1, 2].Nodup; decide, fun _ _ => rfl, ?_⟩
  show ∀ f ∈ [0, 1, 2], _
  simp only [List.mem_cons, List.not_mem_nil, or_false, forall_eq_or_imp, forall_eq]
  exact ⟨rfl, rfl, rfl⟩

end Verif.Props
