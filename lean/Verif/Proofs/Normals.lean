import Verif.Spec.Normals
import Verif.Proofs.Layer

/-! Lemmas about the smoothing of normals. -/

namespace Verif
namespace WeightedMean
variable {F : Type} [Field F] [LinearOrder F] {l : List Nat} {w : Nat → F} {d : Nat → Vec F} {v : Vec F}

theorem along (h : WeightedMean l w d v) (u : Vec F) : component u v * (l.map w).sum = (l.map fun i => w i * component u (d i)).sum := by
  have e : ∀ l : List Nat, (l.map fun i => w i * component u (d i)).sum
      = u.x * (l.map fun i => w i * (d i).x).sum + u.y * (l.map fun i => w i * (d i).y).sum + u.z * (l.map fun i => w i * (d i).z).sum := by
    intro l
    induction l with
    | nil => simp
    | cons a l ih =>
      rw [List.map_cons, List.sum_cons, ih]
      simp only [List.map_cons, List.sum_cons, component]
      ring
  rw [e, ← h.x, ← h.y, ← h.z, component]
  ring

variable [IsStrictOrderedRing F]

theorem total_pos (h : WeightedMean l w d v) (hw : ∀ i ∈ l, 0 < w i) : 0 < (l.map w).sum :=
  lt_of_le_of_ne (List.sum_nonneg (by simpa using fun i hi => (hw i hi).le)) (Ne.symm h.total)

theorem le (h : WeightedMean l w d v) (hw : ∀ i ∈ l, 0 < w i) {u : Vec F} {c : F} (hc : ∀ i ∈ l, c ≤ component u (d i)) : c ≤ component u v := by
  have hp := h.total_pos hw
  refine le_of_mul_le_mul_right ?_ hp
  rw [h.along u]
  have : ∀ l : List Nat, (∀ i ∈ l, 0 < w i) → (∀ i ∈ l, c ≤ component u (d i)) → c * (l.map w).sum ≤ (l.map fun i => w i * component u (d i)).sum := by
    intro l
    induction l with
    | nil => simp
    | cons a l ih =>
      intro h1 h2
      simp only [List.map_cons, List.sum_cons, mul_add]
      refine add_le_add ?_ (ih (fun i hi => h1 i (List.mem_cons_of_mem _ hi)) fun i hi => h2 i (List.mem_cons_of_mem _ hi))
      rw [mul_comm c]
      exact mul_le_mul_of_nonneg_left (h2 a (by simp)) (h1 a (by simp)).le
  exact this l hw hc

/-- The mean is not longer; it is shorter by the spread. -/
theorem spread (h : WeightedMean l w d v) (hw : ∀ i ∈ l, 0 < w i) (hd : ∀ i ∈ l, len2 (d i) ≤ 1) :
    (l.map fun i => w i * len2 ((d i).sub v)).sum ≤ (1 - len2 v) * (l.map w).sum := by
  have e : ∀ l : List Nat, (∀ i ∈ l, 0 < w i) → (∀ i ∈ l, len2 (d i) ≤ 1) →
      (l.map fun i => w i * len2 ((d i).sub v)).sum ≤ (1 + len2 v) * (l.map w).sum - 2 * (l.map fun i => w i * component v (d i)).sum := by
    intro l
    induction l with
    | nil => simp
    | cons a l ih =>
      intro h1 h2
      have := ih (fun i hi => h1 i (List.mem_cons_of_mem _ hi)) fun i hi => h2 i (List.mem_cons_of_mem _ hi)
      simp only [List.map_cons, List.sum_cons]
      have q : w a * len2 ((d a).sub v) ≤ (1 + len2 v) * w a - 2 * (w a * component v (d a)) := by
        have := mul_le_mul_of_nonneg_left (h2 a (by simp)) (h1 a (by simp)).le
        have e : len2 ((d a).sub v) = len2 (d a) + len2 v - 2 * component v (d a) := by
          simp only [len2, Vec.sub, component]; ring
        rw [e]
        linarith
      linarith
  have := e l hw hd
  rw [← h.along v] at this
  have q : component v v = len2 v := by simp only [len2, component]; ring
  rw [q] at this
  linarith

theorem len2_nonneg (v : Vec F) : 0 ≤ len2 v := by unfold len2; positivity

theorem len (h : WeightedMean l w d v) (hw : ∀ i ∈ l, 0 < w i) (hd : ∀ i ∈ l, len2 (d i) ≤ 1) : len2 v ≤ 1 := by
  have h1 := h.spread hw hd
  have h0 : 0 ≤ (l.map fun i => w i * len2 ((d i).sub v)).sum := by
    refine List.sum_nonneg ?_
    simp only [List.mem_map, forall_exists_index, and_imp, forall_apply_eq_imp_iff₂]
    exact fun i hi => mul_nonneg (hw i hi).le (len2_nonneg _)
  by_contra hc
  have := mul_pos (sub_pos.2 (not_le.1 hc)) (h.total_pos hw)
  linarith

theorem eq_of_len2 {u v : Vec F} (h : len2 (u.sub v) = 0) : u = v := by
  simp only [len2, Vec.sub] at h
  have hx := sq_nonneg (u.x - v.x)
  have hy := sq_nonneg (u.y - v.y)
  have hz := sq_nonneg (u.z - v.z)
  obtain ⟨a, b, c⟩ := u
  obtain ⟨a', b', c'⟩ := v
  simp only at *
  have h1 : (a - a') ^ 2 = 0 := by linarith
  have h2 : (b - b') ^ 2 = 0 := by linarith
  have h3 : (c - c') ^ 2 = 0 := by linarith
  rw [pow_eq_zero_iff two_ne_zero, sub_eq_zero] at h1 h2 h3
  rw [h1, h2, h3]

/-- The mean of different directions, or of a shorter one, is shorter. -/
theorem shorter (h : WeightedMean l w d v) (hw : ∀ i ∈ l, 0 < w i) (hd : ∀ i ∈ l, len2 (d i) ≤ 1)
    (hs : (∃ i ∈ l, len2 (d i) < 1) ∨ ∃ i ∈ l, ∃ j ∈ l, d i ≠ d j) : len2 v < 1 := by
  have hp := h.total_pos hw
  have hex : ∃ i ∈ l, d i ≠ v ∨ len2 v < 1 := by
    rcases hs with ⟨i, hi, h⟩ | ⟨i, hi, j, hj, h⟩
    · by_cases e : d i = v
      · exact ⟨i, hi, .inr (e ▸ h)⟩
      · exact ⟨i, hi, .inl e⟩
    · by_cases e : d i = v
      · exact ⟨j, hj, .inl fun e' => h (e.trans e'.symm)⟩
      · exact ⟨i, hi, .inl e⟩
  obtain ⟨i, hi, hv | hv⟩ := hex
  · have h1 := h.spread hw hd
    have h0 : 0 < (l.map fun i => w i * len2 ((d i).sub v)).sum := by
      have nn : ∀ x ∈ l.map fun i => w i * len2 ((d i).sub v), 0 ≤ x := by
        simp only [List.mem_map, forall_exists_index, and_imp, forall_apply_eq_imp_iff₂]
        exact fun i hi => mul_nonneg (hw i hi).le (len2_nonneg _)
      refine lt_of_lt_of_le ?_ (List.single_le_sum nn _ (List.mem_map.2 ⟨i, hi, rfl⟩))
      exact mul_pos (hw i hi) (lt_of_le_of_ne (len2_nonneg _) fun e => hv (eq_of_len2 e.symm))
    by_contra hc
    have := mul_nonneg (sub_nonneg.2 (not_lt.1 hc)) hp.le
    linarith
  · exact hv

omit [IsStrictOrderedRing F] in
theorem const (h : WeightedMean l w d v) {e : Vec F} (hd : ∀ i ∈ l, d i = e) : v = e := by
  have m : ∀ g : Vec F → F, (l.map fun i => w i * g (d i)).sum = g e * (l.map w).sum := by
    intro g
    clear h
    induction l with
    | nil => simp
    | cons a l ih =>
      simp only [List.map_cons, List.sum_cons]
      rw [ih fun i hi => hd i (List.mem_cons_of_mem _ hi), hd a (by simp)]
      ring
  have hx := mul_right_cancel₀ h.total (h.x.trans (m Vec.x))
  have hy := mul_right_cancel₀ h.total (h.y.trans (m Vec.y))
  have hz := mul_right_cancel₀ h.total (h.z.trans (m Vec.z))
  cases v; cases e
  simp only at hx hy hz
  rw [hx, hy, hz]

end WeightedMean

namespace Ice
section
variable {F R : Type} [Field F] [LinearOrder F]

theorem vecSum_coords (vs : List (Vec F)) : (vecSum vs).x = (vs.map Vec.x).sum ∧ (vecSum vs).y = (vs.map Vec.y).sum ∧ (vecSum vs).z = (vs.map Vec.z).sum := by
  have : ∀ (vs : List (Vec F)) (a : Vec F), (vs.foldl Vec.add a).x = a.x + (vs.map Vec.x).sum ∧ (vs.foldl Vec.add a).y = a.y + (vs.map Vec.y).sum
      ∧ (vs.foldl Vec.add a).z = a.z + (vs.map Vec.z).sum := by
    intro vs
    induction vs with
    | nil => simp
    | cons v vs ih =>
      intro a
      simp only [List.foldl_cons, List.map_cons, List.sum_cons, ih, Vec.add]
      exact ⟨by ring, by ring, by ring⟩
  unfold vecSum
  simpa using this vs ⟨0, 0, 0⟩

omit [LinearOrder F] in
theorem zip_eq (l : List Nat) (w : Nat → F) (d : Nat → Vec F) :
    List.zipWith (fun v k => v.smul k) (l.map d) (l.map w) = l.map fun i => (d i).smul (w i) := by
  induction l with
  | nil => rfl
  | cons a l ih => simp [ih]

theorem wsum_ok {l : List Nat} {w : Nat → F} {d : Nat → Vec F} {v : Vec F} (h : wsum (l.map d) (l.map w) = .ok v) : WeightedMean l w d v := by
  unfold wsum at h
  unfold Vec.div at h
  split_ifs at h with h0
  obtain rfl := Except.ok.inj h
  obtain ⟨hx, hy, hz⟩ := vecSum_coords (List.zipWith (fun v k => v.smul k) (l.map d) (l.map w))
  rw [zip_eq] at hx hy hz
  simp only [List.map_map] at hx hy hz
  rw [zip_eq]
  refine ⟨h0, ?_, ?_, ?_⟩
  · show (vecSum _).x * _ * _ = _
    rw [hx, mul_assoc, one_div_mul_cancel h0, mul_one]
    congr 1
    exact List.map_congr_left fun i _ => by simp [Vec.smul, mul_comm]
  · show (vecSum _).y * _ * _ = _
    rw [hy, mul_assoc, one_div_mul_cancel h0, mul_one]
    congr 1
    exact List.map_congr_left fun i _ => by simp [Vec.smul, mul_comm]
  · show (vecSum _).z * _ * _ = _
    rw [hz, mul_assoc, one_div_mul_cancel h0, mul_one]
    congr 1
    exact List.map_congr_left fun i _ => by simp [Vec.smul, mul_comm]

theorem wsum_returns {a : List (Vec F)} {w : List F} (h : w.sum ≠ 0) : ∃ v, wsum a w = .ok v := by
  unfold wsum Vec.div
  rw [if_neg h]
  exact ⟨_, rfl⟩

theorem wsum_raises {a : List (Vec F)} {w : List F} (h : w.sum = 0) : wsum a w = .error .zeroDiv := by
  unfold wsum Vec.div
  rw [if_pos h]

/-- The weights of the faces of a node. -/
theorem areas_ok {sqrt : F → F} {g : Grid F R} {l : List Nat} {ws : List F} (h : (l.mapM fun f => (do
      let a ← area sqrt g f
      if a = 0 then .error .zeroDiv else .ok (1 / a) : Res F)) = .ok ws) :
    ∀ ar : Nat → F, (∀ f ∈ l, ∀ a, area sqrt g f = .ok a → ar f = a) →
      ws = l.map (fun f => 1 / ar f) ∧ ∀ f ∈ l, area sqrt g f = .ok (ar f) ∧ ar f ≠ 0 := by
  intro ar har
  induction l generalizing ws with
  | nil =>
    obtain rfl := Except.ok.inj h
    simp
  | cons f l ih =>
    rw [List.mapM_cons] at h
    obtain ⟨x, hx, h⟩ := res_bind_eq_ok.1 h
    obtain ⟨xs, hxs, h⟩ := res_bind_eq_ok.1 h
    obtain rfl := Except.ok.inj h
    obtain ⟨a, ha, hx⟩ := res_bind_eq_ok.1 hx
    split_ifs at hx with h0
    obtain rfl := Except.ok.inj hx
    obtain ⟨rfl, h2⟩ := ih hxs fun f hf => har f (List.mem_cons_of_mem _ hf)
    have e := har f (by simp) a ha
    subst e
    refine ⟨rfl, ?_⟩
    rintro g' hg
    rcases List.mem_cons.1 hg with rfl | hg
    · exact ⟨ha, h0⟩
    · exact h2 g' hg

theorem areas_returns {sqrt : F → F} {g : Grid F R} {l : List Nat} {ar : Nat → F} (h : ∀ f ∈ l, area sqrt g f = .ok (ar f) ∧ ar f ≠ 0) :
    (l.mapM fun f => (do
      let a ← area sqrt g f
      if a = 0 then .error .zeroDiv else .ok (1 / a) : Res F)) = .ok (l.map fun f => 1 / ar f) := by
  induction l with
  | nil => rfl
  | cons f l ih =>
    rw [List.mapM_cons, ih fun f hf => h f (List.mem_cons_of_mem _ hf)]
    obtain ⟨ha, h0⟩ := h f (by simp)
    rw [ha]
    show ((if ar f = 0 then .error .zeroDiv else .ok (1 / ar f) : Res F) >>= _) = _
    rw [if_neg h0]
    rfl

/-- The area of a face; nothing is said of faces whose area cannot be taken. -/
def areaOf (sqrt : F → F) (g : Grid F R) (f : Nat) : F :=
  match area sqrt g f with
  | .ok a => a
  | .error _ => 0

omit [LinearOrder F] in
theorem areaOf_eq {sqrt : F → F} {g : Grid F R} {f : Nat} {a : F} (h : area sqrt g f = .ok a) : areaOf sqrt g f = a := by
  unfold areaOf; rw [h]

/-- A turn of the smoothing. -/
theorem normalsTurn_spec {P : RemeshPar F} {s s' : Ice F R} (hn : s.g.faces.Nodup) (h : normalsTurn P s = .ok s') :
    s' = { s with fDir := s'.fDir, nDir := s'.nDir } ∧
    (∀ f ∈ s.g.faces, WeightedMean (s.g.fNodes f) (fun n => max (P.nsmoothS * (1 - (s.fDir f).dot (s.nDir n))) P.nsmoothK) s.nDir (s'.fDir f)) ∧
    ∀ n ∈ s.g.nodes, (∀ f ∈ s.g.nFaces n, area P.sqrt s.g f = .ok (areaOf P.sqrt s.g f) ∧ areaOf P.sqrt s.g f ≠ 0) ∧
      WeightedMean (s.g.nFaces n) (fun f => 1 / areaOf P.sqrt s.g f) s'.fDir (s'.nDir n) := by
  unfold normalsTurn at h
  obtain ⟨s1, h1, h2⟩ := res_bind_eq_ok.1 h
  obtain ⟨a, rfl, ha, -⟩ := foldUpd (fun m => { s with fDir := m })
    (fun v f => wsum ((s.g.fNodes f).map s.nDir) ((s.g.fNodes f).map fun n => max (P.nsmoothS * (1 - v.dot (s.nDir n))) P.nsmoothK))
    (m := s.fDir) (by intro m f; rfl) hn h1
  obtain ⟨b, rfl, hb, -⟩ := foldUpdC (fun m => { s with fDir := a, nDir := m })
    (fun n => ((s.g.nFaces n).mapM (fun f => (do
      let a ← area P.sqrt s.g f
      if a = 0 then .error .zeroDiv else .ok (1 / a) : Res F))).bind fun ws => wsum ((s.g.nFaces n).map a) ws)
    (m := s.nDir) (by
      intro m n
      show (_ >>= fun ws => _) = _
      cases ((s.g.nFaces n).mapM (fun f => (do
        let a ← area P.sqrt s.g f
        if a = 0 then .error .zeroDiv else .ok (1 / a) : Res F))) with
      | error e => rfl
      | ok ws => rfl) h2
  refine ⟨rfl, fun f hf => wsum_ok (ha f hf), fun n hn => ?_⟩
  obtain ⟨ws, hw, hv⟩ := res_bind_eq_ok.1 (hb n hn)
  obtain ⟨rfl, h3⟩ := areas_ok hw (areaOf P.sqrt s.g) fun f _ a ha => areaOf_eq ha
  exact ⟨h3, wsum_ok hv⟩

theorem foldlM_returns {α S : Type} {f : S → Nat → Res S} (mk : α → S) {l : List Nat} (hf : ∀ m, ∀ a ∈ l, ∃ m', f (mk m) a = .ok (mk m')) (m : α) :
    ∃ m', l.foldlM f (mk m) = .ok (mk m') := by
  induction l generalizing m with
  | nil => exact ⟨m, rfl⟩
  | cons a l ih =>
    obtain ⟨m1, h1⟩ := hf m a (by simp)
    rw [List.foldlM_cons, h1]
    exact ih (fun m a ha => hf m a (List.mem_cons_of_mem _ ha)) m1

variable [IsStrictOrderedRing F]

theorem sum_pos_of {l : List Nat} {w : Nat → F} (hl : l ≠ []) (hw : ∀ i ∈ l, 0 < w i) : 0 < (l.map w).sum := by
  cases l with
  | nil => exact absurd rfl hl
  | cons a l =>
    rw [List.map_cons, List.sum_cons]
    refine add_pos_of_pos_of_nonneg (hw a (by simp)) (List.sum_nonneg ?_)
    simpa using fun i hi => (hw i (List.mem_cons_of_mem _ hi)).le

theorem areaOf_pos {sqrt : F → F} (hs : ∀ x, 0 ≤ x → 0 ≤ sqrt x ∧ sqrt x * sqrt x = x) {g : Grid F R} {f : Nat}
    (h : area sqrt g f = .ok (areaOf sqrt g f)) (h0 : areaOf sqrt g f ≠ 0) : 0 < areaOf sqrt g f := by
  obtain ⟨t, -, ht⟩ := res_bind_eq_ok.1 h
  have e := Except.ok.inj ht
  rw [← e] at h0 ⊢
  exact area_pos hs h0

theorem normalsTurn_returns {P : RemeshPar F} {s : Ice F R} (hs : ∀ x, 0 ≤ x → 0 ≤ P.sqrt x ∧ P.sqrt x * P.sqrt x = x) (hk : 0 < P.nsmoothK)
    (hf : ∀ f ∈ s.g.faces, s.g.fNodes f ≠ [])
    (hn : ∀ n ∈ s.g.nodes, s.g.nFaces n ≠ [] ∧ ∀ f ∈ s.g.nFaces n, ∃ a, area P.sqrt s.g f = .ok a ∧ a ≠ 0) :
    ∃ s', normalsTurn P s = .ok s' := by
  unfold normalsTurn
  obtain ⟨a, ha⟩ := foldlM_returns (f := fun (s : Ice F R) f => (do
    let ns := s.g.fNodes f
    let ws := ns.map (fun n => max (P.nsmoothS * (1 - (s.fDir f).dot (s.nDir n))) P.nsmoothK)
    let d ← wsum (ns.map s.nDir) ws
    .ok { s with fDir := upd s.fDir f d } : Res (Ice F R))) (fun m => { s with fDir := m }) (l := s.g.faces) (by
      intro m f hff
      obtain ⟨v, hv⟩ := wsum_returns (a := (s.g.fNodes f).map s.nDir) (w := (s.g.fNodes f).map fun n => max (P.nsmoothS * (1 - (m f).dot (s.nDir n))) P.nsmoothK)
        (sum_pos_of (hf f hff) fun n _ => lt_max_of_lt_right hk).ne'
      exact ⟨upd m f v, by show (wsum _ _ >>= _) = _; rw [hv]; rfl⟩) s.fDir
  have hs' : s = { s with fDir := s.fDir } := rfl
  rw [← hs'] at ha
  obtain ⟨b, hb⟩ := foldlM_returns (f := fun (s : Ice F R) n => (do
    let ws ← (s.g.nFaces n).mapM (fun f => do
      let a ← area P.sqrt s.g f
      if a = 0 then .error .zeroDiv else .ok (1 / a))
    let d ← wsum ((s.g.nFaces n).map s.fDir) ws
    .ok { s with nDir := upd s.nDir n d } : Res (Ice F R))) (fun m => { s with fDir := a, nDir := m }) (l := s.g.nodes) (by
      intro m n hnn
      obtain ⟨h1, h2⟩ := hn n hnn
      have h3 : ∀ f ∈ s.g.nFaces n, area P.sqrt s.g f = .ok (areaOf P.sqrt s.g f) ∧ areaOf P.sqrt s.g f ≠ 0 := by
        intro f hff
        obtain ⟨a, ha, h0⟩ := h2 f hff
        rw [areaOf_eq ha]
        exact ⟨ha, h0⟩
      obtain ⟨v, hv⟩ := wsum_returns (a := (s.g.nFaces n).map a) (w := (s.g.nFaces n).map fun f => 1 / areaOf P.sqrt s.g f)
        (sum_pos_of h1 fun f hff => one_div_pos.2 (areaOf_pos hs (h3 f hff).1 (h3 f hff).2)).ne'
      refine ⟨upd m n v, ?_⟩
      show (List.mapM _ (s.g.nFaces n) >>= _) = _
      rw [areas_returns h3]
      show (wsum _ _ >>= _) = _
      rw [hv]
      rfl) s.nDir
  exact ⟨_, by rw [ha]; exact hb⟩

omit [IsStrictOrderedRing F] in
/-- Something that holds of the directions and is kept by a turn, holds after all turns. -/
theorem normalsSmoothing_ind {P : RemeshPar F} (I : Ice F R → Prop) (hI : ∀ s s', I s → normalsTurn P s = .ok s' → I s') {s s' : Ice F R} (h0 : I s)
    (h : normalsSmoothing P s = .ok s') : I s' := by
  unfold normalsSmoothing at h
  exact foldlM_partial _ _ (fun _ s => I s) _ _ h h0 fun _ _ _ s s' _ hs ht => hI s s' hs ht

omit [IsStrictOrderedRing F] in
theorem normalsSmoothing_last {P : RemeshPar F} (hp : 0 < P.nsmoothSteps) {s s' : Ice F R} (h : normalsSmoothing P s = .ok s') :
    ∃ m, normalsSmoothing { P with nsmoothSteps := P.nsmoothSteps - 1 } s = .ok m ∧ normalsTurn P m = .ok s' := by
  unfold normalsSmoothing at h ⊢
  have e : P.nsmoothSteps.toNat = (P.nsmoothSteps - 1).toNat + 1 := by omega
  rw [e, List.range_succ, List.foldlM_append] at h
  obtain ⟨m, hm, h⟩ := res_bind_eq_ok.1 h
  refine ⟨m, hm, ?_⟩
  obtain ⟨m', hm', h⟩ := res_bind_eq_ok.1 h
  rw [Except.ok.inj h] at hm'
  exact hm'

end
end Ice
end Verif
