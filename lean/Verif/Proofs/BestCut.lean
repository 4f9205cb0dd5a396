import Verif.Proofs.Hier
import Verif.Spec.BestCut

/-! Which sign function a split of a zone takes. -/

namespace Verif
variable {F R : Type} {S : Type} [LinearOrder S]

/-- Counting the pairs of a relation by rows or by columns. -/
theorem count_swap {α β : Type} (l : List α) (k : List β) (p : α → β → Bool) :
    (l.map (fun a => (k.filter (p a)).length)).sum = (k.map (fun b => (l.filter (fun a => p a b)).length)).sum := by
  induction l with
  | nil => simp
  | cons a l ih =>
    rw [List.map_cons, List.sum_cons, ih]
    clear ih
    induction k with
    | nil => rfl
    | cons b k ih =>
      simp only [List.map_cons, List.sum_cons, List.filter_cons] at ih ⊢
      cases p a b <;> simp only [Bool.false_eq_true, if_false, if_true, List.length_cons] <;> omega

theorem sum_twice {α : Type} (l : List α) (p : α → Bool) (c : α → Nat) (h : ∀ a ∈ l, c a = if p a then 2 else 0) :
    (l.map c).sum = 2 * (l.filter p).length := by
  induction l with
  | nil => rfl
  | cons a l ih =>
    have h1 := h a (by simp)
    have h2 := ih (fun b hb => h b (by simp [hb]))
    rw [List.map_cons, List.sum_cons, List.filter_cons, h1, h2]
    split
    · rw [List.length_cons]; omega
    · omega

/-- The edges between the parts, as the metric sees them. -/
def crossing (g : Grid F R) (lf rf : List Nat) (e : Nat) : Bool :=
  (g.eFaces e).any (fun f => lf.contains f) && (g.eFaces e).any (fun f => rf.contains f)

/-- Every edge between the parts is met from both sides. -/
theorem cross_sum (g : Grid F R) (hm : Mesh g) (fs lf rf : List Nat) (hnd : fs.Nodup) (hsub : ∀ f ∈ fs, f ∈ g.faces)
    (hl : ∀ f ∈ lf, f ∈ fs) (hr : ∀ f ∈ rf, f ∈ fs) (hd : ∀ f ∈ lf, f ∉ rf) :
    (fs.map (fun f => ((g.fEdges f).filter (crossing g lf rf)).length)).sum = 2 * cutEdges g lf rf := by
  have h1 : fs.map (fun f => ((g.fEdges f).filter (crossing g lf rf)).length) =
      fs.map (fun f => (g.edges.filter (fun e => crossing g lf rf e && (g.fEdges f).contains e)).length) := by
    refine List.map_congr_left (fun f hf => ?_)
    obtain ⟨_, k2, k3⟩ := hm.face_edges f (hsub f hf)
    refine List.Perm.length_eq ((List.perm_ext_iff_of_nodup (k2.filter _) (hm.edges_nodup.filter _)).2 (fun e => ?_))
    simp only [List.mem_filter, Bool.and_eq_true, List.contains_iff_mem]
    constructor
    · rintro ⟨a, b⟩; exact ⟨k3 e a, b, a⟩
    · rintro ⟨_, b, a⟩; exact ⟨a, b⟩
  rw [h1, count_swap fs g.edges (fun f e => crossing g lf rf e && (g.fEdges f).contains e)]
  refine sum_twice g.edges (crossing g lf rf) _ (fun e he => ?_)
  by_cases hc : crossing g lf rf e = true
  · rw [if_pos hc]
    obtain ⟨k1, k2⟩ := hm.edge_faces e he
    have hc' := hc
    simp only [crossing, Bool.and_eq_true, List.any_eq_true, List.contains_iff_mem] at hc'
    obtain ⟨⟨a, ha, hal⟩, b, hb, hbr⟩ := hc'
    have hab : a ≠ b := by rintro rfl; exact hd a hal hbr
    have hlen : (g.eFaces e).length = 2 := by
      rcases k1 with k1 | k1
      · obtain ⟨x, hx⟩ := List.length_eq_one_iff.1 k1
        rw [hx, List.mem_singleton] at ha hb
        exact absurd (ha.trans hb.symm) hab
      · exact k1
    have hall : ∀ f ∈ g.eFaces e, f ∈ fs := by
      obtain ⟨x, y, hxy⟩ := List.length_eq_two.1 hlen
      rw [hxy] at ha hb ⊢
      have ha' := hl a hal
      have hb' := hr b hbr
      simp only [List.mem_cons, List.not_mem_nil, or_false] at ha hb ⊢
      rintro f (rfl | rfl) <;> rcases ha with rfl | rfl <;> rcases hb with rfl | rfl <;> first | assumption | exact absurd rfl hab
    rw [← hlen]
    refine List.Perm.length_eq ((List.perm_ext_iff_of_nodup (hnd.filter _) k2).2 (fun f => ?_))
    simp only [List.mem_filter, hc, Bool.true_and, List.contains_iff_mem]
    rw [hm.edge_face e he f]
    constructor
    · rintro ⟨p, q⟩; exact ⟨hsub f p, q⟩
    · intro p; exact ⟨hall f ((hm.edge_face e he f).2 p), p.2⟩
  · rw [if_neg hc]
    simp [hc]

/-- Faces outside the zone are linked neither to the one new zone nor to the other. -/
def Away (g : Grid F R) (zone zl zr : Nat) : Prop :=
  ∀ f ∈ g.faces, f ∉ g.zFaces zone → g.fZone f ≠ some zl ∧ g.fZone f ≠ some zr

/-- The metric is twice the number of edges between the parts. -/
theorem splitZoneMetric_value (g g' : Grid F R) (hm : Mesh g) (zone zl zr : Nat) (hlr : zl ≠ zr) (fn : Nat → S)
    (hnd : (g.zFaces zone).Nodup) (hsub : ∀ f ∈ g.zFaces zone, f ∈ g.faces) (haw : Away g zone zl zr) (v : Nat)
    (b : S) (hb : IsMedian ((g.zFaces zone).map fn) b)
    (h : g.splitZoneMetric zone zl zr fn = .ok (g', some v)) :
    v = 2 * cutEdges g ((g.zFaces zone).filter (fun f => decide (fn f < b)))
      ((g.zFaces zone).filter (fun f => decide (b ≤ fn f))) := by
  have hne : (g.zFaces zone).map fn ≠ [] := by
    intro hc
    obtain ⟨s, h1, _, h3⟩ := hb
    rw [hc] at h1 h3
    rw [h1.eq_nil] at h3
    simp at h3
  obtain ⟨b', h1, h2, _⟩ := median_spec _ hne
  rw [isMedian_unique h2 hb] at h1
  unfold Grid.splitZoneMetric at h
  simp only [h1, res_bind_ok] at h
  split at h
  · cases h
  · have h' := congrArg (fun r : Res (Grid F R × Option Nat) => match r with | .ok (_, some v) => v | _ => 0) h
    simp only [pure, Except.pure] at h'
    rw [← h']
    clear h h'
    let lf := (g.zFaces zone).filter (fun f => decide (fn f < b))
    let rf := (g.zFaces zone).filter (fun f => decide (b ≤ fn f))
    rw [← cross_sum g hm (g.zFaces zone) lf rf hnd hsub (fun f hf => (List.mem_filter.1 hf).1)
      (fun f hf => (List.mem_filter.1 hf).1) (by
        intro f hf hc
        have p := (List.mem_filter.1 hf).2
        have q := (List.mem_filter.1 hc).2
        simp only [decide_eq_true_eq] at p q
        exact absurd p (not_lt_of_ge q))]
    congr 1
    refine List.map_congr_left (fun f hf => ?_)
    congr 1
    refine List.filter_congr (fun e he => ?_)
    have heg := (hm.face_edges f (hsub f hf)).2.2 e he
    have hz : ∀ x ∈ g.eFaces e, ((((g.zFaces zone).foldl (fun m f => upd m f (some (if fn f < b then zl else zr))) g.fZone) x = some zl) ↔ x ∈ lf) ∧
        ((((g.zFaces zone).foldl (fun m f => upd m f (some (if fn f < b then zl else zr))) g.fZone) x = some zr) ↔ x ∈ rf) := by
      intro x hx
      rw [Grid.foldl_upd_const (g.zFaces zone) g.fZone (fun f => some (if fn f < b then zl else zr)) x]
      have hxf := ((hm.edge_face e heg x).1 hx).1
      by_cases hxz : x ∈ g.zFaces zone
      · rw [if_pos hxz]
        by_cases hlt : fn x < b
        · simp [lf, rf, hxz, hlt, hlr]
        · simp [lf, rf, hxz, hlt, hlr.symm, not_lt.1 hlt]
      · rw [if_neg hxz]
        obtain ⟨p, q⟩ := haw x hxf hxz
        simp [lf, rf, hxz, p, q]
    obtain ⟨k1, _⟩ := hm.edge_faces e heg
    rcases k1 with k1 | k1
    · obtain ⟨x, hx⟩ := List.length_eq_one_iff.1 k1
      have : ¬ (x ∈ lf ∧ x ∈ rf) := by
        rintro ⟨p, q⟩
        have p := (List.mem_filter.1 p).2
        have q := (List.mem_filter.1 q).2
        simp only [decide_eq_true_eq] at p q
        exact absurd p (not_lt_of_ge q)
      simp only [hx, crossing]
      rw [eq_comm, Bool.eq_false_iff]
      simpa using fun p q => this ⟨p, q⟩
    · obtain ⟨x, y, hxy⟩ := List.length_eq_two.1 k1
      have hnb : ∀ x, x ∈ lf → x ∉ rf := by
        intro x p q
        have p := (List.mem_filter.1 p).2
        have q := (List.mem_filter.1 q).2
        simp only [decide_eq_true_eq] at p q
        exact absurd p (not_lt_of_ge q)
      have hx := hz x (by simp [hxy])
      have hy := hz y (by simp [hxy])
      simp only [hxy, crossing]
      rw [Bool.eq_iff_iff]
      simp only [Bool.or_eq_true, Bool.and_eq_true, decide_eq_true_eq, hx.1, hx.2, hy.1, hy.2, List.any_cons, List.any_nil,
        Bool.or_false, List.contains_iff_mem]
      have p := hnb x
      have q := hnb y
      clear hx hy hz hnb
      generalize (x ∈ lf) = a' at *
      generalize (x ∈ rf) = c' at *
      generalize (y ∈ lf) = d' at *
      generalize (y ∈ rf) = e' at *
      clear_value lf rf
      tauto

/-- The metrics are the numbers of cut edges, whatever was done before. -/
theorem splitMetrics_value (zone zl zr : Nat) (hlr : zl ≠ zr) (fns : List (Nat → S)) (g g' : Grid F R) (hm : Mesh g)
    (hnd : (g.zFaces zone).Nodup) (hne : g.zFaces zone ≠ []) (hsub : ∀ f ∈ g.zFaces zone, f ∈ g.faces) (haw : Away g zone zl zr) (ms : List (Option Nat))
    (h : Grid.splitMetrics zone zl zr fns g = .ok (g', ms)) (i : Nat) (fn : Nat → S) (hi : fns[i]? = some fn) (v : Nat)
    (hv : ms[i]? = some (some v)) (b : S) (hb : IsMedian ((g.zFaces zone).map fn) b) :
    v = 2 * cutEdges g ((g.zFaces zone).filter (fun f => decide (fn f < b)))
      ((g.zFaces zone).filter (fun f => decide (b ≤ fn f))) := by
  induction fns generalizing g ms i with
  | nil => simp at hi
  | cons f0 fns ih =>
    obtain ⟨fz1, m, a1, _, a3, _⟩ := splitZoneMetric_spec g zone zl zr f0 hne
    have h0 : (g.splitZoneMetric zone zl zr f0 >>= fun p => Grid.splitMetrics zone zl zr fns p.1 >>= fun q =>
        (pure (q.1, p.2 :: q.2) : Res _)) = .ok (g', ms) := h
    rw [a1, res_bind_ok] at h0
    obtain ⟨q, k1, k2⟩ := (res_bind_eq_ok).1 h0
    cases k2
    cases i with
    | zero =>
      simp only [List.getElem?_cons_zero, Option.some.injEq] at hi hv
      subst hi hv
      exact splitZoneMetric_value g _ hm zone zl zr hlr f0 hnd hsub haw v b hb a1
    | succ i =>
      simp only [List.getElem?_cons_succ] at hi hv
      exact ih { g with fZone := fz1 } (Mesh.congr (by constructor <;> rfl) hm) hnd hne hsub
        (fun f hf hz => by
          show fz1 f ≠ _ ∧ fz1 f ≠ _
          rw [a3 f hz]; exact haw f hf hz) q.2 k1 i hi hv hb

/-- The first of the best metrics is taken. -/
theorem bestMetric_first {ms : List (Option Nat)} {k v i : Nat} (h : Grid.bestMetric ms k = some (v, i)) (j w : Nat)
    (hj : j + k < i) (hw : ms[j]? = some (some w)) : v < w := by
  induction ms generalizing k v i j with
  | nil => simp at hw
  | cons m ms ih =>
    cases m with
    | none =>
      cases j with
      | zero => simp at hw
      | succ j => exact ih (by simpa [Grid.bestMetric] using h) j (by omega) (by simpa using hw)
    | some u =>
      rw [Grid.bestMetric] at h
      split at h
      · rename_i m' i' hb
        split at h
        · cases h; omega
        · rename_i hle
          cases h
          cases j with
          | zero => simp at hw; omega
          | succ j => exact ih hb j (by omega) (by simpa using hw)
      · cases h; omega

/-- The grid in which the metrics are computed. -/
def opened (g : Grid F R) (zone : Nat) : Grid F R :=
  { ((g.newZone (g.zName zone ++ ['l'])).newZone (g.zName zone ++ ['r'])) with
    zones := g.zones.erase zone ++ [g.zNext] ++ [g.zNext + 1] }

theorem splitZone_unfold (g : Grid F R) (zone : Nat) (fns : List (Nat → S)) (hz : zone ∈ g.zones) (hal : ZonesAlloc g)
    (hx : g.zFixed zone = false) (hl : 2 ≤ (g.zFaces zone).length) (fz : Nat → Option Nat) (ms : List (Option Nat))
    (a1 : Grid.splitMetrics zone g.zNext (g.zNext + 1) fns (opened g zone) = .ok ({ opened g zone with fZone := fz }, ms)) :
    g.splitZone zone fns = (if fns.isEmpty then .error .value
      else match Grid.bestMetric ms 0 with
      | none => (Py.remove (opened g zone).zones zone >>= fun l => pure { ({ opened g zone with fZone := fz } : Grid F R) with zones := l ++ [zone] })
      | some (_, i) =>
        match fns[i]? with
        | none => .error .index
        | some fn =>
          Grid.median ((g.zFaces zone).map fn) >>= fun blade =>
          ((g.zFaces zone).filter (fun f => decide (fn f < blade))).foldlM (fun g' f => g'.zoneAddFace g.zNext f)
            ({ opened g zone with fZone := fz } : Grid F R) >>= fun g2 =>
          ((g.zFaces zone).filter (fun f => decide (blade ≤ fn f))).foldlM (fun g' f => g'.zoneAddFace (g.zNext + 1) f) g2) := by
  have hzlt := hal zone hz
  have e1 : (opened g zone).zFaces zone = g.zFaces zone := by
    show upd (upd g.zFaces g.zNext _) (g.zNext + 1) _ zone = _
    rw [upd_ne _ _ (show zone ≠ g.zNext + 1 by omega), upd_ne _ _ (show zone ≠ g.zNext by omega)]
  have hname : g.zName zone = (g.newZone (g.zName zone ++ ['l'])).zName zone := by
    show _ = upd _ _ _ zone
    rw [upd_ne _ _ (show zone ≠ g.zNext by omega)]
  unfold Grid.splitZone
  rw [if_neg (by simp [hx]), if_neg (by omega)]
  have hrm : Py.remove ((g.newZone (g.zName zone ++ ['l'])).newZone
      ((g.newZone (g.zName zone ++ ['l'])).zName zone ++ ['r'])).zones zone = .ok (g.zones.erase zone) := by
    show Py.remove g.zones zone = _
    simp [Py.remove, hz]
  show (Py.remove ((g.newZone (g.zName zone ++ ['l'])).newZone
      ((g.newZone (g.zName zone ++ ['l'])).zName zone ++ ['r'])).zones zone >>= _) = _
  rw [hrm, res_bind_ok]
  have hg1 : ({ ((g.newZone (g.zName zone ++ ['l'])).newZone
      ((g.newZone (g.zName zone ++ ['l'])).zName zone ++ ['r'])) with
      zones := g.zones.erase zone ++ [g.zNext] ++ [g.zNext + 1] } : Grid F R) = opened g zone := by
    show _ = ({ ((g.newZone (g.zName zone ++ ['l'])).newZone (g.zName zone ++ ['r'])) with
      zones := g.zones.erase zone ++ [g.zNext] ++ [g.zNext + 1] } : Grid F R)
    rw [← hname]
  show (Grid.splitMetrics zone g.zNext (g.zNext + 1) fns ({ ((g.newZone (g.zName zone ++ ['l'])).newZone
      ((g.newZone (g.zName zone ++ ['l'])).zName zone ++ ['r'])) with
      zones := g.zones.erase zone ++ [g.zNext] ++ [g.zNext + 1] } : Grid F R) >>= _) = _
  rw [hg1, a1, res_bind_ok]
  simp only [e1]
  rfl

theorem splitZone_best (g g' : Grid F R) (hw : Wf g) (zone : Nat) (fns : List (Nat → S)) (hz : zone ∈ g.zones)
    (hx : g.zFixed zone = false) (hl : 2 ≤ (g.zFaces zone).length) (hr : g.splitZone zone fns = .ok g') :
    ∃ (i : Nat) (fn : Nat → S), fns[i]? = some fn ∧ g.splitZone zone [fn] = .ok g' ∧ ∃ b, IsMedian ((g.zFaces zone).map fn) b ∧
      ∀ (j : Nat) (fn' : Nat → S) (b' : S), fns[j]? = some fn' → IsMedian ((g.zFaces zone).map fn') b' → (∃ f ∈ g.zFaces zone, fn' f < b') →
        cutEdges g ((g.zFaces zone).filter (fun f => decide (fn f < b))) ((g.zFaces zone).filter (fun f => decide (b ≤ fn f))) ≤
          cutEdges g ((g.zFaces zone).filter (fun f => decide (fn' f < b'))) ((g.zFaces zone).filter (fun f => decide (b' ≤ fn' f))) ∧
        (j < i → cutEdges g ((g.zFaces zone).filter (fun f => decide (fn f < b))) ((g.zFaces zone).filter (fun f => decide (b ≤ fn f))) <
          cutEdges g ((g.zFaces zone).filter (fun f => decide (fn' f < b'))) ((g.zFaces zone).filter (fun f => decide (b' ≤ fn' f)))) := by
  have hal := hw.alloc
  have hzlt := hal zone hz
  have hnd : (g.zFaces zone).Nodup :=
    List.Sublist.nodup (List.sublist_flatten_of_mem (List.mem_map_of_mem hz))
      (hw.zones.partition.nodup_iff.2 hw.mesh.faces_nodup)
  have hsub : ∀ f ∈ g.zFaces zone, f ∈ g.faces := fun f hf =>
    hw.zones.partition.mem_iff.1 (List.mem_flatMap.2 ⟨zone, hz, hf⟩)
  rcases splitZone_main g zone fns hz hw.zones.zones_nodup hal hnd (hw.zones.points zone hz) hx hl with
    ⟨_, h⟩ | ⟨fl, hlast, hls, _⟩
  · rw [hr] at h; cases h
  have e1 : (opened g zone).zFaces zone = g.zFaces zone := by
    show upd (upd g.zFaces g.zNext _) (g.zNext + 1) _ zone = _
    rw [upd_ne _ _ (show zone ≠ g.zNext + 1 by omega), upd_ne _ _ (show zone ≠ g.zNext by omega)]
  have hne : (opened g zone).zFaces zone ≠ [] := by
    rw [e1]; intro hc; rw [hc] at hl; simp at hl
  have haw : Away (opened g zone) zone g.zNext (g.zNext + 1) := by
    intro f hf hfz
    show g.fZone f ≠ _ ∧ g.fZone f ≠ _
    obtain ⟨z, hzz, hfz'⟩ := List.mem_flatMap.1 (hw.zones.partition.mem_iff.2 hf)
    rw [hw.zones.points z hzz f hfz']
    have := hal z hzz
    constructor <;> (intro hc; cases hc; omega)
  have hm : Mesh (opened g zone) := Mesh.congr (by constructor <;> rfl) hw.mesh
  obtain ⟨fz, ms, a1, a2, a3, a4, a5, _⟩ := splitMetrics_spec zone g.zNext (g.zNext + 1) fns (opened g zone) hne
  have hval := splitMetrics_value zone g.zNext (g.zNext + 1) (by omega) fns (opened g zone) _ hm (by rw [e1]; exact hnd) hne
    (by rw [e1]; exact hsub) haw ms a1
  rw [e1] at a2 a4 a5 hval
  have hunf := splitZone_unfold g zone fns hz hal hx hl fz ms a1
  rw [hr] at hunf
  have hemp : fns.isEmpty = false := by
    cases fns with
    | nil => simp at hlast
    | cons a t => rfl
  rw [if_neg (by simp [hemp])] at hunf
  cases hb : Grid.bestMetric ms 0 with
  | none =>
    obtain ⟨i, hi⟩ := List.mem_iff_getElem?.1 (List.mem_of_getLast? hlast)
    obtain ⟨m, hm1, hm2⟩ := a2 i fl hi
    exact absurd hls (hm2.1 (bestMetric_none hb m (List.mem_of_getElem? hm1)))
  | some p =>
    obtain ⟨v, i⟩ := p
    rw [hb] at hunf
    obtain ⟨_, hm1, hmin⟩ := bestMetric_some hb
    rw [Nat.sub_zero] at hm1
    have hilt : i < fns.length := by rw [← a3]; exact (List.getElem?_eq_some_iff.1 hm1).1
    obtain ⟨fn, hfi⟩ : ∃ fn, fns[i]? = some fn := ⟨_, List.getElem?_eq_getElem hilt⟩
    obtain ⟨m, hm2, hm3⟩ := a2 i fn hfi
    have hsp : Splits (g.zFaces zone) fn := by
      rw [hm1] at hm2
      cases hm2
      exact Classical.not_not.1 (mt hm3.2 (by simp))
    simp only [hfi] at hunf
    obtain ⟨b, hb1, hb2, _⟩ := median_spec ((g.zFaces zone).map fn) (by rw [e1] at hne; simpa using hne)
    refine ⟨i, fn, hfi, ?_, b, hb2, ?_⟩
    · obtain ⟨fz', ms', c1, c2, c3, c4, c5, _⟩ := splitMetrics_spec zone g.zNext (g.zNext + 1) [fn] (opened g zone) hne
      rw [e1] at c2 c4 c5
      rw [splitZone_unfold g zone [fn] hz hal hx hl fz' ms' c1]
      have hfz : fz' = fz := by
        funext f
        by_cases hf : f ∈ g.zFaces zone
        · rw [a5 fl hlast hls f hf, c5 fn rfl hsp f hf]
        · rw [a4 f hf, c4 f hf]
      rw [hfz, if_neg (by simp)]
      obtain ⟨m', d1, d2⟩ := c2 0 fn rfl
      have : ∃ u, m' = some u := by
        cases m' with
        | none => exact absurd hsp (d2.1 rfl)
        | some u => exact ⟨u, rfl⟩
      obtain ⟨u, rfl⟩ := this
      have hms : ms' = [some u] := by
        cases ms' with
        | nil => simp at d1
        | cons a t =>
          have : t = [] := by simpa using c3
          simp at d1
          rw [d1, this]
      rw [hms]
      exact hunf.symm
    · intro j fn' b' hj hb' hs'
      obtain ⟨m', d1, d2⟩ := a2 j fn' hj
      have : ∃ u, m' = some u := by
        cases m' with
        | none => exact absurd ⟨b', hb', hs'⟩ (d2.1 rfl)
        | some u => exact ⟨u, rfl⟩
      obtain ⟨u, rfl⟩ := this
      have hv := hval i fn hfi v hm1 b hb2
      have hu := hval j fn' hj u d1 b' hb'
      have hle := hmin u (List.mem_of_getElem? d1)
      have e : ∀ l r, cutEdges (opened g zone) l r = cutEdges g l r := fun _ _ => rfl
      rw [e] at hv hu
      refine ⟨by omega, fun hji => ?_⟩
      have := bestMetric_first hb j u (by omega) d1
      omega

end Verif
