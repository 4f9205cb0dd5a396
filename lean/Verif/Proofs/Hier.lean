import Verif.Proofs.Farhat
import Verif.Spec.Hier

/-! Hierarchical decomposition. -/

namespace Verif
variable {F R : Type} {S : Type} [LinearOrder S]

theorem isMedian_unique {l : List S} {a b : S} (ha : IsMedian l a) (hb : IsMedian l b) : a = b := by
  obtain ⟨s, h1, h2, h3⟩ := ha
  obtain ⟨t, k1, k2, k3⟩ := hb
  have : s = t := List.Perm.eq_of_pairwise (fun a b _ _ h1 h2 => le_antisymm h1 h2) h2 k2 (h1.trans k1.symm)
  subst this
  rw [h3] at k3; exact Option.some.inj k3

theorem median_spec (l : List S) (h : l ≠ []) : ∃ b, Grid.median l = .ok b ∧ IsMedian l b ∧ b ∈ l := by
  have hp := List.mergeSort_perm l (fun a b => decide (a ≤ b))
  have hlt : l.length / 2 < (l.mergeSort (fun a b => decide (a ≤ b))).length := by
    rw [hp.length_eq]
    have : 0 < l.length := List.length_pos_of_ne_nil h
    omega
  refine ⟨_, ?_, ⟨_, hp, ?_, List.getElem?_eq_getElem hlt⟩, hp.mem_iff.1 (List.getElem_mem hlt)⟩
  · unfold Grid.median
    rw [get_ofNat, List.getElem?_eq_getElem hlt]
  · have := List.pairwise_mergeSort (le := fun a b : S => decide (a ≤ b))
      (by intro a b c; simpa using le_trans) (by intro a b; simpa using le_total a b) l
    exact this.imp (by intro a b; simp)

theorem splitZoneMetric_spec (g : Grid F R) (zone zl zr : Nat) (fn : Nat → S) (h : g.zFaces zone ≠ []) :
    ∃ fz m, g.splitZoneMetric zone zl zr fn = .ok ({ g with fZone := fz }, m) ∧
      (m = none ↔ ¬ Splits (g.zFaces zone) fn) ∧
      (∀ f, f ∉ g.zFaces zone → fz f = g.fZone f) ∧
      (m ≠ none → ∀ f ∈ g.zFaces zone, fz f = some zone) ∧
      (m = none → ∀ f ∈ g.zFaces zone, fz f = some zl ∨ fz f = some zr) := by
  obtain ⟨b, h1, h2, h3⟩ := median_spec ((g.zFaces zone).map fn) (by simpa using h)
  obtain ⟨f0, hf0, hb0⟩ := List.mem_map.1 h3
  have hzr : ((g.zFaces zone).filter (fun f => !decide (fn f < b))).length ≠ 0 := by
    intro hc
    have := List.filter_eq_nil_iff.1 (List.length_eq_zero_iff.1 hc) f0 hf0
    simp [hb0] at this
  have hsp : ((g.zFaces zone).filter (fun f => decide (fn f < b))).length = 0 ↔ ¬ Splits (g.zFaces zone) fn := by
    rw [List.length_eq_zero_iff, List.filter_eq_nil_iff]
    constructor
    · rintro hall ⟨b', hb', f, hf, hlt⟩
      rw [isMedian_unique hb' h2] at hlt
      exact hall f hf (by simpa using hlt)
    · intro hn f hf hc
      exact hn ⟨b, h2, f, hf, by simpa using hc⟩
  by_cases hs : ((g.zFaces zone).filter (fun f => decide (fn f < b))).length = 0
  · refine ⟨(g.zFaces zone).foldl (fun m f => upd m f (some (if fn f < b then zl else zr))) g.fZone, none, ?_, ?_, ?_, ?_, ?_⟩
    · unfold Grid.splitZoneMetric
      show (Grid.median ((g.zFaces zone).map fn) >>= _) = _
      rw [h1, res_bind_ok]
      exact if_pos (Or.inl hs)
    · simp [hsp.1 hs]
    · intro f hf
      rw [Grid.foldl_upd_const (g.zFaces zone) g.fZone (fun f => some (if fn f < b then zl else zr)) f, if_neg hf]
    · intro hc; exact absurd rfl hc
    · intro _ f hf
      rw [Grid.foldl_upd_const (g.zFaces zone) g.fZone (fun f => some (if fn f < b then zl else zr)) f, if_pos hf]
      split
      · exact Or.inl rfl
      · exact Or.inr rfl
  · have hnn : ¬ (((g.zFaces zone).filter (fun f => decide (fn f < b))).length = 0 ∨
        ((g.zFaces zone).filter (fun f => !decide (fn f < b))).length = 0) := by simp only [hs, hzr, or_self, not_false_eq_true]
    let g1 : Grid F R := { g with fZone := (g.zFaces zone).foldl (fun m f => upd m f (some (if fn f < b then zl else zr))) g.fZone }
    refine ⟨(g.zFaces zone).foldl (fun m f => upd m f (some zone)) g1.fZone,
      some ((g.zFaces zone).map (fun f => ((g1.fEdges f).filter (fun e =>
      match g1.eFaces e with
      | [ff, sf] => (decide (g1.fZone ff = some zl) && decide (g1.fZone sf = some zr)) ||
                    (decide (g1.fZone ff = some zr) && decide (g1.fZone sf = some zl))
      | _ => false)).length)).sum, ?_, ?_, ?_, ?_, ?_⟩
    · unfold Grid.splitZoneMetric
      show (Grid.median ((g.zFaces zone).map fn) >>= _) = _
      rw [h1, res_bind_ok]
      exact if_neg hnn
    · simp only [reduceCtorEq, false_iff, not_not]
      exact Classical.not_not.1 (mt hsp.2 hs)
    · intro f hf
      rw [Grid.foldl_upd_const (g.zFaces zone) _ (fun _ => some zone) f, if_neg hf]
      show ((g.zFaces zone).foldl (fun m f => upd m f (some (if fn f < b then zl else zr))) g.fZone) f = _
      rw [Grid.foldl_upd_const (g.zFaces zone) g.fZone (fun f => some (if fn f < b then zl else zr)) f, if_neg hf]
    · intro _ f hf
      rw [Grid.foldl_upd_const (g.zFaces zone) _ (fun _ => some zone) f, if_pos hf]
    · intro hc; cases hc

theorem splitMetrics_spec (zone zl zr : Nat) (fns : List (Nat → S)) (g : Grid F R) (h : g.zFaces zone ≠ []) :
    ∃ fz ms, Grid.splitMetrics zone zl zr fns g = .ok ({ g with fZone := fz }, ms) ∧
      (∀ (i : Nat) fn, fns[i]? = some fn → ∃ m, ms[i]? = some m ∧ (m = none ↔ ¬ Splits (g.zFaces zone) fn)) ∧
      ms.length = fns.length ∧
      (∀ f, f ∉ g.zFaces zone → fz f = g.fZone f) ∧
      (∀ fn, fns.getLast? = some fn → Splits (g.zFaces zone) fn → ∀ f ∈ g.zFaces zone, fz f = some zone) ∧
      (∀ fn, fns.getLast? = some fn → ¬ Splits (g.zFaces zone) fn →
        ∀ f ∈ g.zFaces zone, fz f = some zl ∨ fz f = some zr) := by
  induction fns generalizing g with
  | nil => exact ⟨g.fZone, [], rfl, by simp, rfl, by simp, by simp, by simp⟩
  | cons fn fns ih =>
    obtain ⟨fz1, m, a1, a2, a3, a4, a5⟩ := splitZoneMetric_spec g zone zl zr fn h
    obtain ⟨fz2, ms, b1, b2, b3, b4, b5, b6⟩ := ih { g with fZone := fz1 } h
    refine ⟨fz2, m :: ms, ?_, ?_, by simp [b3], ?_, ?_, ?_⟩
    · show (g.splitZoneMetric zone zl zr fn >>= _) = _
      rw [a1, res_bind_ok]
      show (Grid.splitMetrics zone zl zr fns { g with fZone := fz1 } >>= _) = _
      rw [b1]; rfl
    · intro i fn' hi
      cases i with
      | zero => simp at hi; subst hi; exact ⟨m, rfl, a2⟩
      | succ i => exact b2 i fn' (by simpa using hi)
    · intro f hf; rw [b4 f hf]; exact a3 f hf
    · intro fn' hl hs f hf
      cases fns with
      | nil =>
        simp at hl; subst hl
        cases b1
        exact a4 (fun hm => (a2.1 hm) hs) f hf
      | cons fn2 fns => exact b5 fn' (by simpa [List.getLast?_cons_cons] using hl) hs f hf
    · intro fn' hl hs f hf
      cases fns with
      | nil =>
        simp at hl; subst hl
        cases b1
        exact a5 (a2.2 hs) f hf
      | cons fn2 fns => exact b6 fn' (by simpa [List.getLast?_cons_cons] using hl) hs f hf

theorem bestMetric_none {ms : List (Option Nat)} {k : Nat} : Grid.bestMetric ms k = none → ∀ m ∈ ms, m = none := by
  induction ms generalizing k with
  | nil => simp
  | cons m ms ih =>
    cases m with
    | none =>
      intro h m hm
      rcases List.mem_cons.1 hm with rfl | hm
      · rfl
      · exact ih (by simpa [Grid.bestMetric] using h) m hm
    | some v =>
      intro h
      rw [Grid.bestMetric] at h
      split at h
      · split at h <;> cases h
      · cases h

/-- The chosen metric is finite and minimal. -/
theorem bestMetric_some {ms : List (Option Nat)} {k v i : Nat} (h : Grid.bestMetric ms k = some (v, i)) :
    k ≤ i ∧ ms[i - k]? = some (some v) ∧ ∀ w, some w ∈ ms → v ≤ w := by
  induction ms generalizing k v i with
  | nil => simp [Grid.bestMetric] at h
  | cons m ms ih =>
    cases m with
    | none =>
      obtain ⟨h1, h2, h3⟩ := ih (by simpa [Grid.bestMetric] using h)
      refine ⟨by omega, ?_, ?_⟩
      · rw [show i - k = (i - (k + 1)) + 1 by omega]; simpa using h2
      · intro w hw; exact h3 w (by simpa using hw)
    | some u =>
      rw [Grid.bestMetric] at h
      split at h
      · rename_i m' j hb
        obtain ⟨h1, h2, h3⟩ := ih hb
        split at h
        · rename_i hle
          cases h
          refine ⟨by omega, by simp, ?_⟩
          intro w hw
          rcases List.mem_cons.1 hw with hw | hw
          · cases hw; omega
          · have := h3 w hw; omega
        · rename_i hle
          cases h
          refine ⟨by omega, ?_, ?_⟩
          · rw [show i - k = (i - (k + 1)) + 1 by omega]; simpa using h2
          · intro w hw
            rcases List.mem_cons.1 hw with hw | hw
            · cases hw; omega
            · exact h3 w hw
      · rename_i hb
        cases h
        refine ⟨by omega, by simp, ?_⟩
        intro w hw
        rcases List.mem_cons.1 hw with hw | hw
        · cases hw; omega
        · have := bestMetric_none hb _ hw; cases this

/-- A face linked to a zone which does not list it cannot be moved. -/
theorem zoneAddFace_fail (g : Grid F R) (z f z' : Nat) (h : g.fZone f = some z') (hn : f ∉ g.zFaces z') :
    g.zoneAddFace z f = .error .value := by
  unfold Grid.zoneAddFace Grid.unlinkFromZone
  simp [h, Py.remove, hn]

/-- What `split_zone` does to a zone that is neither fixed nor too small. -/
structure SplitOf (g : Grid F R) (zone : Nat) (fns : List (Nat → S)) (g' : Grid F R) : Prop where
  same : SameMesh g g'
  name : g'.name = g.name
  next : g'.zNext = g.zNext + 2
  zones : g'.zones = g.zones.erase zone ++ [g.zNext, g.zNext + 1]
  others : ∀ z ∈ g.zones, z ≠ zone → g'.zFaces z = g.zFaces z ∧ g'.zName z = g.zName z ∧ g'.zFixed z = g.zFixed z
  names : g'.zName g.zNext = g.zName zone ++ ['l'] ∧ g'.zName (g.zNext + 1) = g.zName zone ++ ['r']
  fixed : g'.zFixed g.zNext = false ∧ g'.zFixed (g.zNext + 1) = false
  split : ∃ fn ∈ fns, ∃ b, IsMedian ((g.zFaces zone).map fn) b ∧
    g'.zFaces g.zNext = (g.zFaces zone).filter (fun f => decide (fn f < b)) ∧
    g'.zFaces (g.zNext + 1) = (g.zFaces zone).filter (fun f => decide (b ≤ fn f)) ∧
    g'.zFaces g.zNext ≠ [] ∧ g'.zFaces (g.zNext + 1) ≠ []
  moved : ∀ z, z = g.zNext ∨ z = g.zNext + 1 → ∀ f ∈ g'.zFaces z, g'.fZone f = some z
  kept : ∀ f, f ∉ g.zFaces zone → g'.fZone f = g.fZone f

theorem splitZone_skip (g : Grid F R) (zone : Nat) (fns : List (Nat → S)) (hz : zone ∈ g.zones)
    (h : g.zFixed zone = true ∨ (g.zFaces zone).length < 2) :
    g.splitZone zone fns = .ok { g with zones := g.zones.erase zone ++ [zone] } := by
  unfold Grid.splitZone
  by_cases hx : g.zFixed zone = true
  · simp [hx, Py.remove, hz]
  · rw [if_neg hx, if_pos (h.resolve_left hx)]
    simp [Py.remove, hz]

theorem splitZone_main (g : Grid F R) (zone : Nat) (fns : List (Nat → S)) (hz : zone ∈ g.zones) (hnd : g.zones.Nodup)
    (hal : ZonesAlloc g) (hfn : (g.zFaces zone).Nodup)
    (hpt : ∀ f ∈ g.zFaces zone, g.fZone f = some zone)
    (hx : g.zFixed zone = false) (hl : 2 ≤ (g.zFaces zone).length) :
    ((∀ fn, fns.getLast? = some fn → ¬ Splits (g.zFaces zone) fn) ∧ g.splitZone zone fns = .error .value) ∨
    ∃ fn, fns.getLast? = some fn ∧ Splits (g.zFaces zone) fn ∧
      ∃ g', g.splitZone zone fns = .ok g' ∧ SplitOf g zone fns g' := by
  have hzlt := hal zone hz
  let g1 : Grid F R := { ((g.newZone (g.zName zone ++ ['l'])).newZone (g.zName zone ++ ['r'])) with
    zones := g.zones.erase zone ++ [g.zNext] ++ [g.zNext + 1] }
  have e1 : g1.zFaces zone = g.zFaces zone := by
    show upd (upd g.zFaces g.zNext _) (g.zNext + 1) _ zone = _
    rw [upd_ne _ _ (show zone ≠ g.zNext + 1 by omega), upd_ne _ _ (show zone ≠ g.zNext by omega)]
  have e2 : g1.fZone = g.fZone := rfl
  have el : g1.zFaces g.zNext = [] := by
    show upd (upd g.zFaces g.zNext _) (g.zNext + 1) _ g.zNext = _
    rw [upd_ne _ _ (show g.zNext ≠ g.zNext + 1 by omega), upd_self]
  have er : g1.zFaces (g.zNext + 1) = [] := by
    show upd (upd g.zFaces g.zNext _) (g.zNext + 1) _ (g.zNext + 1) = _
    rw [upd_self]
  have hne : g1.zFaces zone ≠ [] := by
    rw [e1]; intro hc; rw [hc] at hl; simp at hl
  obtain ⟨fz, ms, a1, a2, a3, a4, a5, a6⟩ := splitMetrics_spec zone g.zNext (g.zNext + 1) fns g1 hne
  have hname : g.zName zone = (g.newZone (g.zName zone ++ ['l'])).zName zone := by
    show _ = upd _ _ _ zone
    rw [upd_ne _ _ (show zone ≠ g.zNext by omega)]
  have hunf : g.splitZone zone fns = (if fns.isEmpty then .error .value
      else match Grid.bestMetric ms 0 with
      | none => (Py.remove g1.zones zone >>= fun l => pure { ({ g1 with fZone := fz } : Grid F R) with zones := l ++ [zone] })
      | some (_, i) =>
        match fns[i]? with
        | none => .error .index
        | some fn =>
          Grid.median ((g.zFaces zone).map fn) >>= fun blade =>
          ((g.zFaces zone).filter (fun f => decide (fn f < blade))).foldlM (fun g' f => g'.zoneAddFace g.zNext f)
            ({ g1 with fZone := fz } : Grid F R) >>= fun g2 =>
          ((g.zFaces zone).filter (fun f => decide (blade ≤ fn f))).foldlM (fun g' f => g'.zoneAddFace (g.zNext + 1) f) g2) := by
    unfold Grid.splitZone
    rw [if_neg (by simp [hx]), if_neg (by omega)]
    have hrm : Py.remove ((g.newZone (g.zName zone ++ ['l'])).newZone
        ((g.newZone (g.zName zone ++ ['l'])).zName zone ++ ['r'])).zones zone = .ok (g.zones.erase zone) := by
      show Py.remove g.zones zone = _
      simp [Py.remove, hz]
    show (Py.remove ((g.newZone (g.zName zone ++ ['l'])).newZone
        ((g.newZone (g.zName zone ++ ['l'])).zName zone ++ ['r'])).zones zone >>= _) = _
    rw [hrm, res_bind_ok]
    have hg1 : ({ ((g.newZone (g.zName zone ++ ['l'])).newZone
        ((g.newZone (g.zName zone ++ ['l'])).zName zone ++ ['r'])) with
        zones := g.zones.erase zone ++ [g.zNext] ++ [g.zNext + 1] } : Grid F R) = g1 := by
      show _ = ({ ((g.newZone (g.zName zone ++ ['l'])).newZone (g.zName zone ++ ['r'])) with
        zones := g.zones.erase zone ++ [g.zNext] ++ [g.zNext + 1] } : Grid F R)
      rw [← hname]
    show (Grid.splitMetrics zone g.zNext (g.zNext + 1) fns ({ ((g.newZone (g.zName zone ++ ['l'])).newZone
        ((g.newZone (g.zName zone ++ ['l'])).zName zone ++ ['r'])) with
        zones := g.zones.erase zone ++ [g.zNext] ++ [g.zNext + 1] } : Grid F R) >>= _) = _
    rw [hg1, a1, res_bind_ok]
    simp only [e1]
    rfl
  have hznot : zone ∉ g1.zones := by
    show zone ∉ g.zones.erase zone ++ [g.zNext] ++ [g.zNext + 1]
    have : zone ∉ g.zones.erase zone := fun hc => by
      have := (List.Nodup.mem_erase_iff hnd).1 hc
      exact this.1 rfl
    simp only [List.mem_append, List.mem_singleton, this, false_or]
    omega
  rw [hunf]
  cases hlast : fns.getLast? with
  | none =>
    left
    have : fns = [] := List.getLast?_eq_none_iff.1 hlast
    subst this
    exact ⟨by simp, rfl⟩
  | some fl =>
    have hemp : fns.isEmpty = false := by
      cases fns with
      | nil => simp at hlast
      | cons a t => rfl
    rw [if_neg (by simp [hemp])]
    cases hb : Grid.bestMetric ms 0 with
    | none =>
      left
      refine ⟨?_, ?_⟩
      · intro fn hfn
        have hmem : fn ∈ fns := List.mem_of_getLast? (by rw [hlast, hfn])
        obtain ⟨i, hi⟩ := List.mem_iff_getElem?.1 hmem
        obtain ⟨m, hm1, hm2⟩ := a2 i fn hi
        rw [e1] at hm2
        exact hm2.1 (bestMetric_none hb m (List.mem_of_getElem? hm1))
      · simp [Py.remove, hznot]
    | some p =>
      obtain ⟨v, i⟩ := p
      obtain ⟨_, hm1, _⟩ := bestMetric_some hb
      rw [Nat.sub_zero] at hm1
      have hilt : i < fns.length := by rw [← a3]; exact (List.getElem?_eq_some_iff.1 hm1).1
      obtain ⟨fn, hfi⟩ : ∃ fn, fns[i]? = some fn := ⟨_, List.getElem?_eq_getElem hilt⟩
      obtain ⟨m, hm2, hm3⟩ := a2 i fn hfi
      have hsp : Splits (g.zFaces zone) fn := by
        rw [hm1] at hm2
        cases hm2
        rw [e1] at hm3
        exact Classical.not_not.1 (mt hm3.2 (by simp))
      obtain ⟨b, hb1, hb2, hb3⟩ := median_spec ((g.zFaces zone).map fn) (by rw [e1] at hne; simpa using hne)
      have hlne : (g.zFaces zone).filter (fun f => decide (fn f < b)) ≠ [] := by
        obtain ⟨b', k1, f, k2, k3⟩ := hsp
        rw [isMedian_unique k1 hb2] at k3
        intro hc
        exact (List.filter_eq_nil_iff.1 hc) f k2 (by simpa using k3)
      have hrne : (g.zFaces zone).filter (fun f => decide (b ≤ fn f)) ≠ [] := by
        obtain ⟨f, hf, hfb⟩ := List.mem_map.1 hb3
        intro hc
        exact (List.filter_eq_nil_iff.1 hc) f hf (by simp [hfb])
      simp only [hfi, hb1, res_bind_ok]
      by_cases hls : Splits (g.zFaces zone) fl
      · right
        refine ⟨fl, rfl, hls, ?_⟩
        have hfz : ∀ f ∈ g.zFaces zone, fz f = some zone := by
          have := a5 fl hlast (by rw [e1]; exact hls)
          rwa [e1] at this
        let lf := (g.zFaces zone).filter (fun f => decide (fn f < b))
        let rf := (g.zFaces zone).filter (fun f => decide (b ≤ fn f))
        let pairs := lf.map (fun f => (g.zNext, f)) ++ rf.map (fun f => (g.zNext + 1, f))
        have hpm : ∀ p ∈ pairs, (p.1 = g.zNext ∨ p.1 = g.zNext + 1) ∧ p.2 ∈ g.zFaces zone := by
          intro p hp
          rcases List.mem_append.1 hp with hp | hp
          · obtain ⟨f, hf, rfl⟩ := List.mem_map.1 hp
            exact ⟨Or.inl rfl, (List.mem_filter.1 hf).1⟩
          · obtain ⟨f, hf, rfl⟩ := List.mem_map.1 hp
            exact ⟨Or.inr rfl, (List.mem_filter.1 hf).1⟩
        have hsnd : pairs.map (·.2) = lf ++ rf := by
          simp [pairs, List.map_map, Function.comp_def]
        have hcov : ∀ f, f ∈ lf ++ rf ↔ f ∈ g.zFaces zone := by
          intro f
          simp only [lf, rf, List.mem_append, List.mem_filter, decide_eq_true_eq]
          constructor
          · rintro (h | h) <;> exact h.1
          · intro h
            rcases lt_or_ge (fn f) b with h' | h'
            · exact Or.inl ⟨h, h'⟩
            · exact Or.inr ⟨h, h'⟩
        have hnd2 : (lf ++ rf).Nodup := by
          refine List.nodup_append.2 ⟨hfn.filter _, hfn.filter _, ?_⟩
          rintro a ha b' hb' rfl
          have h1 := (List.mem_filter.1 ha).2
          have h2 := (List.mem_filter.1 hb').2
          simp only [decide_eq_true_eq] at h1 h2
          exact absurd h1 (not_lt_of_ge h2)
        obtain ⟨zf', fz', c1, c2, c3, c4, c5⟩ := Grid.addAll_spec pairs (fun z => z = g.zNext ∨ z = g.zNext + 1)
          ({ g1 with fZone := fz } : Grid F R) (by
            intro p hp z hzz
            have h2 := (hpm p hp).2
            have hzz' : fz p.2 = some z := hzz
            rw [hfz p.2 h2] at hzz'
            cases hzz'
            refine ⟨?_, by omega⟩
            show p.2 ∈ g1.zFaces zone
            rw [e1]; exact h2) (fun p hp => (hpm p hp).1) (by rw [hsnd]; exact hnd2)
        rw [List.foldlM_append, List.foldlM_map] at c1
        have hpl : pairs.filter (fun p => p.1 = g.zNext) = lf.map (fun f => (g.zNext, f)) := by
          show (List.filter _ (_ ++ _)) = _
          rw [List.filter_append, List.filter_eq_self.2, List.filter_eq_nil_iff.2, List.append_nil]
          · intro p hp
            obtain ⟨f, _, rfl⟩ := List.mem_map.1 hp
            simp
          · intro p hp
            obtain ⟨f, _, rfl⟩ := List.mem_map.1 hp
            simp
        have hpr : pairs.filter (fun p => p.1 = g.zNext + 1) = rf.map (fun f => (g.zNext + 1, f)) := by
          show (List.filter _ (_ ++ _)) = _
          rw [List.filter_append, List.filter_eq_nil_iff.2, List.filter_eq_self.2, List.nil_append]
          · intro p hp
            obtain ⟨f, _, rfl⟩ := List.mem_map.1 hp
            simp
          · intro p hp
            obtain ⟨f, _, rfl⟩ := List.mem_map.1 hp
            simp
        have hzl : zf' g.zNext = lf := by
          rw [c2 _ (Or.inl rfl), hpl]
          show g1.zFaces g.zNext ++ _ = _
          rw [el]; simp [List.map_map, Function.comp_def]
        have hzr : zf' (g.zNext + 1) = rf := by
          rw [c2 _ (Or.inr rfl), hpr]
          show g1.zFaces (g.zNext + 1) ++ _ = _
          rw [er]; simp [List.map_map, Function.comp_def]
        refine ⟨{ g1 with zFaces := zf', fZone := fz' }, ?_, ?_⟩
        · refine Eq.trans ?_ c1
          congr 1
          funext g2
          rw [List.foldlM_map]
          rfl
        · constructor
          · constructor <;> rfl
          · rfl
          · rfl
          · show g.zones.erase zone ++ [g.zNext] ++ [g.zNext + 1] = _
            simp
          · intro z hzm hzne
            have hlt := hal z hzm
            refine ⟨?_, ?_, ?_⟩
            · show zf' z = _
              rw [c3 z (by omega)]
              · show upd (upd g.zFaces g.zNext _) (g.zNext + 1) _ z = _
                rw [upd_ne _ _ (show z ≠ g.zNext + 1 by omega), upd_ne _ _ (show z ≠ g.zNext by omega)]
              · intro p hp
                show fz p.2 ≠ some z
                rw [hfz p.2 (hpm p hp).2]
                intro hc; exact hzne (Option.some.inj hc).symm
            · show upd (upd g.zName g.zNext _) (g.zNext + 1) _ z = _
              rw [upd_ne _ _ (show z ≠ g.zNext + 1 by omega), upd_ne _ _ (show z ≠ g.zNext by omega)]
            · show upd (upd g.zFixed g.zNext _) (g.zNext + 1) _ z = _
              rw [upd_ne _ _ (show z ≠ g.zNext + 1 by omega), upd_ne _ _ (show z ≠ g.zNext by omega)]
          · refine ⟨?_, ?_⟩
            · show upd (upd g.zName g.zNext _) (g.zNext + 1) _ g.zNext = _
              rw [upd_ne _ _ (show g.zNext ≠ g.zNext + 1 by omega), upd_self]
            · show upd (upd g.zName g.zNext _) (g.zNext + 1) _ (g.zNext + 1) = _
              rw [upd_self]
          · refine ⟨?_, ?_⟩
            · show upd (upd g.zFixed g.zNext _) (g.zNext + 1) _ g.zNext = _
              rw [upd_ne _ _ (show g.zNext ≠ g.zNext + 1 by omega), upd_self]
            · show upd (upd g.zFixed g.zNext _) (g.zNext + 1) _ (g.zNext + 1) = _
              rw [upd_self]
          · refine ⟨fn, List.mem_of_getElem? hfi, b, hb2, hzl, hzr, ?_, ?_⟩
            · show zf' _ ≠ []; rw [hzl]; exact hlne
            · show zf' _ ≠ []; rw [hzr]; exact hrne
          · rintro z (rfl | rfl) f hf
            · have hf' : f ∈ lf := by rw [← hzl]; exact hf
              exact c4 (g.zNext, f) (List.mem_append_left _ (List.mem_map.2 ⟨f, hf', rfl⟩))
            · have hf' : f ∈ rf := by rw [← hzr]; exact hf
              exact c4 (g.zNext + 1, f) (List.mem_append_right _ (List.mem_map.2 ⟨f, hf', rfl⟩))
          · intro f hf
            show fz' f = _
            rw [c5 f (by rw [hsnd, hcov]; exact hf)]
            show fz f = _
            rw [a4 f (by rw [e1]; exact hf), e2]
      · left
        refine ⟨by rintro fn' h; cases h; exact hls, ?_⟩
        cases hlf : (g.zFaces zone).filter (fun f => decide (fn f < b)) with
        | nil => exact absurd hlf hlne
        | cons f lf =>
          have hf : f ∈ g.zFaces zone := (List.mem_filter.1 (by rw [hlf]; simp)).1
          have hfz := a6 fl hlast (by rw [e1]; exact hls) f (by rw [e1]; exact hf)
          have : Grid.zoneAddFace ({ g1 with fZone := fz } : Grid F R) g.zNext f = .error .value := by
            rcases hfz with h | h
            · exact zoneAddFace_fail _ _ _ _ h (by show f ∉ g1.zFaces _; rw [el]; simp)
            · exact zoneAddFace_fail _ _ _ _ h (by show f ∉ g1.zFaces _; rw [er]; simp)
          rw [List.foldlM_cons, this]
          rfl

/-! ### Levels -/

/-- Number of zones that are not among the kept ones. -/
def freeZones (keep l : List Nat) : Nat := (l.filter (fun z => decide (z ∉ keep))).length

theorem freeZones_append (keep a b : List Nat) : freeZones keep (a ++ b) = freeZones keep a + freeZones keep b := by
  simp [freeZones]

theorem freeZones_cons (keep : List Nat) (a : Nat) (b : List Nat) :
    freeZones keep (a :: b) = (if a ∈ keep then 0 else 1) + freeZones keep b := by
  unfold freeZones
  rw [List.filter_cons]
  by_cases h : a ∈ keep <;> simp [h]; omega

/-- Invariant of the splitting loops. `g` is the grid before the decomposition. -/
structure HInv (g : Grid F R) (keep : List Nat) (s : Grid F R) : Prop where
  same : SameMesh g s
  nodup : s.zones.Nodup
  partition : (s.zones.flatMap s.zFaces).Perm g.faces
  points : ∀ z ∈ s.zones, ∀ f ∈ s.zFaces z, s.fZone f = some z
  alloc : ZonesAlloc s
  keep_lt : ∀ z ∈ keep, z < g.zNext
  next : g.zNext ≤ s.zNext
  keep_mem : ∀ z ∈ keep, z ∈ s.zones ∧ s.zFixed z = true ∧ s.zFaces z = g.zFaces z ∧ s.zName z = g.zName z
  free : ∀ z ∈ s.zones, z ∉ keep → s.zFixed z = false

theorem HInv.zone_nodup {g : Grid F R} {keep : List Nat} {s : Grid F R} (h : HInv g keep s) (hm : Mesh g) {z : Nat}
    (hz : z ∈ s.zones) : (s.zFaces z).Nodup := by
  have := h.partition.nodup_iff.2 hm.faces_nodup
  exact (List.nodup_flatMap.1 this).1 z hz

/-- Zones that `split_zone` puts at the end of the list. -/
theorem splitZone_inv {g : Grid F R} (hm : Mesh g) {keep : List Nat} {s s' : Grid F R} (h : HInv g keep s) (z : Nat)
    (fns : List (Nat → S)) (hz : z ∈ s.zones) (hr : s.splitZone z fns = .ok s') :
    HInv g keep s' ∧ s'.name = s.name ∧ (∃ P, s'.zones = s.zones.erase z ++ P ∧
      freeZones keep P ≤ 2 * (if z ∈ keep then 0 else 1)) ∧
      ((∀ z ∈ s.zones, z ∉ keep → s.zFaces z ≠ []) → ∀ z ∈ s'.zones, z ∉ keep → s'.zFaces z ≠ []) ∧
      (∀ w ∈ s.zones, w ≠ z → s'.zFaces w = s.zFaces w ∧ s'.zFixed w = s.zFixed w) := by
  by_cases hx : s.zFixed z = true ∨ (s.zFaces z).length < 2
  · rw [splitZone_skip s z fns hz hx] at hr
    cases hr
    have hperm : (s.zones.erase z ++ [z]).Perm s.zones :=
      (List.perm_append_comm.trans (List.perm_cons_erase hz).symm)
    refine ⟨?_, rfl, ⟨[z], rfl, ?_⟩, ?_, fun w _ _ => ⟨rfl, rfl⟩⟩
    · constructor
      · exact h.same.trans (by constructor <;> rfl)
      · exact hperm.nodup_iff.2 h.nodup
      · exact (hperm.flatMap_right _).trans h.partition
      · intro w hw; exact h.points w (hperm.mem_iff.1 hw)
      · intro w hw; exact h.alloc w (hperm.mem_iff.1 hw)
      · exact h.keep_lt
      · exact h.next
      · intro w hw
        obtain ⟨k1, k2⟩ := h.keep_mem w hw
        exact ⟨hperm.mem_iff.2 k1, k2⟩
      · intro w hw; exact h.free w (hperm.mem_iff.1 hw)
    · rw [freeZones_cons]; simp [freeZones]; split <;> omega
    · intro ha w hw hwk; exact ha w (hperm.mem_iff.1 hw) hwk
  · have hfx : s.zFixed z = false := by
      cases hh : s.zFixed z with
      | true => exact absurd (Or.inl hh) hx
      | false => rfl
    have hlen : 2 ≤ (s.zFaces z).length := by
      rcases Nat.lt_or_ge (s.zFaces z).length 2 with hh | hh
      · exact absurd (Or.inr hh) hx
      · exact hh
    have hzk : z ∉ keep := fun hc => by
      have := (h.keep_mem z hc).2.1
      rw [hfx] at this; cases this
    rcases splitZone_main s z fns hz h.nodup h.alloc (h.zone_nodup hm hz) (h.points z hz) hfx hlen with ⟨_, he⟩ | ⟨_, _, _, g2, he, hs⟩
    · rw [he] at hr; cases hr
    rw [he] at hr
    cases hr
    have hperm0 : s.zones.Perm (z :: s.zones.erase z) := List.perm_cons_erase hz
    have hne : ∀ w ∈ s.zones.erase z, w ≠ z := fun w hw => ((List.Nodup.mem_erase_iff h.nodup).1 hw).1
    have hmem : ∀ w ∈ s.zones.erase z, w ∈ s.zones := fun w hw => List.mem_of_mem_erase hw
    have hpartl : ∀ (p : Nat → Bool), ((s.zFaces z).filter p ++ (s.zFaces z).filter (fun f => !p f)).Perm (s.zFaces z) :=
      fun p => List.filter_append_perm p _
    obtain ⟨fn, hfn, b, hb, hzl, hzr, hl0, hr0⟩ := hs.split
    have hrf : (s.zFaces z).filter (fun f => decide (b ≤ fn f)) = (s.zFaces z).filter (fun f => !decide (fn f < b)) := by
      apply List.filter_congr
      intro f _
      rw [← decide_not]
      simp
    refine ⟨?_, hs.name, ⟨[s.zNext, s.zNext + 1], hs.zones, ?_⟩, ?_, ?_⟩
    · constructor
      · exact h.same.trans hs.same
      · rw [hs.zones]
        refine List.nodup_append.2 ⟨h.nodup.erase _, by simp, ?_⟩
        intro a ha c hc e
        have := h.alloc a (hmem a ha)
        simp only [List.mem_cons, List.not_mem_nil, or_false] at hc
        omega
      · rw [hs.zones, List.flatMap_append, List.flatMap_congr (g := s.zFaces) (fun w hw => (hs.others w (hmem w hw) (hne w hw)).1)]
        refine List.Perm.trans ?_ h.partition
        refine List.Perm.trans ?_ (hperm0.flatMap_right _).symm
        rw [List.flatMap_cons]
        refine List.Perm.trans List.perm_append_comm (List.Perm.append_right _ ?_)
        simp only [List.flatMap_cons, List.flatMap_nil, List.append_nil]
        rw [hzl, hzr, hrf]
        exact hpartl _
      · intro w hw f hf
        rw [hs.zones] at hw
        rcases List.mem_append.1 hw with hw | hw
        · rw [(hs.others w (hmem w hw) (hne w hw)).1] at hf
          have hfw := h.points w (hmem w hw) f hf
          rw [hs.kept]
          · exact hfw
          · intro hc
            have := h.points z hz f hc
            rw [hfw] at this
            exact hne w hw (Option.some.inj this)
        · exact hs.moved w (by simpa using hw) f hf
      · intro w hw
        rw [hs.next]
        rw [hs.zones] at hw
        rcases List.mem_append.1 hw with hw | hw
        · have := h.alloc w (hmem w hw); omega
        · simp only [List.mem_cons, List.not_mem_nil, or_false] at hw; omega
      · exact h.keep_lt
      · have := h.next; rw [hs.next]; omega
      · intro w hw
        obtain ⟨k1, k2, k3, k4⟩ := h.keep_mem w hw
        have hwz : w ≠ z := fun e => hzk (e ▸ hw)
        obtain ⟨o1, o2, o3⟩ := hs.others w k1 hwz
        refine ⟨?_, by rw [o3, k2], by rw [o1, k3], by rw [o2, k4]⟩
        rw [hs.zones]
        exact List.mem_append_left _ ((List.Nodup.mem_erase_iff h.nodup).2 ⟨hwz, k1⟩)
      · intro w hw hwk
        rw [hs.zones] at hw
        rcases List.mem_append.1 hw with hw | hw
        · rw [(hs.others w (hmem w hw) (hne w hw)).2.2]
          exact h.free w (hmem w hw) hwk
        · simp only [List.mem_cons, List.not_mem_nil, or_false] at hw
          rcases hw with rfl | rfl
          · exact hs.fixed.1
          · exact hs.fixed.2
    · rw [if_neg hzk]
      have := List.length_filter_le (fun z => decide (z ∉ keep)) [s.zNext, s.zNext + 1]
      simpa [freeZones] using this
    · intro ha w hw hwk
      rw [hs.zones] at hw
      rcases List.mem_append.1 hw with hw | hw
      · rw [(hs.others w (hmem w hw) (hne w hw)).1]
        exact ha w (hmem w hw) hwk
      · simp only [List.mem_cons, List.not_mem_nil, or_false] at hw
        rcases hw with rfl | rfl
        · exact hl0
        · exact hr0
    · intro w hw hwz
      exact ⟨(hs.others w hw hwz).1, (hs.others w hw hwz).2.2⟩

theorem get_zero {l : List Nat} {z : Nat} {t : List Nat} (h : l = z :: t) : Py.get l 0 = .ok z := by
  have := get_ofNat l 0
  rw [h] at this ⊢
  exact this

theorem splitLevel_inv {g : Grid F R} (hm : Mesh g) {keep : List Nat} (fns : List (Nat → S)) (A : List Nat) :
    ∀ (B : List Nat) (s s' : Grid F R), HInv g keep s → s.zones = A ++ B →
      Grid.splitLevel fns A.length s = .ok s' →
      HInv g keep s' ∧ s'.name = s.name ∧ (∃ C, s'.zones = B ++ C ∧ freeZones keep C ≤ 2 * freeZones keep A) ∧
      ((∀ z ∈ s.zones, z ∉ keep → s.zFaces z ≠ []) → ∀ z ∈ s'.zones, z ∉ keep → s'.zFaces z ≠ []) := by
  induction A with
  | nil =>
    intro B s s' h hz hr
    cases hr
    exact ⟨h, rfl, ⟨[], by simpa using hz, by simp [freeZones]⟩, fun h => h⟩
  | cons z A ih =>
    intro B s s' h hz hr
    rw [List.length_cons, Grid.splitLevel, get_zero hz, res_bind_ok, res_bind_eq_ok] at hr
    obtain ⟨s1, h1, h2⟩ := hr
    obtain ⟨k1, kn, ⟨P, k2, k3⟩, k4, _⟩ := splitZone_inv hm h z fns (by rw [hz]; simp) h1
    rw [hz] at k2
    simp only [List.cons_append, List.erase_cons_head] at k2
    obtain ⟨j1, jn, ⟨C, j2, j3⟩, j4⟩ := ih (B ++ P) s1 s' k1 (by rw [k2, List.append_assoc]) h2
    refine ⟨j1, jn.trans kn, ⟨P ++ C, by rw [j2, List.append_assoc], ?_⟩, fun ha => j4 (k4 ha)⟩
    rw [freeZones_append, freeZones_cons]
    omega

theorem splitLevels_inv {g : Grid F R} (hm : Mesh g) {keep : List Nat} (fns : List (Nat → S)) (k : Nat) :
    ∀ (s s' : Grid F R), HInv g keep s → Grid.splitLevels fns k s = .ok s' →
      HInv g keep s' ∧ s'.name = s.name ∧ freeZones keep s'.zones ≤ 2 ^ k * freeZones keep s.zones ∧
      ((∀ z ∈ s.zones, z ∉ keep → s.zFaces z ≠ []) → ∀ z ∈ s'.zones, z ∉ keep → s'.zFaces z ≠ []) := by
  induction k with
  | zero =>
    intro s s' h hr
    cases hr
    exact ⟨h, rfl, by simp, fun h => h⟩
  | succ k ih =>
    intro s s' h hr
    rw [Grid.splitLevels, res_bind_eq_ok] at hr
    obtain ⟨s1, h1, h2⟩ := hr
    obtain ⟨k1, kn, ⟨C, k2, k3⟩, k4⟩ := splitLevel_inv hm fns s.zones [] s s1 h (by simp) h1
    obtain ⟨j1, jn, j2, j3⟩ := ih s1 s' k1 h2
    refine ⟨j1, jn.trans kn, ?_, fun ha => j3 (k4 ha)⟩
    have : freeZones keep s1.zones = freeZones keep C := by rw [k2]; simp
    rw [this] at j2
    calc _ ≤ 2 ^ k * freeZones keep C := j2
      _ ≤ 2 ^ k * (2 * freeZones keep s.zones) := Nat.mul_le_mul_left _ k3
      _ = 2 ^ (k + 1) * freeZones keep s.zones := by rw [Nat.pow_succ, Nat.mul_assoc]

/-- Splitting succeeds when the last sign function splits every list of at least two faces. -/
theorem splitLevel_total {g : Grid F R} (hm : Mesh g) {keep : List Nat} (fns : List (Nat → S)) (fl : Nat → S)
    (hfl : fns.getLast? = some fl)
    (hsp : ∀ fs : List Nat, fs.Nodup → 2 ≤ fs.length → (∀ f ∈ fs, f ∈ g.faces) → Splits fs fl) (A : List Nat) :
    ∀ (B : List Nat) (s : Grid F R), HInv g keep s → s.zones = A ++ B →
      ∃ s', Grid.splitLevel fns A.length s = .ok s' := by
  induction A with
  | nil => intro B s _ _; exact ⟨s, rfl⟩
  | cons z A ih =>
    intro B s h hz
    have hzm : z ∈ s.zones := by rw [hz]; simp
    have hex : ∃ s1, s.splitZone z fns = .ok s1 := by
      by_cases hx : s.zFixed z = true ∨ (s.zFaces z).length < 2
      · exact ⟨_, splitZone_skip s z fns hzm hx⟩
      · have hfx : s.zFixed z = false := by
          cases hh : s.zFixed z with
          | true => exact absurd (Or.inl hh) hx
          | false => rfl
        have hlen : 2 ≤ (s.zFaces z).length := by
          rcases Nat.lt_or_ge (s.zFaces z).length 2 with hh | hh
          · exact absurd (Or.inr hh) hx
          · exact hh
        rcases splitZone_main s z fns hzm h.nodup h.alloc (h.zone_nodup hm hzm) (h.points z hzm) hfx hlen with
          ⟨hno, _⟩ | ⟨_, _, _, g2, he, _⟩
        · exact absurd (hsp _ (h.zone_nodup hm hzm) hlen (fun f hf =>
            h.partition.mem_iff.1 (List.mem_flatMap.2 ⟨z, hzm, hf⟩))) (hno fl hfl)
        · exact ⟨g2, he⟩
    obtain ⟨s1, h1⟩ := hex
    obtain ⟨k1, _, ⟨P, k2, _⟩, _, _⟩ := splitZone_inv hm h z fns hzm h1
    rw [hz] at k2
    simp only [List.cons_append, List.erase_cons_head] at k2
    obtain ⟨s2, h2⟩ := ih (B ++ P) s1 k1 (by rw [k2, List.append_assoc])
    exact ⟨s2, by rw [List.length_cons, Grid.splitLevel, get_zero hz, res_bind_ok, h1, res_bind_ok, h2]⟩

theorem splitLevels_total {g : Grid F R} (hm : Mesh g) {keep : List Nat} (fns : List (Nat → S)) (fl : Nat → S)
    (hfl : fns.getLast? = some fl)
    (hsp : ∀ fs : List Nat, fs.Nodup → 2 ≤ fs.length → (∀ f ∈ fs, f ∈ g.faces) → Splits fs fl) (k : Nat) :
    ∀ (s : Grid F R), HInv g keep s → ∃ s', Grid.splitLevels fns k s = .ok s' := by
  induction k with
  | zero => intro s _; exact ⟨s, rfl⟩
  | succ k ih =>
    intro s h
    obtain ⟨s1, h1⟩ := splitLevel_total hm fns fl hfl hsp s.zones [] s h (by simp)
    obtain ⟨k1, _, _, _⟩ := splitLevel_inv hm fns s.zones [] s s1 h (by simp) h1
    obtain ⟨s2, h2⟩ := ih s1 k1
    exact ⟨s2, by rw [Grid.splitLevels, h1, res_bind_ok, h2]⟩

/-- A zone that the last sign function does not split makes the level fail. -/
theorem splitLevel_fail {g : Grid F R} (hm : Mesh g) {keep : List Nat} (fns : List (Nat → S)) (z : Nat)
    (A : List Nat) :
    ∀ (B : List Nat) (s : Grid F R), HInv g keep s → s.zones = A ++ B → z ∈ A → s.zFixed z = false →
      2 ≤ (s.zFaces z).length → (∀ fl, fns.getLast? = some fl → ¬ Splits (s.zFaces z) fl) →
      Grid.splitLevel fns A.length s = .error .value := by
  induction A with
  | nil => intro B s _ _ hz; simp at hz
  | cons w A ih =>
    intro B s h hz hzA hfx hlen hno
    have hwm : w ∈ s.zones := by rw [hz]; simp
    have hzm : z ∈ s.zones := by rw [hz]; exact List.mem_append_left _ hzA
    rw [List.length_cons, Grid.splitLevel, get_zero hz, res_bind_ok]
    by_cases e : w = z
    · subst e
      rcases splitZone_main s w fns hwm h.nodup h.alloc (h.zone_nodup hm hwm) (h.points w hwm) hfx hlen with
        ⟨_, he⟩ | ⟨fl, h1, h2, _⟩
      · rw [he]; rfl
      · exact absurd h2 (hno fl h1)
    · have hcase : s.splitZone w fns = .error .value ∨ ∃ s1, s.splitZone w fns = .ok s1 := by
        by_cases hx : s.zFixed w = true ∨ (s.zFaces w).length < 2
        · exact Or.inr ⟨_, splitZone_skip s w fns hwm hx⟩
        · have hfx : s.zFixed w = false := by
            cases hh : s.zFixed w with
            | true => exact absurd (Or.inl hh) hx
            | false => rfl
          have hlen : 2 ≤ (s.zFaces w).length := by
            rcases Nat.lt_or_ge (s.zFaces w).length 2 with hh | hh
            · exact absurd (Or.inr hh) hx
            · exact hh
          rcases splitZone_main s w fns hwm h.nodup h.alloc (h.zone_nodup hm hwm) (h.points w hwm) hfx hlen with
            ⟨_, he⟩ | ⟨_, _, _, g2, he, _⟩
          · exact Or.inl he
          · exact Or.inr ⟨g2, he⟩
      rcases hcase with he | ⟨s1, h1⟩
      · rw [he]; rfl
      · rw [h1, res_bind_ok]
        obtain ⟨k1, _, ⟨P, k2, _⟩, _, k5⟩ := splitZone_inv hm h w fns hwm h1
        rw [hz] at k2
        simp only [List.cons_append, List.erase_cons_head] at k2
        obtain ⟨o1, o2⟩ := k5 z hzm (Ne.symm e)
        have hzA' : z ∈ A := by
          rcases List.mem_cons.1 hzA with hh | hh
          · exact absurd hh.symm e
          · exact hh
        exact ih (B ++ P) s1 k1 (by rw [k2, List.append_assoc]) hzA' (by rw [o2]; exact hfx)
          (by rw [o1]; exact hlen) (by rw [o1]; exact hno)

/-- The zone `z` can be split by `split_zone` or is left alone by it. -/
def Passable (fns : List (Nat → S)) (keep : List Nat) (s : Grid F R) (z : Nat) : Prop :=
  z ∈ keep ∨ (s.zFaces z).length < 2 ∨ ∃ fl, fns.getLast? = some fl ∧ Splits (s.zFaces z) fl

/-- Splitting the first zones succeeds when each of them is passable. -/
theorem splitLevel_pass {g : Grid F R} (hm : Mesh g) {keep : List Nat} (fns : List (Nat → S)) (A : List Nat) :
    ∀ (B : List Nat) (s : Grid F R), HInv g keep s → s.zones = A ++ B → (∀ z ∈ A, Passable fns keep s z) →
      ∃ s', Grid.splitLevel fns A.length s = .ok s' := by
  induction A with
  | nil => intro B s _ _ _; exact ⟨s, rfl⟩
  | cons z A ih =>
    intro B s h hz hp
    have hzm : z ∈ s.zones := by rw [hz]; simp
    have hex : ∃ s1, s.splitZone z fns = .ok s1 := by
      by_cases hx : s.zFixed z = true ∨ (s.zFaces z).length < 2
      · exact ⟨_, splitZone_skip s z fns hzm hx⟩
      · have hfx : s.zFixed z = false := by
          cases hh : s.zFixed z with
          | true => exact absurd (Or.inl hh) hx
          | false => rfl
        have hlen : 2 ≤ (s.zFaces z).length := by
          rcases Nat.lt_or_ge (s.zFaces z).length 2 with hh | hh
          · exact absurd (Or.inr hh) hx
          · exact hh
        rcases splitZone_main s z fns hzm h.nodup h.alloc (h.zone_nodup hm hzm) (h.points z hzm) hfx hlen with
          ⟨hno, _⟩ | ⟨_, _, _, g2, he, _⟩
        · rcases hp z (by simp) with hk | hk | ⟨fl, hfl, hsp⟩
          · rw [(h.keep_mem z hk).2.1] at hfx; cases hfx
          · omega
          · exact absurd hsp (hno fl hfl)
        · exact ⟨g2, he⟩
    obtain ⟨s1, h1⟩ := hex
    obtain ⟨k1, _, ⟨P, k2, _⟩, _, k5⟩ := splitZone_inv hm h z fns hzm h1
    rw [hz] at k2
    simp only [List.cons_append, List.erase_cons_head] at k2
    have hnd := h.nodup
    rw [hz, List.cons_append, List.nodup_cons] at hnd
    obtain ⟨s2, h2⟩ := ih (B ++ P) s1 k1 (by rw [k2, List.append_assoc]) (by
      intro w hw
      have hwz : w ≠ z := fun e => hnd.1 (by rw [← e]; exact List.mem_append_left _ hw)
      have := hp w (List.mem_cons_of_mem _ hw)
      unfold Passable at this ⊢
      rw [(k5 w (by rw [hz]; simp [hw]) hwz).1]
      exact this)
    exact ⟨s2, by rw [List.length_cons, Grid.splitLevel, get_zero hz, res_bind_ok, h1, res_bind_ok, h2]⟩

/-- A level of splitting succeeds exactly when every zone is passable, and otherwise raises `ValueError`. -/
theorem splitLevel_iff {g : Grid F R} (hm : Mesh g) {keep : List Nat} (fns : List (Nat → S)) (s : Grid F R)
    (h : HInv g keep s) :
    ((∀ z ∈ s.zones, Passable fns keep s z) ∧ ∃ s', Grid.splitLevel fns s.zones.length s = .ok s') ∨
    (¬ (∀ z ∈ s.zones, Passable fns keep s z) ∧ Grid.splitLevel fns s.zones.length s = .error .value) := by
  by_cases hp : ∀ z ∈ s.zones, Passable fns keep s z
  · exact Or.inl ⟨hp, splitLevel_pass hm fns s.zones [] s h (by simp) hp⟩
  · refine Or.inr ⟨hp, ?_⟩
    simp only [not_forall] at hp
    obtain ⟨z, hz, hn⟩ := hp
    unfold Passable at hn
    refine splitLevel_fail hm fns z s.zones [] s h (by simp) hz (h.free z hz (fun hc => hn (Or.inl hc))) ?_ ?_
    · by_contra hc
      exact hn (Or.inr (Or.inl (by omega)))
    · intro fl hfl hsp
      exact hn (Or.inr (Or.inr ⟨fl, hfl, hsp⟩))

/-- The last level can be taken out of the loop. -/
theorem splitLevels_snoc (fns : List (Nat → S)) (k : Nat) : ∀ s : Grid F R,
    Grid.splitLevels fns (k + 1) s = Grid.splitLevels fns k s >>= fun s => Grid.splitLevel fns s.zones.length s := by
  induction k with
  | zero =>
    intro s
    rw [Grid.splitLevels, Grid.splitLevels, res_bind_ok]
    cases h : Grid.splitLevel fns s.zones.length s <;> rfl
  | succ k ih =>
    intro s
    rw [Grid.splitLevels]
    conv_rhs => rw [Grid.splitLevels]
    cases h : Grid.splitLevel fns s.zones.length s with
    | error e => rfl
    | ok s1 => rw [res_bind_ok, res_bind_ok, ih]

/-- Loop body of `decompose_hierarchical` that fills the initial zone. -/
theorem fill_fold (z : Nat) (l : List Nat) (hnd : l.Nodup) (s : Grid F R) :
    l.foldlM (fun (g : Grid F R) (f : Nat) => if g.fZone f = none then g.zoneAddFace z f else .ok g) s =
      ((l.filter (fun f => s.fZone f = none)).map (fun f => (z, f))).foldlM Grid.addPair s := by
  induction l generalizing s with
  | nil => rfl
  | cons f l ih =>
    rw [List.nodup_cons] at hnd
    rw [List.foldlM_cons]
    by_cases h : s.fZone f = none
    · rw [if_pos h, List.filter_cons_of_pos (by simpa using h), List.map_cons, List.foldlM_cons]
      obtain ⟨zf, h1, _⟩ := Grid.zoneAddFace_spec s z f (by intro z' hz'; rw [h] at hz'; cases hz')
      show (s.zoneAddFace z f >>= _) = (s.zoneAddFace z f >>= _)
      rw [h1, res_bind_ok, res_bind_ok, ih hnd.2]
      congr 2
      apply List.filter_congr
      intro f' hf'
      show decide (upd s.fZone f (some z) f' = none) = _
      rw [upd_ne _ _ (fun e => hnd.1 (by rw [← e]; exact hf'))]
    · rw [if_neg h, List.filter_cons_of_neg (by simpa using h), res_bind_ok, ih hnd.2]

theorem hier_begin (g : Grid F R) (hw : Wf g) (nm : Option Str) (names : List Str) :
    ∃ s, HInv g (keptZones g names) s ∧ s.zones = keptZones g names ++ [g.zNext] ∧ s.name = nm.getD g.name ∧
      s.zFaces g.zNext = freeFaces g names ∧ s.zName g.zNext = ['h'] ∧
      ∀ (T : Type) [LinearOrder T] (fns : List (Nat → T)) (levels : Nat), g.decomposeHierarchical fns levels nm names = (if levels < 1 then .error (.exc "It must be at least 1 level.") else
        Grid.splitLevels fns (levels - 1) s >>= fun s' => s'.postDecompose) := by
  obtain ⟨fz, u1, u2, u3⟩ := fixedCleared_spec g hw nm names
  obtain ⟨zi, zm, zn, ze, zf, zx, p1, p2, p3, p4⟩ :=
    (fixedCleared g nm names fz).pushZones_spec ["h".toList]
  generalize hgp : (fixedCleared g nm names fz).pushZones ["h".toList] = gp at p1
  have hkal : ∀ z ∈ keptZones g names, z < g.zNext := fun z hz => hw.alloc z (mem_kept.1 hz).1
  have hsame : SameMesh g gp := by rw [p1]; constructor <;> rfl
  have hzones : gp.zones = keptZones g names ++ [g.zNext] := by rw [p1]; rfl
  have hfaces : gp.faces = g.faces := hsame.faces
  have hgpz : gp.fZone = fz := by rw [p1]; rfl
  have hkf : ∀ z ∈ keptZones g names, gp.zFaces z = g.zFaces z := by
    intro z hz; rw [p1]; exact (p2 z (hkal z hz)).2.1
  have hfree : g.faces.filter (fun f => fz f = none) = freeFaces g names := by
    apply List.filter_congr
    intro f hf
    rw [Bool.eq_iff_iff]
    simp only [decide_eq_true_eq, Bool.not_eq_true', List.any_eq_false, List.contains_iff_mem]
    constructor
    · intro hn z hz hc
      have := (hw.zones.mem_iff (mem_kept.1 hz).1 f).1 hc
      have := (u2 f hf z).2 ⟨this.2, hz⟩
      rw [hn] at this; cases this
    · intro hall
      cases hh : fz f with
      | none => rfl
      | some z =>
        have := (u2 f hf z).1 hh
        exact absurd ((hw.zones.mem_iff (mem_kept.1 this.2).1 f).2 ⟨hf, this.1⟩) (hall z this.2)
  let pairs := (freeFaces g names).map (fun f => (g.zNext, f))
  have hfm : ∀ f ∈ freeFaces g names, f ∈ g.faces ∧ fz f = none := by
    intro f hf
    rw [← hfree] at hf
    simpa using List.mem_filter.1 hf
  have hpm : ∀ p ∈ pairs, p.1 = g.zNext ∧ p.2 ∈ freeFaces g names := by
    intro p hp
    obtain ⟨f, hf, rfl⟩ := List.mem_map.1 hp
    exact ⟨rfl, hf⟩
  have hsnd : pairs.map (·.2) = freeFaces g names := by simp [pairs, List.map_map, Function.comp_def]
  obtain ⟨zf', fz', c1, c2, c3, c4, c5⟩ := Grid.addAll_spec pairs (fun z => z = g.zNext) gp (by
      intro p hp z hz
      rw [hgpz, (hfm p.2 (hpm p hp).2).2] at hz
      cases hz) (fun p hp => (hpm p hp).1) (by rw [hsnd]; exact hw.mesh.faces_nodup.filter _)
  have hzh : zf' g.zNext = freeFaces g names := by
    rw [c2 _ rfl, filter_const_map]
    have : gp.zFaces g.zNext = [] := by rw [p1]; exact (p4 g.zNext (Nat.le_refl _) (Nat.lt_succ_self _)).1
    rw [this, List.nil_append]
  have hzk : ∀ z ∈ keptZones g names, zf' z = g.zFaces z := by
    intro z hz
    rw [c3 z (by have := hkal z hz; omega), hkf z hz]
    intro p hp
    rw [hgpz, (hfm p.2 (hpm p hp).2).2]; simp
  let s : Grid F R := { gp with zFaces := zf', fZone := fz' }
  refine ⟨s, ?_, hzones, ?_, hzh, ?_, ?_⟩
  · constructor
    · exact hsame.trans (by constructor <;> rfl)
    · show gp.zones.Nodup
      rw [hzones]
      refine List.nodup_append.2 ⟨hw.zones.zones_nodup.filter _, by simp, ?_⟩
      intro a ha b hb e
      have := hkal a ha
      simp only [List.mem_singleton] at hb
      omega
    · show (gp.zones.flatMap zf').Perm g.faces
      rw [hzones, List.flatMap_append, List.flatMap_congr hzk]
      simp only [List.flatMap_cons, List.flatMap_nil, List.append_nil, hzh]
      rw [← hfree]; exact u3
    · show ∀ z ∈ gp.zones, ∀ f ∈ zf' z, fz' f = some z
      rw [hzones]
      intro z hz f hf
      rcases List.mem_append.1 hz with hz | hz
      · rw [hzk z hz] at hf
        have := (hw.zones.mem_iff (mem_kept.1 hz).1 f).1 hf
        have hfz := (u2 f this.1 z).2 ⟨this.2, hz⟩
        rw [c5 f, hgpz, hfz]
        rw [hsnd]
        intro hc
        rw [(hfm f hc).2] at hfz; cases hfz
      · simp only [List.mem_singleton] at hz
        subst hz
        rw [hzh] at hf
        exact c4 (g.zNext, f) (List.mem_map.2 ⟨f, hf, rfl⟩)
    · show ∀ z ∈ gp.zones, z < gp.zNext
      rw [hzones]
      have hn : gp.zNext = g.zNext + 1 := by rw [p1]; rfl
      intro z hz
      rcases List.mem_append.1 hz with h | h
      · have := hkal z h; omega
      · simp only [List.mem_singleton] at h; omega
    · exact hkal
    · show g.zNext ≤ gp.zNext
      rw [p1]; show g.zNext ≤ g.zNext + 1; omega
    · intro z hz
      refine ⟨?_, ?_, hzk z hz, ?_⟩
      · show z ∈ gp.zones
        rw [hzones]; exact List.mem_append_left _ hz
      · show gp.zFixed z = true
        rw [p1]
        show zx z = true
        rw [(p2 z (hkal z hz)).2.2]
        show (g.zones.foldl (fun m z => upd m z (decide (g.zName z ∈ names))) g.zFixed) z = true
        rw [fixed_apply g names (mem_kept.1 hz).1]
        simp [(mem_kept.1 hz).2]
      · show gp.zName z = _
        rw [p1]; exact (p2 z (hkal z hz)).1
    · show ∀ z ∈ gp.zones, z ∉ _ → gp.zFixed z = false
      rw [hzones]
      intro z hz hzk
      rcases List.mem_append.1 hz with h | h
      · exact absurd h hzk
      · simp only [List.mem_singleton] at h
        subst h
        rw [p1]; exact (p4 g.zNext (Nat.le_refl _) (Nat.lt_succ_self _)).2
  · show gp.name = _
    rw [p1]; rfl
  · show gp.zName _ = _
    rw [p1]; exact p3 0 _ rfl
  · have hh : (Grid.unlinkFacesFromZones { Grid.rename (g.markFixed names) nm with
        zones := (Grid.rename (g.markFixed names) nm).zones.filter (fun z => (Grid.rename (g.markFixed names) nm).zFixed z) }) =
        .ok (fixedCleared g nm names fz) := by
      rw [← u1]
      congr 1
      unfold fixedCleared
      rw [← keep_eq g names]; rfl
    have hfold : gp.faces.foldlM (fun (g' : Grid F R) (f : Nat) => if g'.fZone f = none then g'.zoneAddFace g.zNext f else .ok g') gp = .ok s := by
      rw [hfaces, fill_fold _ _ hw.mesh.faces_nodup, hgpz, hfree]
      exact c1
    generalize s = s0 at hfold
    intro T _ fns levels
    unfold Grid.decomposeHierarchical
    show (Grid.unlinkFacesFromZones { Grid.rename (g.markFixed names) nm with
        zones := (Grid.rename (g.markFixed names) nm).zones.filter (fun z => (Grid.rename (g.markFixed names) nm).zFixed z) } >>= _) = _
    rw [hh, res_bind_ok]
    by_cases hl : levels < 1
    · rw [if_pos hl, if_pos hl]
    · rw [if_neg hl, if_neg hl]
      show (List.foldlM _ ((fixedCleared g nm names fz).pushZones ["h".toList])
        ((fixedCleared g nm names fz).pushZones ["h".toList]).faces >>= _) = _
      rw [hgp]
      show (List.foldlM (fun (g' : Grid F R) (f : Nat) => if g'.fZone f = none then g'.zoneAddFace g.zNext f else .ok g') gp gp.faces >>= _) = _
      rw [hfold, res_bind_ok]

theorem hier_init (g : Grid F R) (hw : Wf g) (fns : List (Nat → S)) (nm : Option Str) (names : List Str) :
    ∃ s, HInv g (keptZones g names) s ∧ s.zones = keptZones g names ++ [g.zNext] ∧ s.name = nm.getD g.name ∧
      s.zFaces g.zNext = freeFaces g names ∧ s.zName g.zNext = ['h'] ∧
      ∀ levels, g.decomposeHierarchical fns levels nm names = (if levels < 1 then .error (.exc "It must be at least 1 level.") else
        Grid.splitLevels fns (levels - 1) s >>= fun s' => s'.postDecompose) := by
  obtain ⟨s, h1, h2, h3, h4, h5, h6⟩ := hier_begin g hw nm names
  exact ⟨s, h1, h2, h3, h4, h5, h6 S fns⟩

theorem HInv.decompOk {g : Grid F R} (hm : Mesh g) {keep : List Nat} {s : Grid F R} (h : HInv g keep s) :
    ∃ g', s.postDecompose = .ok g' ∧ DecompOk g g' ∧ g'.zones = s.zones ∧ g'.zFaces = s.zFaces ∧ g'.zName = s.zName ∧
      g'.name = s.name := by
  obtain ⟨zn, ze, zi, f1, f2⟩ := finish s (hm.congr h.same)
    ⟨h.nodup, by rw [h.same.faces]; exact h.partition, h.points⟩ h.alloc
  exact ⟨_, f1, ⟨h.same.trans f2.same, f2.zones, f2.lists, f2.alloc, f2.ids⟩, rfl, rfl, rfl, rfl⟩

theorem hier_spec (g g' : Grid F R) (hw : Wf g) (fns : List (Nat → S)) (levels : Nat) (nm : Option Str)
    (names : List Str) (hr : g.decomposeHierarchical fns levels nm names = .ok g') :
    DecompOk g g' ∧ g'.name = nm.getD g.name ∧
      (∀ z ∈ keptZones g names, z ∈ g'.zones ∧ g'.zFaces z = g.zFaces z ∧ g'.zName z = g.zName z) ∧
      (g'.zones.filter (fun z => decide (z ∉ keptZones g names))).length ≤ 2 ^ (levels - 1) ∧
      (freeFaces g names ≠ [] → ∀ z ∈ g'.zones, g'.zFaces z = [] → z ∈ keptZones g names) := by
  obtain ⟨s, h1, h2, h3, h4, _, h5⟩ := hier_init g hw fns nm names
  rw [h5] at hr
  by_cases hl : levels < 1
  · rw [if_pos hl] at hr; cases hr
  rw [if_neg hl, res_bind_eq_ok] at hr
  obtain ⟨s', k1, k2⟩ := hr
  obtain ⟨j1, jn, j2, j3⟩ := splitLevels_inv hw.mesh fns (levels - 1) s s' h1 k1
  obtain ⟨g2, m1, m2, m3, m4, m5, m6⟩ := j1.decompOk hw.mesh
  rw [m1] at k2
  cases k2
  have hkn : g.zNext ∉ keptZones g names := fun hc => by
    have := h1.keep_lt _ hc; omega
  refine ⟨m2, m6.trans (jn.trans h3), ?_, ?_, ?_⟩
  · intro z hz
    obtain ⟨q1, q2, q3, q4⟩ := j1.keep_mem z hz
    exact ⟨by rw [m3]; exact q1, by rw [m4]; exact q3, by rw [m5]; exact q4⟩
  · rw [m3]
    have : freeZones (keptZones g names) s.zones = 1 := by
      rw [h2, freeZones_append, freeZones_cons, if_neg hkn]
      have : freeZones (keptZones g names) (keptZones g names) = 0 := by
        unfold freeZones
        rw [List.length_eq_zero_iff, List.filter_eq_nil_iff]
        intro z hz; simp [hz]
      rw [this]; simp [freeZones]
    rw [this, Nat.mul_one] at j2
    exact j2
  · intro hne z hz hzf
    by_contra hc
    rw [m3] at hz
    rw [m4] at hzf
    refine j3 ?_ z hz hc hzf
    intro w hw' hwk
    rw [h2] at hw'
    rcases List.mem_append.1 hw' with h | h
    · exact absurd h hwk
    · simp only [List.mem_singleton] at h
      subst h
      rw [h4]; exact hne

theorem hier_total (g : Grid F R) (hw : Wf g) (fns : List (Nat → S)) (levels : Nat) (nm : Option Str)
    (names : List Str) (hl : 1 ≤ levels) (fl : Nat → S) (hfl : fns.getLast? = some fl)
    (hsp : ∀ fs : List Nat, fs.Nodup → 2 ≤ fs.length → (∀ f ∈ fs, f ∈ g.faces) → Splits fs fl) :
    ∃ g', g.decomposeHierarchical fns levels nm names = .ok g' := by
  obtain ⟨s, h1, h2, h3, h4, _, h5⟩ := hier_init g hw fns nm names
  rw [h5, if_neg (by omega)]
  obtain ⟨s', k1⟩ := splitLevels_total hw.mesh fns fl hfl hsp (levels - 1) s h1
  obtain ⟨j1, _⟩ := splitLevels_inv hw.mesh fns (levels - 1) s s' h1 k1
  obtain ⟨g2, m1, _⟩ := j1.decompOk hw.mesh
  exact ⟨g2, by rw [k1, res_bind_ok, m1]⟩

theorem hier_one (g : Grid F R) (hw : Wf g) (fns : List (Nat → S)) (nm : Option Str)
    (names : List Str) : ∃ g', g.decomposeHierarchical fns 1 nm names = .ok g' := by
  obtain ⟨s, h1, h2, h3, h4, _, h5⟩ := hier_init g hw fns nm names
  rw [h5, if_neg (by omega)]
  obtain ⟨g2, m1, _⟩ := h1.decompOk hw.mesh
  exact ⟨g2, m1⟩

theorem hier_fail (g : Grid F R) (hw : Wf g) (fns : List (Nat → S)) (levels : Nat) (nm : Option Str)
    (names : List Str) (hl : 2 ≤ levels) (hlen : 2 ≤ (freeFaces g names).length)
    (hno : ∀ fl, fns.getLast? = some fl → ¬ Splits (freeFaces g names) fl) :
    g.decomposeHierarchical fns levels nm names = .error .value := by
  obtain ⟨s, h1, h2, h3, h4, _, h5⟩ := hier_init g hw fns nm names
  rw [h5, if_neg (by omega), show levels - 1 = (levels - 2) + 1 by omega, Grid.splitLevels]
  have hkn : g.zNext ∉ keptZones g names := fun hc => by
    have := h1.keep_lt _ hc; omega
  have hz : g.zNext ∈ s.zones := by rw [h2]; simp
  rw [splitLevel_fail hw.mesh fns g.zNext s.zones [] s h1 (by simp) hz (h1.free _ hz hkn)
    (by rw [h4]; exact hlen) (by rw [h4]; exact hno)]
  rfl

/-- A sign function with different values on different faces splits every list of at least two faces. -/
theorem splits_of_injective (fs : List Nat) (fn : Nat → S) (hnd : fs.Nodup) (hl : 2 ≤ fs.length)
    (hinj : ∀ a ∈ fs, ∀ b ∈ fs, fn a = fn b → a = b) : Splits fs fn := by
  obtain ⟨b, h1, h2, h3⟩ := median_spec (fs.map fn) (by intro hc; simp at hc; simp [hc] at hl)
  refine ⟨b, h2, ?_⟩
  obtain ⟨s, k1, k2, k3⟩ := h2
  have hsn : s.Nodup := by
    rw [k1.nodup_iff]
    exact hnd.map_on (fun a ha b hb e => hinj a ha b hb e)
  have hlen : s.length = fs.length := by rw [k1.length_eq]; simp
  rw [List.length_map] at k3
  obtain ⟨hlt, hget⟩ := List.getElem?_eq_some_iff.1 k3
  have h0 : 0 < s.length := by omega
  have hpos : 0 < fs.length / 2 := by omega
  have hle := List.pairwise_iff_getElem.1 k2 0 (fs.length / 2) h0 hlt hpos
  have hne : s[0] ≠ s[fs.length / 2] := fun e => by
    have := (List.Nodup.getElem_inj_iff hsn).1 e
    omega
  have hmem : s[0] ∈ fs.map fn := k1.mem_iff.1 (List.getElem_mem h0)
  obtain ⟨f, hf, hff⟩ := List.mem_map.1 hmem
  refine ⟨f, hf, ?_⟩
  rw [hff, ← hget]
  exact lt_of_le_of_ne hle hne

/-- A sign function that is constant on the faces does not split them. -/
theorem not_splits_of_const (fs : List Nat) (fn : Nat → S) (c : S) (h : ∀ f ∈ fs, fn f = c) : ¬ Splits fs fn := by
  rintro ⟨b, ⟨s, k1, k2, k3⟩, f, hf, hlt⟩
  have hb : b ∈ fs.map fn := k1.mem_iff.1 (List.mem_of_getElem? k3)
  obtain ⟨f', hf', rfl⟩ := List.mem_map.1 hb
  rw [h f hf, h f' hf'] at hlt
  exact lt_irrefl _ hlt

/-- One more level: it works exactly when the zones after the levels before are passable. -/
theorem hier_succ (g : Grid F R) (hw : Wf g) (fns : List (Nat → S)) (k : Nat) (nm : Option Str) (names : List Str) :
    match g.decomposeHierarchical fns (k + 1) nm names with
    | .error e => e = .value ∧ g.decomposeHierarchical fns (k + 2) nm names = .error .value
    | .ok gk =>
      ((∀ z ∈ gk.zones, Passable fns (keptZones g names) gk z) ∧
        ∃ g', g.decomposeHierarchical fns (k + 2) nm names = .ok g') ∨
      (¬ (∀ z ∈ gk.zones, Passable fns (keptZones g names) gk z) ∧
        g.decomposeHierarchical fns (k + 2) nm names = .error .value) := by
  obtain ⟨s, h1, h2, h3, h4, _, h5⟩ := hier_init g hw fns nm names
  rw [h5, h5, if_neg (by omega), if_neg (by omega), Nat.add_sub_cancel, show k + 2 - 1 = k + 1 by omega,
    splitLevels_snoc]
  have hval : ∀ (k : Nat) (s : Grid F R), HInv g (keptZones g names) s → ∀ e, Grid.splitLevels fns k s = .error e →
      e = .value := by
    intro k
    induction k with
    | zero => intro s _ e he; cases he
    | succ k ih =>
      intro s h e he
      rw [Grid.splitLevels] at he
      rcases splitLevel_iff hw.mesh fns s h with ⟨_, s1, e1⟩ | ⟨_, e1⟩
      · rw [e1, res_bind_ok] at he
        exact ih s1 (splitLevel_inv hw.mesh fns s.zones [] s s1 h (by simp) e1).1 e he
      · rw [e1] at he; cases he; rfl
  cases hk : Grid.splitLevels fns k s with
  | error e =>
    have := hval k s h1 e hk
    subst this
    exact ⟨rfl, rfl⟩
  | ok s1 =>
    obtain ⟨j1, _⟩ := splitLevels_inv hw.mesh fns k s s1 h1 hk
    obtain ⟨g2, m1, m2, m3, m4, m5, m6⟩ := j1.decompOk hw.mesh
    rw [res_bind_ok, res_bind_ok, m1]
    have hpe : (∀ z ∈ g2.zones, Passable fns (keptZones g names) g2 z) ↔
        ∀ z ∈ s1.zones, Passable fns (keptZones g names) s1 z := by
      unfold Passable
      rw [m3, m4]
    show (_ ∨ _)
    rw [hpe]
    rcases splitLevel_iff hw.mesh fns s1 j1 with ⟨q, s2, e2⟩ | ⟨q, e2⟩
    · refine Or.inl ⟨q, ?_⟩
      obtain ⟨i1, _⟩ := splitLevel_inv hw.mesh fns s1.zones [] s1 s2 j1 (by simp) e2
      obtain ⟨g3, n1, _⟩ := i1.decompOk hw.mesh
      exact ⟨g3, by rw [e2, res_bind_ok, n1]⟩
    · exact Or.inr ⟨q, by rw [e2]; rfl⟩

end Verif
