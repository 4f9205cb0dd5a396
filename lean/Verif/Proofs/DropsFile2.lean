import Verif.Proofs.DropsFile

/-! The data of the faces after `drops`. -/

namespace Verif
variable {F R : Type} [Field F] [LinearOrder F]
open Grid

/-- The loop with the file of trajectories does the same to the grid, and writes the trajectories of the wet faces. -/
theorem dropFaceFile_fold {str : F → Str} {P : DropsPar F} {air : Space F} {cloud : Cloud F} {g : Grid F R} {ls : List Str} {fs : List Nat}
    (h3 : ∀ f ∈ fs, ∀ h, landing P air cloud g f = some h → (g.fNodes h).length = 3)
    {r : Grid F R × List Str} (h : fs.foldlM (dropFaceFile str P air cloud) (g, ls) = .ok r) :
    fs.foldlM (dropFace P air cloud) g = .ok r.1 ∧ ∃ rs : List (Flight F),
      List.Forall₂ (fun f r => g.dropFlight P air cloud f = .ok r) (fs.filter (fun f => g.getData 0 f "Stall".toList > P.stallThr)) rs ∧
      r.2 = ls ++ (((fs.filter (fun f => g.getData 0 f "Stall".toList > P.stallThr)).map
        (fun f => "Trajectory-".toList ++ Py.natStr (g.fGlo f))).zip (rs.map Flight.points)).flatMap
          (fun z => dumpLines str z.1 z.2) := by
  obtain ⟨wet, hwet⟩ : ∃ wet : Nat → Bool, wet = fun f => decide (g.getData 0 f "Stall".toList > P.stallThr) := ⟨_, rfl⟩
  have hI := foldlM_partial _ fs (fun pre s => pre.foldlM (dropFace P air cloud) g = .ok s.1 ∧ ∃ rs : List (Flight F),
      List.Forall₂ (fun f r => g.dropFlight P air cloud f = .ok r) (pre.filter wet) rs ∧
      s.2 = ls ++ (((pre.filter wet).map (fun f => "Trajectory-".toList ++ Py.natStr (g.fGlo f))).zip (rs.map Flight.points)).flatMap
          (fun z => dumpLines str z.1 z.2)) (g, ls) r h ⟨rfl, [], .nil, by simp⟩ (by
    rintro pre a post s s' e ⟨hg, rs, hr, hl⟩ hstep
    obtain ⟨l, h1, hstep⟩ := res_bind_eq_ok.1 hstep
    obtain ⟨g', h2, hstep⟩ := res_bind_eq_ok.1 hstep
    obtain rfl := Except.ok.inj hstep
    have hs : SameBut g s.1 := (dropFaces_ok (fun f hf => h3 f (by rw [e]; simp [hf])) hg).1
    have hglo : s.1.fGlo = g.fGlo := by obtain ⟨D, hD, -⟩ := hs; rw [hD]
    refine ⟨?_, ?_⟩
    · rw [List.foldlM_append, hg, res_bind_ok, List.foldlM_cons, h2]; rfl
    · unfold dropDump at h1
      rw [hs.get a (by decide), hs.flight, hglo] at h1
      split_ifs at h1 with hw
      · obtain ⟨r, h4, h1⟩ := res_bind_eq_ok.1 h1
        obtain rfl := Except.ok.inj h1
        have hw' : wet a = true := by rw [hwet]; simpa using hw
        have hlen : (pre.filter wet).length = (rs.map Flight.points).length := by rw [hr.length_eq, List.length_map]
        refine ⟨rs ++ [r], ?_, ?_⟩
        · rw [List.filter_append, List.filter_cons_of_pos hw', List.filter_nil]
          exact List.rel_append hr (.cons h4 .nil)
        · rw [List.filter_append, List.filter_cons_of_pos hw', List.filter_nil, List.map_append, List.map_append,
            List.zip_append (by simpa using hlen), List.flatMap_append, hl]
          simp
      · obtain rfl := Except.ok.inj h1
        have hw' : wet a = false := by rw [hwet]; simpa using hw
        refine ⟨rs, ?_, ?_⟩
        · rw [List.filter_append, List.filter_cons_of_neg (by simp [hw']), List.filter_nil, List.append_nil]
          exact hr
        · rw [List.filter_append, List.filter_cons_of_neg (by simp [hw']), List.filter_nil, List.append_nil, List.append_nil, hl])
  rw [hwet] at hI
  exact hI

open Classical in
/-- The names of variables after the flights. -/
theorem dropFaces_keys {P : DropsPar F} {air : Space F} {cloud : Cloud F} {g g' : Grid F R} {fs : List Nat}
    (h3 : ∀ f ∈ fs, ∀ h, landing P air cloud g f = some h → (g.fNodes h).length = 3) (h : fs.foldlM (dropFace P air cloud) g = .ok g')
    (k : Nat) : (g'.fData k).map Prod.fst = (g.fData k).map Prod.fst ++
      if (∃ f ∈ fs, landing P air cloud g f = some k) ∧ imp ∉ (g.fData k).map Prod.fst then [imp] else [] := by
  have hI := foldlM_partial _ fs (fun pre gi => SameBut g gi ∧ ∀ k, (gi.fData k).map Prod.fst = (g.fData k).map Prod.fst ++
      if (∃ f ∈ pre, landing P air cloud g f = some k) ∧ imp ∉ (g.fData k).map Prod.fst then [imp] else []) g g' h
    ⟨SameBut.refl g, fun k => by simp⟩ (by
    rintro pre a post gi gj e ⟨hs, hk⟩ hstep
    rcases dropFace_cases hs (h3 a (by simp [e])) hstep with ⟨hl, rfl⟩ | ⟨m, hl, h0, rfl⟩
    · refine ⟨hs, fun k => ?_⟩
      rw [hk k]
      have : (∃ f ∈ pre ++ [a], landing P air cloud g f = some k) ↔ ∃ f ∈ pre, landing P air cloud g f = some k := by
        simp only [List.mem_append, List.mem_singleton]
        constructor
        · rintro ⟨f, hf | rfl, h⟩
          · exact ⟨f, hf, h⟩
          · rw [hl] at h; cases h
        · rintro ⟨f, hf, h⟩; exact ⟨f, Or.inl hf, h⟩
      simp only [this]
    · refine ⟨hs.set m _, fun k => ?_⟩
      show ((upd gi.fData m (Py.dictSet (gi.fData m) imp _)) k).map Prod.fst = _
      by_cases hkm : k = m
      · subst hkm
        rw [upd_self, Utils.dictSet_keys, hk k]
        have h1 : ∃ f ∈ pre ++ [a], landing P air cloud g f = some k := ⟨a, by simp, hl⟩
        by_cases h2 : imp ∈ (g.fData k).map Prod.fst
        · simp [h2]
        · by_cases h4 : ∃ f ∈ pre, landing P air cloud g f = some k
          · simp only [h1, h2, h4, not_false_eq_true, and_self, if_true]
            rw [if_pos (by simp)]
          · simp only [h1, h2, h4, not_false_eq_true, and_self, and_true, if_true, if_false, List.append_nil]
      · rw [upd_ne _ _ hkm, hk k]
        have : (∃ f ∈ pre ++ [a], landing P air cloud g f = some k) ↔ ∃ f ∈ pre, landing P air cloud g f = some k := by
          simp only [List.mem_append, List.mem_singleton]
          constructor
          · rintro ⟨f, hf | rfl, h⟩
            · exact ⟨f, hf, h⟩
            · rw [hl] at h; exact absurd (Option.some.inj h).symm hkm
          · rintro ⟨f, hf, h⟩; exact ⟨f, Or.inl hf, h⟩
        simp only [this])
  exact hI.2 k

theorem eraseP_keys {κ ν : Type} [DecidableEq κ] (d : List (κ × ν)) (k : κ) :
    (d.eraseP (fun p => p.1 = k)).map Prod.fst = (d.map Prod.fst).erase k := by
  induction d with
  | nil => rfl
  | cons a t ih =>
    by_cases ha : a.1 = k
    · rw [List.eraseP_cons_of_pos (by simpa using ha), List.map_cons, ha, List.erase_cons_head]
    · rw [List.eraseP_cons_of_neg (by simpa using ha), List.map_cons, List.map_cons, ih, List.erase_cons_tail (by simpa using ha)]

theorem eraseP_keys_filter {κ ν : Type} [DecidableEq κ] (d : List (κ × ν)) (hn : (d.map Prod.fst).Nodup) (k : κ) :
    (d.eraseP (fun p => p.1 = k)).map Prod.fst = (d.map Prod.fst).filter (fun x => !(decide (x = k))) := by
  rw [eraseP_keys, hn.erase_eq_filter]
  apply List.filter_congr
  intro x _
  by_cases h : x = k <;> simp [h]

theorem pops_ok {ks : List String} {d d' : List (Str × F)} (hn : (d.map Prod.fst).Nodup)
    (h : ks.foldlM (fun d k => Py.dictPop d k.toList) d = .ok d') :
    d'.map Prod.fst = (d.map Prod.fst).filter (· ∉ ks.map String.toList) ∧
      ∀ v, v ∉ ks.map String.toList → Py.dictGet? d' v = Py.dictGet? d v := by
  refine foldlM_partial _ ks (fun pre x => x.map Prod.fst = (d.map Prod.fst).filter (· ∉ pre.map String.toList) ∧
    ∀ v, v ∉ pre.map String.toList → Py.dictGet? x v = Py.dictGet? d v) d d' h ⟨by simp, by simp⟩ ?_
  rintro pre a post s s' - ⟨h1, h2⟩ hstep
  unfold Py.dictPop at hstep
  split_ifs at hstep
  obtain rfl := Except.ok.inj hstep
  refine ⟨?_, fun v hv => ?_⟩
  · rw [eraseP_keys_filter _ (by rw [h1]; exact hn.filter _), h1, List.filter_filter]
    apply List.filter_congr
    intro x _
    simp only [List.map_append, List.map_cons, List.map_nil, List.mem_append, List.mem_singleton, not_or]
    by_cases hx : x = a.toList <;> simp [hx]
  · simp only [List.map_append, List.map_cons, List.map_nil, List.mem_append, List.mem_singleton, not_or] at hv
    rw [dictGet?_eraseP _ hv.2, h2 v hv.1]

theorem stallToCheckPoint_ok {g g' : Grid F R} (hn : g.faces.Nodup) (hd : ∀ f ∈ g.faces, ((g.fData f).map Prod.fst).Nodup)
    (h : g.stallToCheckPoint = .ok g') : ∃ D, g' = { g with fData := D } ∧ ∀ f ∈ g.faces,
      (D f).map Prod.fst = ((g.fData f).map Prod.fst).filter (· ∉ stallNames) ∧
      ∀ v, v ∉ stallNames → Py.dictGet? (D f) v = Py.dictGet? (g.fData f) v := by
  have hI := foldlM_partial _ g.faces (fun pre x => ∃ D, x = { g with fData := D } ∧ (∀ f, f ∉ pre → D f = g.fData f) ∧ ∀ f ∈ pre,
      (D f).map Prod.fst = ((g.fData f).map Prod.fst).filter (· ∉ stallNames) ∧
      ∀ v, v ∉ stallNames → Py.dictGet? (D f) v = Py.dictGet? (g.fData f) v) g g' h ⟨g.fData, rfl, fun _ _ => rfl, by simp⟩ (by
    rintro pre a post s s' e ⟨D, rfl, h1, h2⟩ hstep
    obtain ⟨d, hp, hstep⟩ := res_bind_eq_ok.1 hstep
    obtain rfl := Except.ok.inj hstep
    have ha : a ∉ pre := by
      rw [e] at hn
      intro h
      exact (List.disjoint_of_nodup_append hn) h (by simp)
    dsimp only at hp
    rw [h1 a ha] at hp
    have hp' := pops_ok (hd a (by rw [e]; simp)) hp
    refine ⟨upd D a d, rfl, fun f hf => ?_, fun f hf => ?_⟩
    · simp only [List.mem_append, List.mem_singleton, not_or] at hf
      rw [upd_ne _ _ hf.2, h1 f hf.1]
    · by_cases hfa : f = a
      · subst hfa
        rw [upd_self]
        exact hp'
      · simp only [List.mem_append, List.mem_singleton, hfa, or_false] at hf
        rw [upd_ne _ _ hfa]
        exact h2 f hf)
  obtain ⟨D, h1, -, h2⟩ := hI
  exact ⟨D, h1, h2⟩

/-- The three variables are set to zero. -/
def reset (d : List (Str × F)) : List (Str × F) :=
  Py.dictSet (Py.dictSet (Py.dictSet d "T".toList 0) "Hw".toList 0) "Hi".toList 0

theorem reset_keys (d : List (Str × F)) : (reset d).map Prod.fst = d.map Prod.fst ++ stateNames.filter (· ∉ d.map Prod.fst) := by
  unfold reset
  rw [Utils.dictSet_keys, Utils.dictSet_keys, Utils.dictSet_keys]
  have e1 : "Hw".toList ≠ "T".toList := by decide
  have e2 : "Hi".toList ≠ "T".toList := by decide
  have e3 : "Hi".toList ≠ "Hw".toList := by decide
  obtain ⟨K, hK⟩ : ∃ K, K = d.map Prod.fst := ⟨_, rfl⟩
  rw [← hK]
  unfold stateNames
  generalize "T".toList = a at *
  generalize "Hw".toList = b at *
  generalize "Hi".toList = c at *
  by_cases h1 : a ∈ K <;> by_cases h2 : b ∈ K <;> by_cases h3 : c ∈ K <;> simp [h1, h2, h3, e1, e2, e3]

theorem reset_get (d : List (Str × F)) (v : Str) : (Py.dictGet? (reset d) v).getD 0 = if v ∈ stateNames then 0 else (Py.dictGet? d v).getD 0 := by
  unfold reset stateNames
  simp only [List.mem_cons, List.not_mem_nil, or_false]
  by_cases h3 : v = "Hi".toList
  · subst h3; rw [Utils.dictGet?_set_self]; simp
  · rw [Utils.dictGet?_set_ne _ _ _ _ (Ne.symm h3)]
    by_cases h2 : v = "Hw".toList
    · subst h2; rw [Utils.dictGet?_set_self]; simp
    · rw [Utils.dictGet?_set_ne _ _ _ _ (Ne.symm h2)]
      by_cases h1 : v = "T".toList
      · subst h1; rw [Utils.dictGet?_set_self]; simp
      · rw [Utils.dictGet?_set_ne _ _ _ _ (Ne.symm h1), if_neg (fun h => h.elim h1 (fun h => h.elim h2 h3))]

theorem cleanTHwHi_eq (g : Grid F R) (hn : g.faces.Nodup) : ∃ D, g.cleanTHwHi = { g with fData := D } ∧ ∀ f ∈ g.faces, D f = reset (g.fData f) := by
  unfold cleanTHwHi
  suffices H : ∀ fs : List Nat, fs.Nodup → ∀ D0 : Nat → List (Str × F), ∃ D, fs.foldl (fun g f =>
      ((g.setData f "T".toList 0).setData f "Hw".toList 0).setData f "Hi".toList 0) { g with fData := D0 } = { g with fData := D } ∧
      (∀ f ∈ fs, D f = reset (D0 f)) ∧ ∀ f, f ∉ fs → D f = D0 f by
    obtain ⟨D, h1, h2, -⟩ := H g.faces hn g.fData
    exact ⟨D, h1, h2⟩
  clear hn
  intro fs hn
  induction fs with
  | nil => intro D0; exact ⟨D0, rfl, by simp, fun _ _ => rfl⟩
  | cons a t ih =>
    intro D0
    obtain ⟨ha, hn⟩ := List.nodup_cons.1 hn
    obtain ⟨D, h1, h2, h3⟩ := ih hn (upd D0 a (reset (D0 a)))
    refine ⟨D, ?_, ?_, ?_⟩
    · rw [List.foldl_cons, ← h1]
      congr 1
      unfold setData
      simp only [upd_self]
      congr 1
      funext j
      unfold upd reset
      split_ifs <;> rfl
    · intro f hf
      rcases List.mem_cons.1 hf with rfl | hf'
      · rw [h3 f ha, upd_self]
      · rw [h2 f hf', upd_ne _ _ (by rintro rfl; exact ha hf')]
    · intro f hf
      simp only [List.mem_cons, not_or] at hf
      rw [h3 f hf.2, upd_ne _ _ hf.1]

open Classical in
/-- The data of the faces after the whole calculation. -/
theorem drops_data {P : DropsPar F} {air : Space F} {cloud : Cloud F} {g g1 g2 : Grid F R} (hn : g.faces.Nodup)
    (hd : ∀ f ∈ g.faces, ((g.fData f).map Prod.fst).Nodup)
    (h3 : ∀ f ∈ g.faces, ∀ h, landing P air cloud g f = some h → (g.fNodes h).length = 3)
    (h1 : g.faces.foldlM (dropFace P air cloud) g = .ok g1) (h2 : g1.stallToCheckPoint = .ok g2) :
    ∃ D, g2.cleanTHwHi = { g with fData := D } ∧ ∀ f ∈ g.faces,
      (D f).map Prod.fst = outVars (∃ k ∈ g.faces, landing P air cloud g k = some f) ((g.fData f).map Prod.fst) ∧
      ∀ v, v ∉ stallNames → (Py.dictGet? (D f) v).getD 0 = outValue P air cloud g f v := by
  obtain ⟨a1, a2, -⟩ := dropFaces_ok h3 h1
  have a3 := dropFaces_keys h3 h1
  obtain ⟨D1, rfl, a4⟩ := a1
  have a3' : ∀ f ∈ g.faces, ((D1 f).map Prod.fst).Nodup := by
    intro f hf
    have := a3 f
    dsimp only at this
    rw [this]
    split_ifs with hh
    · exact List.nodup_append.2 ⟨hd f hf, by simp, by
        intro a ha b hb; simp only [List.mem_singleton] at hb; rintro rfl; exact hh.2 (hb ▸ ha)⟩
    · rw [List.append_nil]; exact hd f hf
  obtain ⟨D2, rfl, a5⟩ := stallToCheckPoint_ok (g := { g with fData := D1 }) hn a3' h2
  obtain ⟨D3, e3, a6⟩ := cleanTHwHi_eq ({ g with fData := D2 } : Grid F R) hn
  refine ⟨D3, e3, fun f hf => ?_⟩
  have b1 := a3 f
  obtain ⟨b2, b3⟩ := a5 f hf
  have b4 := a6 f hf
  dsimp only at b1 b2 b3 b4
  rw [b4]
  have hst : ∀ v ∈ stateNames, v ∉ stallNames ∧ v ≠ imp := by decide
  have himp : imp ∉ stallNames := by decide
  refine ⟨?_, fun v hv => ?_⟩
  · rw [reset_keys, b2, b1, List.filter_append]
    unfold outVars
    congr 1
    · congr 1
      split_ifs
      · rw [List.filter_cons_of_pos (by simpa using himp), List.filter_nil]
      · rfl
    · apply List.filter_congr
      intro v hv
      obtain ⟨c1, c2⟩ := hst v hv
      rw [decide_eq_decide, not_iff_not, List.mem_append, List.mem_filter, List.mem_filter]
      constructor
      · rintro (⟨h, -⟩ | ⟨h, -⟩)
        · exact h
        · split_ifs at h
          · simp only [List.mem_singleton] at h; exact absurd h c2
          · cases h
      · intro h; exact Or.inl ⟨h, by simpa using c1⟩
  · rw [reset_get, b3 v hv]
    unfold outValue
    by_cases hi : v = imp
    · subst hi
      rw [if_neg (fun h => (hst _ h).2 rfl), if_pos rfl]
      exact a2 f
    · rw [if_neg hi]
      split_ifs
      · rfl
      · rw [a4 f v hi]; rfl

omit [Field F] [LinearOrder F]

/-- The data of faces does not matter for the consistency of the grid. -/
theorem Wf.data {g : Grid F R} (h : Wf g) (D : Nat → List (Str × F)) : Wf { g with fData := D } := by
  obtain ⟨h1, h2, h3⟩ := h
  refine ⟨?_, ?_, ?_⟩
  · cases h1; constructor <;> assumption
  · cases h2; constructor <;> assumption
  · exact h3

theorem ZoneLists.data {g : Grid F R} (h : ZoneLists g) (D : Nat → List (Str × F)) : ZoneLists { g with fData := D } := by
  cases h; constructor <;> assumption

theorem dictGet?_map_vars {α : Type} (vs : List Str) (w : Str → α) {v : Str} (h : v ∈ vs) :
    Py.dictGet? (vs.map (fun v => (v, w v))) v = some (w v) := by
  induction vs with
  | nil => cases h
  | cons a t ih =>
    rw [List.map_cons, Py.dictGet?]
    split_ifs with ha
    · rw [ha]
    · exact ih ((List.mem_cons.1 h).resolve_left (Ne.symm ha))

open Classical in
theorem outVars_nodup (hit : Prop) {vars : List Str} (h : vars.Nodup) : (outVars hit vars).Nodup := by
  unfold outVars
  have h1 : ∀ v ∈ stateNames, v ≠ "MImp2".toList := by decide
  have h2 : stateNames.Nodup := by decide
  refine List.nodup_append.2 ⟨List.nodup_append.2 ⟨h.filter _, by split_ifs <;> simp, ?_⟩, h2.filter _, ?_⟩
  · intro a ha b hb e
    split_ifs at hb with hh
    · rw [List.mem_singleton] at hb
      exact hh.2 (hb ▸ e ▸ (List.mem_filter.1 ha).1)
    · cases hb
  · intro a ha b hb e
    subst e
    obtain ⟨b1, b2⟩ := List.mem_filter.1 hb
    rcases List.mem_append.1 ha with ha | ha
    · exact (by simpa using b2 : a ∉ vars) (List.mem_filter.1 ha).1
    · split_ifs at ha
      · rw [List.mem_singleton] at ha
        exact h1 a b1 ha
      · cases ha

end Verif
