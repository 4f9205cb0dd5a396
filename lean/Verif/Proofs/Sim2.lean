import Verif.Proofs.Sim

/-! `decompose_hierarchical` and `decompose_farhat` on grids that differ in zone objects only. -/

namespace Verif
variable {F R : Type}
open Grid
variable {ρ : Nat → Nat} {D : Nat → Prop} {g h : Grid F R}

theorem remove_map (inj : ∀ a b, D a → D b → ρ a = ρ b → a = b) {l l' : List Nat} (hl : ∀ z ∈ l, D z) {z : Nat} (hz : D z)
    (r : Py.remove l z = .ok l') : Py.remove (l.map ρ) (ρ z) = .ok (l'.map ρ) := by
  unfold Py.remove at r ⊢
  split at r
  · rename_i hm
    cases r
    rw [if_pos (List.mem_map_of_mem hm)]
    congr 1
    clear hm
    induction l with
    | nil => rfl
    | cons a l ih =>
      rw [List.map_cons, List.erase_cons, List.erase_cons]
      by_cases e : a = z
      · subst e; simp
      · have : ρ a ≠ ρ z := fun hc => e (inj _ _ (hl a (by simp)) hz hc)
        rw [if_neg (by simpa using this), if_neg (by simpa using e), List.map_cons, ih (fun z hz => hl z (by simp [hz]))]
  · cases r

theorem remove_sub {l l' : List Nat} {z : Nat} (r : Py.remove l z = .ok l') : ∀ x ∈ l', x ∈ l := by
  unfold Py.remove at r
  split at r
  · cases r; intro x hx; exact List.mem_of_mem_erase hx
  · cases r

theorem Sim.setLinks (o : Nat → Nat) (l : List Nat) : ∀ {g h : Grid F R}, Sim ρ D g h → (∀ f ∈ l, D (o f)) →
    Sim ρ D { g with fZone := l.foldl (fun m f => upd m f (some (o f))) g.fZone }
      { h with fZone := l.foldl (fun m f => upd m f (some (ρ (o f)))) h.fZone } := by
  induction l with
  | nil => intro g h s _; exact s
  | cons f l ih =>
    intro g h s ho
    exact ih (s.setLink (f := f) (o := some (o f)) (by rintro _ e; cases e; exact ho f (by simp))) (fun f hf => ho f (by simp [hf]))

section
variable {S : Type} [LT S] [LE S] [DecidableLT S] [DecidableLE S]

theorem Sim.splitZoneMetric (s : Sim ρ D g h) {zone zl zr : Nat} (hz : D zone) (hl : D zl) (hr : D zr) (fn : Nat → S)
    {g' : Grid F R} {o : Option Nat} (r : g.splitZoneMetric zone zl zr fn = .ok (g', o)) :
    ∃ h', h.splitZoneMetric (ρ zone) (ρ zl) (ρ zr) fn = .ok (h', o) ∧ Sim ρ D g' h' ∧ g'.zFaces = g.zFaces ∧ g'.zones = g.zones := by
  unfold Grid.splitZoneMetric at r ⊢
  rw [(s.faces zone hz).1]
  simp only [res_bind_eq_ok] at r
  obtain ⟨blade, r1, r2⟩ := r
  simp only [r1, res_bind_ok]
  have s1 := Sim.setLinks (ρ := ρ) (D := D) (fun f => if fn f < blade then zl else zr) (g.zFaces zone) s (by
    intro f _; split; exact hl; exact hr)
  have e1 : (g.zFaces zone).foldl (fun m f => upd m f (some (ρ (if fn f < blade then zl else zr)))) h.fZone =
      (g.zFaces zone).foldl (fun m f => upd m f (some (if fn f < blade then ρ zl else ρ zr))) h.fZone := by
    congr 1; funext m f; split <;> rfl
  rw [e1] at s1
  split at r2
  · rename_i hc
    rw [if_pos hc]
    cases r2
    exact ⟨_, rfl, s1, rfl, rfl⟩
  · rename_i hc
    rw [if_neg hc]
    cases r2
    refine ⟨_, ?_, Sim.setLinks (fun _ => zone) (g.zFaces zone) s1 (fun _ _ => hz), rfl, rfl⟩
    simp only [res_pure, Except.ok.injEq, Prod.mk.injEq, Option.some.injEq, true_and]
    congr 1
    refine List.map_congr_left (fun f hf => ?_)
    rw [s.mesh.fEdges, s.mesh.eFaces]
    congr 1
    refine List.filter_congr (fun e he => ?_)
    have hfg := (s.faces zone hz).2 f hf
    have heg := (s.ok.face_edges f hfg).2.2 e he
    split
    · rename_i a b hab
      have ha : a ∈ g.faces := ((s.ok.edge_face e heg a).1 (by rw [hab]; simp)).1
      have hb : b ∈ g.faces := ((s.ok.edge_face e heg b).1 (by rw [hab]; simp)).1
      have key : ∀ x ∈ g.faces, ∀ w, D w →
          (decide (((g.zFaces zone).foldl (fun m f => upd m f (some (if fn f < blade then ρ zl else ρ zr))) h.fZone) x = some (ρ w)) =
          decide (((g.zFaces zone).foldl (fun m f => upd m f (some (if fn f < blade then zl else zr))) g.fZone) x = some w)) := by
        intro x hx w hw
        obtain ⟨k1, k2⟩ := s1.link x hx
        simp only at k1 k2
        rw [k2]
        cases e : ((g.zFaces zone).foldl (fun m f => upd m f (some (if fn f < blade then zl else zr))) g.fZone) x with
        | none => simp
        | some y =>
          simp only [Option.map_some, Option.some.injEq, decide_eq_decide]
          exact ⟨fun hc => s.inj _ _ (k1 y e) hw hc, fun hc => by rw [hc]⟩
      rw [key a ha zl hl, key b hb zr hr, key a ha zr hr, key b hb zl hl]
    · rfl

theorem Sim.splitMetrics {zone zl zr : Nat} (hz : D zone) (hl : D zl) (hr : D zr) (fns : List (Nat → S)) :
    ∀ {g h g' : Grid F R} {ms : List (Option Nat)}, Sim ρ D g h → Grid.splitMetrics zone zl zr fns g = .ok (g', ms) →
    ∃ h', Grid.splitMetrics (ρ zone) (ρ zl) (ρ zr) fns h = .ok (h', ms) ∧ Sim ρ D g' h' ∧ g'.zFaces = g.zFaces ∧ g'.zones = g.zones := by
  induction fns with
  | nil => intro g h g' ms s r; cases r; exact ⟨h, rfl, s, rfl, rfl⟩
  | cons fn fns ih =>
    intro g h g' ms s r
    unfold Grid.splitMetrics at r ⊢
    simp only [res_bind_eq_ok] at r
    obtain ⟨⟨g1, m⟩, r1, ⟨g2, ms2⟩, r2, r3⟩ := r
    cases r3
    obtain ⟨h1, q1, s1, z1, w1⟩ := s.splitZoneMetric hz hl hr fn r1
    obtain ⟨h2, q2, s2, z2, w2⟩ := ih s1 r2
    refine ⟨h2, ?_, s2, z2.trans z1, w2.trans w1⟩
    rw [q1, res_bind_ok]
    simp only
    rw [q2]
    rfl

theorem Sim.splitZone (s : Sim ρ D g h) {zone : Nat} (hz : D zone) (fns : List (Nat → S)) {g' : Grid F R}
    (r : g.splitZone zone fns = .ok g') :
    ∃ h' ρ' D', h.splitZone (ρ zone) fns = .ok h' ∧ Sim ρ' D' g' h' ∧ Extends ρ D ρ' D' := by
  unfold Grid.splitZone at r ⊢
  rw [(s.data zone hz).2, (s.faces zone hz).1]
  have back : ∀ {ρ D} {g h g' : Grid F R}, Sim ρ D g h → D zone → (do let l ← Py.remove g.zones zone; pure { g with zones := l ++ [zone] }) = .ok g' →
      ∃ h', (do let l ← Py.remove h.zones (ρ zone); pure { h with zones := l ++ [ρ zone] }) = .ok h' ∧ Sim ρ D g' h' := by
    intro ρ D g h g' s hz r
    rw [res_bind_eq_ok] at r
    obtain ⟨l, r1, r2⟩ := r
    cases r2
    have q := remove_map s.inj s.dom hz r1
    rw [← s.zones] at q
    refine ⟨{ h with zones := l.map ρ ++ [ρ zone] }, by rw [q]; rfl, ?_⟩
    have := s.setZones (l := l ++ [zone]) (by
      intro x hx
      rcases List.mem_append.1 hx with hx | hx
      · exact s.dom x (remove_sub r1 x hx)
      · rw [List.mem_singleton.1 hx]; exact hz)
    rwa [List.map_append, List.map_singleton] at this
  split at r
  · rename_i hc
    rw [if_pos hc]
    obtain ⟨h', q, s'⟩ := back s hz r
    exact ⟨h', ρ, D, q, s', .refl⟩
  · rename_i hc
    rw [if_neg hc]
    split at r
    · rename_i hc2
      rw [if_pos hc2]
      obtain ⟨h', q, s'⟩ := back s hz r
      exact ⟨h', ρ, D, q, s', .refl⟩
    · rename_i hc2
      rw [if_neg hc2]
      simp only [res_bind_eq_ok] at r
      obtain ⟨l, r1, ⟨g2, ms⟩, r2, r3⟩ := r
      -- two new zones
      have sa := s.newZone (g.zName zone ++ ['l'])
      have ea := s.ext_new
      have sb := sa.newZone ((g.newZone (g.zName zone ++ ['l'])).zName zone ++ ['r'])
      have eb := sa.ext_new
      have eab := ea.trans eb
      generalize hρ : simNext (simNext ρ g h) (g.newZone (g.zName zone ++ ['l'])) (h.newZone (g.zName zone ++ ['l'])) = ρ2 at sb eb eab
      generalize hD : (fun z => (D z ∨ z = g.zNext) ∨ z = (g.newZone (g.zName zone ++ ['l'])).zNext) = D2 at sb eb eab
      have dz : D2 zone := eab.dom zone hz
      have dl : D2 g.zNext := by rw [← hD]; exact Or.inl (Or.inr rfl)
      have dr : D2 (g.newZone (g.zName zone ++ ['l'])).zNext := by rw [← hD]; exact Or.inr rfl
      have rz : ρ2 zone = ρ zone := eab.same zone hz
      have rl : ρ2 g.zNext = h.zNext := by
        rw [eb.same _ (Or.inr rfl)]; simp [simNext]
      have rr : ρ2 (g.newZone (g.zName zone ++ ['l'])).zNext = (h.newZone (g.zName zone ++ ['l'])).zNext := by
        rw [← hρ]; simp [simNext]
      have nmz : (h.newZone (g.zName zone ++ ['l'])).zName (ρ zone) = (g.newZone (g.zName zone ++ ['l'])).zName zone := by
        have := (sa.data zone (Or.inl hz)).1
        rwa [ea.same zone hz] at this
      have q1 : Py.remove (h.newZone (g.zName zone ++ ['l'])).zones (ρ zone) = .ok (l.map ρ) := by
        have := remove_map s.inj s.dom hz r1
        rwa [← s.zones] at this
      have hsub : ∀ x ∈ l, D x := fun x hx => s.dom x (remove_sub r1 x hx)
      have sc := sb.setZones (l := l ++ [g.zNext] ++ [(g.newZone (g.zName zone ++ ['l'])).zNext]) (by
        intro x hx
        rcases List.mem_append.1 hx with hx | hx
        · rcases List.mem_append.1 hx with hx | hx
          · exact eab.dom x (hsub x hx)
          · rw [List.mem_singleton.1 hx]; exact dl
        · rw [List.mem_singleton.1 hx]; exact dr)
      have hmap : (l ++ [g.zNext] ++ [(g.newZone (g.zName zone ++ ['l'])).zNext]).map ρ2 =
          l.map ρ ++ [h.zNext] ++ [(h.newZone (g.zName zone ++ ['l'])).zNext] := by
        rw [List.map_append, List.map_append, List.map_singleton, List.map_singleton, rl, rr,
          List.map_congr_left (fun x hx => eab.same x (hsub x hx))]
      rw [hmap] at sc
      obtain ⟨h2, q2, sd, zd, wd⟩ := Sim.splitMetrics dz dl dr fns sc r2
      rw [rz, rl, rr] at q2
      simp only [(s.data zone hz).1]
      rw [nmz]
      have q1' : Py.remove ((h.newZone (g.zName zone ++ ['l'])).newZone ((g.newZone (g.zName zone ++ ['l'])).zName zone ++ ['r'])).zones
          (ρ zone) = .ok (l.map ρ) := q1
      rw [q1']
      simp only [res_bind_ok]
      rw [q2]
      simp only [res_bind_ok]
      split at r3
      · cases r3
      · rename_i hc3
        rw [if_neg hc3]
        cases eb' : bestMetric ms 0 with
        | none =>
          rw [eb'] at r3
          obtain ⟨h', q, s'⟩ := back sd dz r3
          rw [rz] at q
          exact ⟨h', ρ2, D2, q, s', eab⟩
        | some mi =>
          obtain ⟨m, i⟩ := mi
          rw [eb'] at r3
          simp only at r3 ⊢
          cases ef : fns[i]? with
          | none => rw [ef] at r3; cases r3
          | some fn =>
            rw [ef] at r3
            simp only [res_bind_eq_ok] at r3
            obtain ⟨blade, r4, g3, r5, r6⟩ := r3
            have hfz : h2.zFaces (ρ zone) = g2.zFaces zone := by rw [← rz]; exact (sd.faces zone dz).1
            simp only [hfz, r4, res_bind_ok]
            have fold : ∀ (l : List Nat) {z : Nat} {g h g' : Grid F R}, Sim ρ2 D2 g h → D2 z → (∀ f ∈ l, f ∈ g.faces) →
                l.foldlM (fun g f => g.zoneAddFace z f) g = .ok g' →
                ∃ h', l.foldlM (fun g f => g.zoneAddFace (ρ2 z) f) h = .ok h' ∧ Sim ρ2 D2 g' h' ∧ g'.faces = g.faces := by
              intro l z g h g' s hz hl r
              exact Sim.addFaces z (fun f => (.ok f : Res Nat)) l s hz (by intro a ha f e; cases e; exact hl a ha) r
            have sub := (sd.faces zone dz).2
            obtain ⟨h3, q5, s5, f5⟩ := fold _ sd dl (fun f hf => sub f (List.mem_of_mem_filter hf)) r5
            obtain ⟨h4, q6, s6, _⟩ := fold _ s5 dr (fun f hf => by rw [f5]; exact sub f (List.mem_of_mem_filter hf)) r6
            rw [rl] at q5
            rw [rr] at q6
            refine ⟨h4, ρ2, D2, ?_, s6, eab⟩
            rw [q5]
            exact q6

theorem Sim.splitLevel (fns : List (Nat → S)) (c : Nat) : ∀ {ρ : Nat → Nat} {D : Nat → Prop} {g h g' : Grid F R}, Sim ρ D g h →
    Grid.splitLevel fns c g = .ok g' → ∃ h' ρ' D', Grid.splitLevel fns c h = .ok h' ∧ Sim ρ' D' g' h' := by
  induction c with
  | zero => intro ρ D g h g' s r; cases r; exact ⟨h, ρ, D, rfl, s⟩
  | succ c ih =>
    intro ρ D g h g' s r
    unfold Grid.splitLevel at r ⊢
    simp only [res_bind_eq_ok] at r
    obtain ⟨z, r1, g1, r2, r3⟩ := r
    have q1 : Py.get h.zones 0 = .ok (ρ z) := by
      rw [s.zones]
      cases e : g.zones with
      | nil => rw [e] at r1; cases r1
      | cons a l => rw [e] at r1; cases r1; rfl
    obtain ⟨h1, ρ1, D1, q2, s1, _⟩ := s.splitZone (s.dom z (get_mem r1)) fns r2
    obtain ⟨h2, ρ2, D2, q3, s2⟩ := ih s1 r3
    exact ⟨h2, ρ2, D2, by rw [q1, res_bind_ok, q2, res_bind_ok]; exact q3, s2⟩

theorem Sim.splitLevels (fns : List (Nat → S)) (k : Nat) : ∀ {ρ : Nat → Nat} {D : Nat → Prop} {g h g' : Grid F R}, Sim ρ D g h →
    Grid.splitLevels fns k g = .ok g' → ∃ h' ρ' D', Grid.splitLevels fns k h = .ok h' ∧ Sim ρ' D' g' h' := by
  induction k with
  | zero => intro ρ D g h g' s r; cases r; exact ⟨h, ρ, D, rfl, s⟩
  | succ k ih =>
    intro ρ D g h g' s r
    unfold Grid.splitLevels at r ⊢
    simp only [res_bind_eq_ok] at r
    obtain ⟨g1, r1, r2⟩ := r
    have hl : h.zones.length = g.zones.length := by rw [s.zones, List.length_map]
    obtain ⟨h1, ρ1, D1, q1, s1⟩ := Sim.splitLevel fns _ s r1
    obtain ⟨h2, ρ2, D2, q2, s2⟩ := ih s1 r2
    exact ⟨h2, ρ2, D2, by rw [hl, q1, res_bind_ok]; exact q2, s2⟩

end

/-! The state after the old zones are dropped. -/

theorem sim_start {names : List Str} (wg : Wf g) (wh : Wf h) (sm : SameMesh g h) (kt : keptTable h names = keptTable g names)
    (nm nm' : Option Str) {fz fz' : Nat → Option Nat}
    (hg : ∀ f ∈ g.faces, ∀ z, fz f = some z ↔ g.fZone f = some z ∧ z ∈ keptZones g names)
    (hh : ∀ f ∈ h.faces, ∀ z, fz' f = some z ↔ h.fZone f = some z ∧ z ∈ keptZones h names) :
    ∃ ρ D, Sim ρ D (fixedCleared g nm names fz) (fixedCleared h nm' names fz') := by
  have len : (keptZones h names).length = (keptZones g names).length := by
    have := congrArg List.length kt
    simpa [keptTable] using this
  have nd : (keptZones g names).Nodup := wg.zones.zones_nodup.filter _
  have nd' : (keptZones h names).Nodup := wh.zones.zones_nodup.filter _
  have at_ : ∀ (i : Nat) (hi : i < (keptZones g names).length),
      h.zName ((keptZones h names)[i]'(len ▸ hi)) = g.zName (keptZones g names)[i] ∧
      h.zFaces ((keptZones h names)[i]'(len ▸ hi)) = g.zFaces (keptZones g names)[i] := by
    intro i hi
    have e := congrArg (fun l => l[i]?) kt
    simp only [keptTable, List.getElem?_map, List.getElem?_eq_getElem hi, List.getElem?_eq_getElem (len ▸ hi : i < (keptZones h names).length),
      Option.map_some, Option.some.injEq, Prod.mk.injEq] at e
    exact e
  let ρ : Nat → Nat := fun z => ((keptZones h names)[(keptZones g names).idxOf z]?).getD 0
  have ρi : ∀ (i : Nat) (hi : i < (keptZones g names).length), ρ (keptZones g names)[i] = (keptZones h names)[i]'(len ▸ hi) := by
    intro i hi
    show ((keptZones h names)[(keptZones g names).idxOf (keptZones g names)[i]]?).getD 0 = _
    rw [nd.idxOf_getElem i hi, List.getElem?_eq_getElem (len ▸ hi)]
    rfl
  have pos : ∀ z ∈ keptZones g names, ∃ i, ∃ hi : i < (keptZones g names).length, (keptZones g names)[i] = z := fun z hz =>
    List.getElem_of_mem hz
  have keq : ∀ z ∈ keptZones g names, h.zName (ρ z) = g.zName z ∧ h.zFaces (ρ z) = g.zFaces z ∧ ρ z ∈ keptZones h names := by
    intro z hz
    obtain ⟨i, hi, rfl⟩ := pos z hz
    rw [ρi i hi]
    exact ⟨(at_ i hi).1, (at_ i hi).2, List.getElem_mem _⟩
  have hmap : keptZones h names = (keptZones g names).map ρ := by
    apply List.ext_getElem
    · rw [List.length_map, len]
    · intro i h1 h2
      rw [List.getElem_map, ρi i (by simpa using h2)]
  refine ⟨ρ, (· ∈ keptZones g names), wg.mesh.congr (by constructor <;> rfl), sm.both (by constructor <;> rfl) (by constructor <;> rfl),
    hmap, fun z hz => hz, ?_, ?_, ?_, ?_, ?_⟩
  · intro a b ha hb e
    obtain ⟨i, hi, rfl⟩ := pos a ha
    obtain ⟨j, hj, rfl⟩ := pos b hb
    rw [ρi i hi, ρi j hj] at e
    have := (nd'.getElem_inj_iff).1 e
    subst this
    rfl
  · intro f hf
    have hf : f ∈ g.faces := hf
    have hf' : f ∈ h.faces := by rw [sm.faces]; exact hf
    refine ⟨fun z hz => ((hg f hf z).1 hz).2, ?_⟩
    show fz' f = (fz f).map ρ
    cases e : fz f with
    | some z =>
      obtain ⟨k1, k2⟩ := (hg f hf z).1 e
      obtain ⟨_, k3, k4⟩ := keq z k2
      show fz' f = some (ρ z)
      refine (hh f hf' _).2 ⟨?_, k4⟩
      have hmem := (wg.zones.mem_iff (mem_kept.1 k2).1 f).2 ⟨hf, k1⟩
      rw [← k3] at hmem
      exact ((wh.zones.mem_iff (mem_kept.1 k4).1 f).1 hmem).2
    | none =>
      cases e' : fz' f with
      | none => rfl
      | some y =>
        exfalso
        obtain ⟨k1, k2⟩ := (hh f hf' y).1 e'
        rw [hmap] at k2
        obtain ⟨z, hz, rfl⟩ := List.mem_map.1 k2
        obtain ⟨_, k3, k4⟩ := keq z hz
        have hmem := (wh.zones.mem_iff (mem_kept.1 k4).1 f).2 ⟨hf', k1⟩
        rw [k3] at hmem
        have := (hg f hf z).2 ⟨((wg.zones.mem_iff (mem_kept.1 hz).1 f).1 hmem).2, hz⟩
        rw [e] at this
        cases this
  · intro z hz
    refine ⟨(keq z hz).2.1, fun f hf => ?_⟩
    exact ((wg.zones.mem_iff (mem_kept.1 hz).1 f).1 hf).1
  · intro z hz
    refine ⟨(keq z hz).1, ?_⟩
    show (h.zones.foldl (fun m z => upd m z (decide (h.zName z ∈ names))) h.zFixed) (ρ z) =
      (g.zones.foldl (fun m z => upd m z (decide (g.zName z ∈ names))) g.zFixed) z
    rw [fixed_apply g names (mem_kept.1 hz).1, fixed_apply h names (mem_kept.1 (keq z hz).2.2).1, (keq z hz).1]
  · intro z hz
    exact ⟨wg.alloc z (mem_kept.1 hz).1, wh.alloc _ (mem_kept.1 (keq z hz).2.2).1⟩

theorem fixedCleared_eq (g : Grid F R) (nm : Option Str) (names : List Str) :
    (let g := g.markFixed names
     let g := g.rename nm
     { g with zones := g.zones.filter (fun z => g.zFixed z) }) = fixedCleared g nm names g.fZone := by
  unfold fixedCleared rename markFixed
  simp only
  rw [← keep_eq]

theorem Sim.fixedCount (s : Sim ρ D g h) : h.facesCountInFixedZones = g.facesCountInFixedZones := by
  unfold facesCountInFixedZones
  rw [s.zones, List.filter_map, List.map_map]
  congr 1
  have hf : g.zones.filter ((fun z => h.zFixed z) ∘ ρ) = g.zones.filter (fun z => g.zFixed z) :=
    List.filter_congr (fun z hz => (s.data z (s.dom z hz)).2)
  rw [hf]
  refine List.map_congr_left (fun z hz => ?_)
  simp only [Function.comp_apply]
  rw [(s.faces z (s.dom z (List.mem_of_mem_filter hz))).1]

theorem farhat_forgets {names : List Str} (wg : Wf g) (wh : Wf h) (sm : SameMesh g h) (kt : keptTable h names = keptTable g names)
    (count : Nat) (nm : Option Str) {g' : Grid F R} (r : g.decomposeFarhat count nm names = .ok g') :
    ∃ h', h.decomposeFarhat count nm names = .ok h' ∧ SameMesh g' h' ∧ zoneTable h' = zoneTable g' := by
  have dg := farhat_any g g' wg count nm names r
  obtain ⟨fz, u1, u2, _⟩ := fixedCleared_spec g wg nm names
  obtain ⟨fz', u1', u2', _⟩ := fixedCleared_spec h wh nm names
  obtain ⟨ρ, D, s⟩ := sim_start wg wh sm kt nm nm u2 u2'
  unfold decomposeFarhat at r ⊢
  have e1 := fixedCleared_eq g nm names
  have e2 := fixedCleared_eq h nm names
  simp only at e1 e2 r ⊢
  rw [e1, u1] at r
  rw [e2, u1']
  simp only [res_bind_ok] at r ⊢
  obtain ⟨ρ', D', s', ex⟩ := Sim.pushZones (numbered "farhat ".toList count) s
  simp only [res_bind_eq_ok] at r
  obtain ⟨start, r1, ⟨g2, st⟩, r2, r3⟩ := r
  rw [s'.mesh.faces, r1]
  simp only [res_bind_ok]
  rw [s'.fixedCount]
  have hk : (((h.markFixed names).rename nm).zones.filter (fun z => ((h.markFixed names).rename nm).zFixed z)).length =
      (((g.markFixed names).rename nm).zones.filter (fun z => ((g.markFixed names).rename nm).zFixed z)).length := by
    have k1 := congrArg (fun x : Grid F R => x.zones) e1
    have k2 := congrArg (fun x : Grid F R => x.zones) e2
    simp only at k1 k2
    rw [k1, k2]
    have := congrArg List.length s.zones
    rw [List.length_map] at this
    exact this
  rw [hk, s'.zones]
  obtain ⟨h2, q2, s2⟩ := Sim.farhatSteps _ s' (get_mem r1) (fun p hp => s'.dom _ (List.mem_of_mem_drop (List.of_mem_zip hp).1)) r2
  have ez : ∀ (l : List Nat) (t : List Nat), (l.map ρ').zip t = (l.zip t).map (fun p => (ρ' p.1, p.2)) := by
    intro l t
    rw [List.zip_map_left]
    rfl
  rw [← List.map_drop, ez, q2]
  obtain ⟨h3, q3, s3, t3⟩ := s2.post r3 dg
  exact ⟨h3, q3, s3, t3⟩

theorem hier_forgets {S : Type} [LinearOrder S] {names : List Str} (wg : Wf g) (wh : Wf h) (sm : SameMesh g h)
    (kt : keptTable h names = keptTable g names) (fns : List (Nat → S)) (levels : Nat) (nm : Option Str) {g' : Grid F R}
    (r : g.decomposeHierarchical fns levels nm names = .ok g') :
    ∃ h', h.decomposeHierarchical fns levels nm names = .ok h' ∧ SameMesh g' h' ∧ zoneTable h' = zoneTable g' := by
  have dg := (hier_spec g g' wg fns levels nm names r).1
  obtain ⟨fz, u1, u2, _⟩ := fixedCleared_spec g wg nm names
  obtain ⟨fz', u1', u2', _⟩ := fixedCleared_spec h wh nm names
  obtain ⟨ρ, D, s⟩ := sim_start wg wh sm kt nm nm u2 u2'
  unfold decomposeHierarchical at r ⊢
  have e1 := fixedCleared_eq g nm names
  have e2 := fixedCleared_eq h nm names
  simp only at e1 e2 r ⊢
  rw [e1, u1] at r
  rw [e2, u1']
  simp only [res_bind_ok] at r ⊢
  split at r
  · cases r
  · rename_i hl
    rw [if_neg hl]
    have s1 := s.pushZone "h".toList
    have rl : simNext ρ (fixedCleared g nm names fz) (fixedCleared h nm names fz') (fixedCleared g nm names fz).zNext =
        (fixedCleared h nm names fz').zNext := upd_self _ _ _
    generalize simNext ρ (fixedCleared g nm names fz) (fixedCleared h nm names fz') = ρ1 at s1 rl
    generalize hD : (fun z => D z ∨ z = (fixedCleared g nm names fz).zNext) = D1 at s1
    have dl : D1 (fixedCleared g nm names fz).zNext := by rw [← hD]; exact Or.inr rfl
    simp only [res_bind_eq_ok] at r
    obtain ⟨g1, r1, g2, r2, r3⟩ := r
    have fold : ∀ (l : List Nat) {z : Nat} {g h g' : Grid F R}, Sim ρ1 D1 g h → D1 z → (∀ f ∈ l, f ∈ g.faces) →
        l.foldlM (fun g f => if g.fZone f = none then g.zoneAddFace z f else .ok g) g = .ok g' →
        ∃ h', l.foldlM (fun g f => if g.fZone f = none then g.zoneAddFace (ρ1 z) f else .ok g) h = .ok h' ∧ Sim ρ1 D1 g' h' := by
      intro l z
      induction l with
      | nil => intro g h g' s _ _ r; cases r; exact ⟨h, rfl, s⟩
      | cons f l ih =>
        intro g h g' s hz hl r
        rw [List.foldlM_cons, res_bind_eq_ok] at r
        obtain ⟨ga, ra, rb⟩ := r
        have hf := hl f (by simp)
        have e : h.fZone f = none ↔ g.fZone f = none := by rw [(s.link f hf).2]; cases g.fZone f <;> simp
        by_cases hn : g.fZone f = none
        · rw [if_pos hn] at ra
          obtain ⟨ha, qa, sa⟩ := s.addFace hz hf ra
          have hfs : ga.faces = g.faces := by obtain ⟨_, _, rfl⟩ := zoneAddFace_frame ra; rfl
          obtain ⟨hb, qb, sb⟩ := ih sa hz (fun f hf => by rw [hfs]; exact hl f (by simp [hf])) rb
          exact ⟨hb, by rw [List.foldlM_cons, if_pos (e.2 hn), qa]; exact qb, sb⟩
        · rw [if_neg hn] at ra
          cases ra
          obtain ⟨hb, qb, sb⟩ := ih s hz (fun f hf => hl f (by simp [hf])) rb
          exact ⟨hb, by rw [List.foldlM_cons, if_neg (fun hc => hn (e.1 hc))]; exact qb, sb⟩
    obtain ⟨h1, q1, t1⟩ := fold _ s1 dl (fun f hf => hf) r1
    rw [rl] at q1
    rw [s1.mesh.faces, q1]
    obtain ⟨h2, ρ2, D2, q2, t2⟩ := Sim.splitLevels fns _ t1 r2
    simp only [res_bind_ok]
    rw [q2]
    obtain ⟨h3, q3, s3, t3⟩ := t2.post r3 dg
    exact ⟨h3, q3, s3, t3⟩

end Verif
