import Verif.Model.Broken
import Verif.Spec.Broken
import Verif.Proofs.Left
import Verif.Proofs.Merge

/-! Results and stored files after an exception. -/

namespace Verif
open Grid
variable {F R : Type}

theorem loadCalc_plain (c : Codec F) (g : Grid F R) (text : Str) : (loadCalcX c g (some text)).plain = g.loadCalc c text := by
  unfold loadCalcX loadCalc
  simp only [plain_bind, plain_here]
  congr 1
  funext vars
  exact plain_foldlM _ _ (fun s a => plain_here _ _) _ _

/-- Where a loop stops, and with what. -/
theorem foldlM_stops {α : Type} (f : Grid F R → α → Res (Grid F R)) (l : List α) (s : Grid F R) (x : Err × Grid F R)
    (h : l.foldlM (fun g a => g.here (f g a)) s = (.error x : Left F R (Grid F R))) :
    ∃ pre a post, l = pre ++ a :: post ∧ pre.foldlM f s = .ok x.2 ∧ f x.2 a = .error x.1 := by
  induction l generalizing s with
  | nil => cases h
  | cons a l ih =>
    rw [List.foldlM_cons] at h
    cases hs : f s a with
    | error e =>
      rw [hs] at h
      cases h
      exact ⟨[], a, l, rfl, rfl, hs⟩
    | ok s' =>
      rw [hs] at h
      obtain ⟨pre, b, post, h1, h2, h3⟩ := ih s' h
      refine ⟨a :: pre, b, post, by rw [h1]; rfl, ?_, h3⟩
      rw [List.foldlM_cons, hs, res_bind_ok]
      exact h2

/-- A line that has been applied says something. -/
theorem applied_says {c : Codec F} {vars : List Str} {g g' : Grid F R} {line : Str} (h : loadCalcLine c vars g line = .ok g') :
    ∃ r, Says c line r ∧ ∃ i < g.faces.length, Names g.faces.length r.1 i := by
  unfold loadCalcLine at h
  simp only [res_bind_eq_ok] at h
  obtain ⟨s0, h0, id, h1, vals, h2, f, h3, _⟩ := h
  refine ⟨(id, vals), ?_, ?_⟩
  · unfold Says
    cases hw : Py.splitWs line with
    | nil => rw [hw] at h0; cases h0
    | cons w ws =>
      rw [hw] at h0 h2
      cases h0
      exact ⟨_, ws, rfl, h1, h2⟩
  · rcases get_names g.faces id with ⟨i, a, b1, b2, _⟩ | ⟨_, b2⟩
    · exact ⟨i, (List.getElem?_eq_some_iff.1 b2).1, b1⟩
    · rw [b2] at h3; cases h3

theorem calcLine_faces {c : Codec F} {vars : List Str} {g g' : Grid F R} {line : Str} (h : loadCalcLine c vars g line = .ok g') :
    g'.faces = g.faces := by
  unfold loadCalcLine at h
  simp only [res_bind_eq_ok] at h
  obtain ⟨s0, h0, id, h1, vals, h2, f, h3, h4⟩ := h
  cases h4
  rfl

theorem calcLines_say {c : Codec F} {vars : List Str} {ls : List Str} {g g' : Grid F R} (h : ls.foldlM (loadCalcLine c vars) g = .ok g') :
    g'.faces = g.faces ∧ ∃ recs, List.Forall₂ (Says c) ls recs ∧ ∀ r ∈ recs, ∃ i < g.faces.length, Names g.faces.length r.1 i := by
  induction ls generalizing g with
  | nil => cases h; exact ⟨rfl, [], .nil, by simp⟩
  | cons l ls ih =>
    rw [List.foldlM_cons, res_bind_eq_ok] at h
    obtain ⟨g1, h1, h2⟩ := h
    obtain ⟨r, hr, hi⟩ := applied_says h1
    obtain ⟨hf, recs, h3, h4⟩ := ih h2
    rw [calcLine_faces h1] at h4 hf
    refine ⟨hf, r :: recs, .cons hr h3, ?_⟩
    intro x hx
    rcases List.mem_cons.1 hx with rfl | hx
    · exact hi
    · exact h4 x hx

theorem calcVars_always (line : Str) : ∃ vars, calcVars line = .ok vars := by
  unfold calcVars lastField
  have hne : Py.splitCh '=' line ≠ [] := by
    cases line with
    | nil => simp [Py.splitCh]
    | cons c cs =>
      unfold Py.splitCh
      split
      · simp
      · split <;> simp
  rcases get_names (Py.splitCh '=' line) (-1) with ⟨i, a, _, _, h⟩ | ⟨h, _⟩
  · rw [h]; exact ⟨_, rfl⟩
  · have hp := List.length_pos_iff.2 hne
    exact absurd (Or.inr (by omega)) (h ((Py.splitCh '=' line).length - 1) (by omega))

theorem calc_left (c : Codec F) (g : Grid F R) (hn : g.faces.Nodup) (text : Str) (e : Err) (left : Grid F R)
    (h : loadCalcX c g (some text) = .error (e, left)) :
    ∃ head pre bad post vars recs d, Py.readlines text = head :: (pre ++ bad :: post) ∧ calcVars head = .ok vars ∧
      List.Forall₂ (Says c) pre recs ∧ (∀ r ∈ recs, ∃ i < g.faces.length, Names g.faces.length r.1 i) ∧
      (¬ ∃ r, Says c bad r ∧ ∃ i < g.faces.length, Names g.faces.length r.1 i) ∧
      left = { g with fData := d } ∧ (∀ f, f ∉ g.faces → d f = g.fData f) ∧
      ∀ (i f : Nat), g.faces[i]? = some f → d f = match lastFor g.faces.length recs i with
        | some v => Py.dictOf (vars.zip v)
        | none => g.fData f := by
  unfold loadCalcX at h
  obtain ⟨vars, hv⟩ := calcVars_always ((Py.readlines text).headD [])
  simp only [hv] at h
  obtain ⟨pre, bad, post, h1, h2, h3⟩ := foldlM_stops (loadCalcLine c vars) _ _ _ h
  cases hl : Py.readlines text with
  | nil => rw [hl] at h1; simp at h1
  | cons head ls =>
    rw [hl] at h1 hv
    obtain ⟨hf, recs, h4, h5⟩ := calcLines_say h2
    obtain ⟨d, h6, h7, h8⟩ := recs_ok vars g hn recs h5
    rw [foldlM_says h4 vars g, h6] at h2
    refine ⟨head, pre, bad, post, vars, recs, d, by rw [← h1]; rfl, hv, h4, h5, ?_, (Except.ok.inj h2).symm, h7, h8⟩
    rintro ⟨r, hr, i, hi, hin⟩
    rw [loadCalcLine_says hr] at h3
    unfold stepRec at h3
    simp only at hf
    rw [hf] at h3
    rcases get_names g.faces r.1 with ⟨j, a, b1, b2, b3⟩ | ⟨b1, b2⟩
    · rw [b3] at h3; cases h3
    · exact b1 i hi hin

/-! ### `store` -/

/-- Forget the content of the file. -/
def bare {α β : Type} (x : Except (Err × β) α) : Res α :=
  match x with
  | .ok a => .ok a
  | .error e => .error e.1

theorem bare_bind {α β γ : Type} (x : Except (Err × β) α) (f : α → Except (Err × β) γ) :
    bare (x >>= f) = bare x >>= fun a => bare (f a) := by
  cases x <;> rfl

theorem bare_written {α : Type} (w : List Str) (r : Res α) : bare (written w r) = r := by
  cases r <;> rfl

theorem conns_bare (g : Grid F R) (ids : List Int) (l : List Nat) (w : List Str) :
    bare (l.foldlM (g.storeConnX ids) w) = (l.mapM (g.faceConn ids) >>= fun cs => .ok (w ++ cs.map connLine)) := by
  induction l generalizing w with
  | nil => simp [bare, pure, Except.pure]
  | cons f l ih =>
    rw [List.foldlM_cons, List.mapM_cons, bare_bind]
    unfold storeConnX
    rw [bare_bind, bare_written]
    cases g.faceConn ids f with
    | error e => rfl
    | ok cl =>
      show bare (l.foldlM (g.storeConnX ids) (w ++ [connLine cl])) = _
      rw [ih]
      cases l.mapM (g.faceConn ids) with
      | error e => rfl
      | ok cs =>
        show Except.ok _ = Except.ok _
        simp

/-- The lines of a zone before its connectivity list. -/
def zoneStart (g : Grid F R) (c : Codec F) (dflt : F) (vars : List Str) (z : Nat) : List Str :=
  ["ZONE T=\"".toList ++ g.zName z ++ "\"\n".toList,
     "NODES=".toList ++ Py.natStr (g.zNodes z).length ++ ['\n'],
     "ELEMENTS=".toList ++ Py.natStr (g.zFaces z).length ++ ['\n'],
     "DATAPACKING=BLOCK\n".toList,
     "ZONETYPE=FETRIANGLE\n".toList,
     "VARLOCATION=([4-".toList ++ Py.natStr vars.length ++ "]=CELLCENTERED)\n".toList,
     floatLine c (((g.zNodes z).map g.nP).map Vec.x), floatLine c (((g.zNodes z).map g.nP).map Vec.y),
     floatLine c (((g.zNodes z).map g.nP).map Vec.z)] ++
    ((vars.drop 3).map (g.dataSlice dflt z)).map (floatLine c)

theorem storeZoneX_eq (g : Grid F R) (c : Codec F) (dflt : F) (vars : List Str) (s : List Int × List Str) (z : Nat) :
    g.storeZoneX c dflt vars s z = (do
      let ids ← written (s.2 ++ zoneStart g c dflt vars z) (number g.nGlo s.1 (g.zNodes z))
      let w ← (g.zFaces z).foldlM (g.storeConnX ids) (s.2 ++ zoneStart g c dflt vars z)
      pure (ids, w)) := by
  unfold storeZoneX zoneStart
  simp only [List.append_assoc]

theorem storeZone_bare (g : Grid F R) (c : Codec F) (dflt : F) (vars : List Str) (s : List Int × List Str) (z : Nat) :
    bare (g.storeZoneX c dflt vars s z) = g.storeZone c dflt vars s z := by
  rw [storeZoneX_eq, bare_bind, bare_written]
  unfold storeZone
  cases number g.nGlo s.1 (g.zNodes z) with
  | error e => rfl
  | ok ids =>
    show bare (_ >>= _) = (List.mapM _ _ >>= _)
    rw [bare_bind, conns_bare]
    cases hm : (g.zFaces z).mapM (g.faceConn ids) with
    | error e => rfl
    | ok cs =>
      show Except.ok _ = Except.ok _
      have hl : cs.length = (g.zFaces z).length := by
        have := ((mapM_forall₂ _ _ _).1 hm).length_eq
        exact this.symm
      unfold zoneLines zoneStart
      rw [hl]
      simp

theorem bare_foldlM {α β γ : Type} (f : β → α → Except (Err × γ) β) (f' : β → α → Res β) (h : ∀ s a, bare (f s a) = f' s a)
    (l : List α) (s : β) : bare (l.foldlM f s) = l.foldlM f' s := by
  induction l generalizing s with
  | nil => rfl
  | cons a l ih =>
    rw [List.foldlM_cons, List.foldlM_cons, bare_bind, h]
    cases f' s a with
    | error e => rfl
    | ok s' => exact ih s'

theorem store_bare (g : Grid F R) (c : Codec F) (dflt : F) : bare (g.storeX c dflt) = g.storeText c dflt := by
  unfold storeX storeText storeLines
  cases Py.get g.faces 0 with
  | error e => rfl
  | ok f0 =>
    simp only [res_bind_ok]
    rw [← bare_foldlM _ _ (storeZone_bare g c dflt (["X".toList, "Y".toList, "Z".toList] ++ (g.fData f0).map Prod.fst))]
    cases g.zones.foldlM (g.storeZoneX c dflt (["X".toList, "Y".toList, "Z".toList] ++ (g.fData f0).map Prod.fst))
        (List.replicate g.nodes.length (-1), headLines g.name (["X".toList, "Y".toList, "Z".toList] ++ (g.fData f0).map Prod.fst)) with
    | error x => obtain ⟨e, w⟩ := x; rfl
    | ok s => rfl

theorem number_cases (glo : Nat → Nat) (objs : List Nat) (ids : List Int) :
    (∀ o ∈ objs, glo o < ids.length) ∧ (∃ ids', number glo ids objs = .ok ids' ∧ ids'.length = ids.length) ∨
    (¬ ∀ o ∈ objs, glo o < ids.length) ∧ number glo ids objs = .error .index := by
  unfold number
  generalize 0 = k
  induction objs generalizing ids k with
  | nil => exact .inl ⟨by simp, ids, rfl, rfl⟩
  | cons o l ih =>
    rw [List.zipIdx_cons, List.foldlM_cons]
    unfold numberStep setAt
    by_cases h : glo o < ids.length
    · simp only [h, if_true, res_bind_ok]
      rcases ih (ids.set (glo o) (k : Int)) (k + 1) with ⟨h1, ids', h2, h3⟩ | ⟨h1, h2⟩
      · rw [List.length_set] at h1 h3
        exact .inl ⟨by simp only [List.mem_cons, forall_eq_or_imp]; exact ⟨h, h1⟩, ids', h2, h3⟩
      · rw [List.length_set] at h1
        exact .inr ⟨fun hc => h1 (fun o' ho' => hc o' (by simp [ho'])), h2⟩
    · refine .inr ⟨fun hc => h (hc o (by simp)), ?_⟩
      simp only [h, if_false]
      rfl

theorem localIds_cases (glo : Nat → Nat) (ids : List Int) (os : List Nat) :
    (∀ o ∈ os, glo o < ids.length) ∧ (∃ l, localIds glo ids os = .ok l) ∨
    (¬ ∀ o ∈ os, glo o < ids.length) ∧ localIds glo ids os = .error .index := by
  unfold localIds
  induction os with
  | nil => exact .inl ⟨by simp, [], rfl⟩
  | cons o l ih =>
    rw [List.mapM_cons, get_ofNat]
    by_cases h : glo o < ids.length
    · rw [List.getElem?_eq_getElem h]
      rcases ih with ⟨h1, l', h2⟩ | ⟨h1, h2⟩
      · exact .inl ⟨by simp only [List.mem_cons, forall_eq_or_imp]; exact ⟨h, h1⟩, _, by rw [h2]; rfl⟩
      · exact .inr ⟨fun hc => h1 (fun o' ho' => hc o' (by simp [ho'])), by rw [h2]; rfl⟩
    · refine .inr ⟨fun hc => h (hc o (by simp)), ?_⟩
      rw [List.getElem?_eq_none (by omega)]
      rfl

theorem conns_cases (g : Grid F R) (ids : List Int) (fs : List Nat) (w : List Str) (hl : ids.length = g.nodes.length) :
    (∀ f ∈ fs, ∀ n ∈ g.fNodes f, g.nGlo n < g.nodes.length) ∧ (∃ w', fs.foldlM (g.storeConnX ids) w = .ok w' ∧ w <+: w') ∨
    (¬ ∀ f ∈ fs, ∀ n ∈ g.fNodes f, g.nGlo n < g.nodes.length) ∧ ∃ w', fs.foldlM (g.storeConnX ids) w = .error (.index, w') ∧ w <+: w' := by
  induction fs generalizing w with
  | nil => exact .inl ⟨by simp, w, rfl, List.prefix_refl _⟩
  | cons f l ih =>
    rw [List.foldlM_cons]
    unfold storeConnX faceConn
    rcases localIds_cases g.nGlo ids (g.fNodes f) with ⟨h1, cl, h2⟩ | ⟨h1, h2⟩
    · rw [hl] at h1
      rw [h2]
      rcases ih (w ++ [connLine (cl.map (· + 1))]) with ⟨h3, w', h4, h5⟩ | ⟨h3, w', h4, h5⟩
      · exact .inl ⟨by simp only [List.mem_cons, forall_eq_or_imp]; exact ⟨h1, h3⟩, w', h4, (List.prefix_append _ _).trans h5⟩
      · exact .inr ⟨fun hc => h3 (fun f' hf' => hc f' (by simp [hf'])), w', h4, (List.prefix_append _ _).trans h5⟩
    · rw [hl] at h1
      refine .inr ⟨fun hc => h1 (hc f (by simp)), w, ?_, List.prefix_refl _⟩
      rw [h2]
      rfl

theorem zoneX_cases (g : Grid F R) (c : Codec F) (dflt : F) (vars : List Str) (s : List Int × List Str) (z : Nat)
    (hl : s.1.length = g.nodes.length) :
    ZoneNumbered g z ∧ (∃ s', g.storeZoneX c dflt vars s z = .ok s' ∧ s'.1.length = g.nodes.length) ∨
    ¬ ZoneNumbered g z ∧ ∃ w', g.storeZoneX c dflt vars s z = .error (.index, w') ∧ s.2 ++ zoneStart g c dflt vars z <+: w' := by
  rw [storeZoneX_eq]
  unfold ZoneNumbered
  rcases number_cases g.nGlo (g.zNodes z) s.1 with ⟨h1, ids, h2, h3⟩ | ⟨h1, h2⟩
  · rw [hl] at h1 h3
    rw [h2]
    rcases conns_cases g ids (g.zFaces z) (s.2 ++ zoneStart g c dflt vars z) h3 with ⟨h4, w', h5, h6⟩ | ⟨h4, w', h5, h6⟩
    · refine .inl ⟨⟨h1, h4⟩, (ids, w'), ?_, h3⟩
      show ((g.zFaces z).foldlM (g.storeConnX ids) _ >>= _) = _
      rw [h5]
      rfl
    · refine .inr ⟨fun hc => h4 hc.2, w', ?_, h6⟩
      show ((g.zFaces z).foldlM (g.storeConnX ids) _ >>= _) = _
      rw [h5]
      rfl
  · rw [hl] at h1
    refine .inr ⟨fun hc => h1 hc.1, _, ?_, List.prefix_refl _⟩
    rw [h2]
    rfl

theorem zonesX_cases (g : Grid F R) (c : Codec F) (dflt : F) (vars : List Str) (zs : List Nat) (s : List Int × List Str)
    (hl : s.1.length = g.nodes.length) :
    (∀ z ∈ zs, ZoneNumbered g z) ∧ (∃ s', zs.foldlM (g.storeZoneX c dflt vars) s = .ok s') ∨
    ∃ pre z post s' w', zs = pre ++ z :: post ∧ (∀ z ∈ pre, ZoneNumbered g z) ∧ ¬ ZoneNumbered g z ∧
      pre.foldlM (g.storeZoneX c dflt vars) s = .ok s' ∧ zs.foldlM (g.storeZoneX c dflt vars) s = .error (.index, w') ∧
      s'.2 ++ zoneStart g c dflt vars z <+: w' := by
  induction zs generalizing s with
  | nil => exact .inl ⟨by simp, s, rfl⟩
  | cons z l ih =>
    rcases zoneX_cases g c dflt vars s z hl with ⟨h1, s1, h2, h3⟩ | ⟨h1, w, h2, h3⟩
    · rcases ih s1 h3 with ⟨h4, s2, h5⟩ | ⟨pre, z', post, s', w', h4, h5, h6, h7, h8, h9⟩
      · refine .inl ⟨by simp only [List.mem_cons, forall_eq_or_imp]; exact ⟨h1, h4⟩, s2, ?_⟩
        rw [List.foldlM_cons, h2]; exact h5
      · refine .inr ⟨z :: pre, z', post, s', w', by rw [h4]; rfl, by simp only [List.mem_cons, forall_eq_or_imp]; exact ⟨h1, h5⟩, h6, ?_, ?_, h9⟩
        · rw [List.foldlM_cons, h2]; exact h7
        · rw [List.foldlM_cons, h2]; exact h8
    · refine .inr ⟨[], z, l, s, w, rfl, by simp, h1, rfl, ?_, h3⟩
      rw [List.foldlM_cons, h2]; rfl

theorem store_cases (g : Grid F R) (c : Codec F) (dflt : F) (hf : g.faces ≠ []) :
    (∀ z ∈ g.zones, ZoneNumbered g z) ∧ (∃ t, g.storeX c dflt = .ok t) ∨
    ∃ pre z post t0 t, g.zones = pre ++ z :: post ∧ (∀ z ∈ pre, ZoneNumbered g z) ∧ ¬ ZoneNumbered g z ∧
      storeText { g with zones := pre } c dflt = .ok t0 ∧ g.storeX c dflt = .error (.index, some t) ∧
      t0 ++ "ZONE T=\"".toList ++ g.zName z ++ "\"\n".toList <+: t := by
  obtain ⟨f0, h0⟩ : ∃ f0, Py.get g.faces 0 = .ok f0 := by
    cases hl : g.faces with
    | nil => exact absurd hl hf
    | cons f l => exact ⟨f, rfl⟩
  have key : ∀ zs, ({ g with zones := zs } : Grid F R).storeX c dflt =
      match zs.foldlM (g.storeZoneX c dflt (["X".toList, "Y".toList, "Z".toList] ++ (g.fData f0).map Prod.fst))
        (List.replicate g.nodes.length (-1), headLines g.name (["X".toList, "Y".toList, "Z".toList] ++ (g.fData f0).map Prod.fst)) with
      | .ok s => .ok s.2.flatten
      | .error (e, w) => .error (e, some w.flatten) := by
    intro zs
    unfold storeX
    simp only [h0]
    rfl
  have kg := key g.zones
  rcases zonesX_cases g c dflt (["X".toList, "Y".toList, "Z".toList] ++ (g.fData f0).map Prod.fst) g.zones
    (List.replicate g.nodes.length (-1), headLines g.name (["X".toList, "Y".toList, "Z".toList] ++ (g.fData f0).map Prod.fst))
    (by simp) with ⟨h1, s', h2⟩ | ⟨pre, z, post, s', w', h1, h2, h3, h4, h5, h6⟩
  · rw [h2] at kg
    exact .inl ⟨h1, _, kg⟩
  · rw [h5] at kg
    refine .inr ⟨pre, z, post, s'.2.flatten, w'.flatten, h1, h2, h3, ?_, kg, ?_⟩
    · rw [← store_bare, key pre, h4]
      rfl
    · obtain ⟨r, hr⟩ := h6
      rw [← hr]
      unfold zoneStart
      simp only [List.flatten_append, List.flatten_cons, List.append_assoc]
      simp only [List.prefix_append_right_inj, List.prefix_append, List.cons_append]

end Verif
