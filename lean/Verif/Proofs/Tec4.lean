import Verif.Proofs.Convert

/-! The conversion of ANSYS files as a whole. -/

namespace Verif
variable {F R : Type}
open Grid

/-! ### Lines of words -/

theorem splitWsAux_infix (s acc : Str) : ∀ w ∈ Py.splitWsAux s acc, w <:+: acc ++ s := by
  induction s generalizing acc with
  | nil =>
    intro w hw
    unfold Py.splitWsAux at hw
    split at hw
    · simp at hw
    · simp only [List.mem_singleton] at hw; subst hw; rw [List.append_nil]
  | cons c s ih =>
    intro w hw
    unfold Py.splitWsAux at hw
    have hs : s <:+: acc ++ c :: s := ⟨acc ++ [c], [], by simp⟩
    split at hw
    · split at hw
      · exact (by simpa using ih [] w hw : w <:+: s).trans hs
      · rcases List.mem_cons.mp hw with rfl | hw
        · exact ⟨[], c :: s, by simp⟩
        · exact (by simpa using ih [] w hw : w <:+: s).trans hs
    · simpa using ih _ w hw

theorem splitWs_infix {w l : Str} (h : w ∈ Py.splitWs l) : w <:+: l := by
  simpa using splitWsAux_infix l [] w h

/-- A part without the separator is before it or after it. -/
theorem infix_split {t a b : Str} {ch : Char} (hc : ch ∉ t) (h : t <:+: a ++ ch :: b) : t <:+: a ∨ t <:+: b := by
  obtain ⟨p, q, e⟩ := h
  by_cases hp : p.length + t.length ≤ a.length
  · left
    have : (p ++ t) <+: a := by
      apply List.prefix_of_prefix_length_le (l₃ := a ++ ch :: b) ⟨q, e⟩ (List.prefix_append _ _)
      simpa using hp
    exact ((List.suffix_append p t).isInfix).trans this.isInfix
  · right
    by_cases hp' : p.length ≤ a.length
    · exfalso
      have hi : (p ++ t ++ q)[a.length]? = some ch := by rw [e]; simp
      rw [List.append_assoc, List.getElem?_append_right hp', List.getElem?_append_left (by omega)] at hi
      exact hc (List.mem_of_getElem? hi)
    · have hpre : a ++ [ch] <+: p := by
        apply List.prefix_of_prefix_length_le (l₃ := p ++ t ++ q)
        · rw [e]; exact ⟨b, by simp⟩
        · exact ⟨t ++ q, by simp⟩
        · simp; omega
      obtain ⟨r, rfl⟩ := hpre
      refine ⟨r, q, ?_⟩
      have : a ++ [ch] ++ (r ++ t ++ q) = a ++ [ch] ++ b := by
        rw [← List.append_assoc, ← List.append_assoc, e]; simp
      exact List.append_cancel_left this

theorem infix_join {t : Str} (hne : t ≠ []) (hc : ' ' ∉ t) {ws : List Str} (h : t <:+: Py.join [' '] ws) : ∃ w ∈ ws, t <:+: w := by
  induction ws with
  | nil =>
    rw [Py.join] at h
    exact absurd (List.infix_nil.mp h) hne
  | cons a ws ih =>
    cases ws with
    | nil => exact ⟨a, by simp, by simpa [Py.join] using h⟩
    | cons b ws =>
      rw [show Py.join [' '] (a :: b :: ws) = a ++ ' ' :: Py.join [' '] (b :: ws) from by simp [Py.join]] at h
      rcases infix_split hc h with h | h
      · exact ⟨a, by simp, h⟩
      · obtain ⟨w, hw, h⟩ := ih h
        exact ⟨w, by simp [hw], h⟩

theorem wordsLine_plain {ws : List Str} (h : ∀ w ∈ ws, IsWord w ∧ PlainWord w) : PlainLine (wordsLine ws) := by
  have key : ∀ t : Str, t ≠ [] → ' ' ∉ t → '\n' ∉ t → (∀ w ∈ ws, ¬ t <:+: w) → ¬ t <:+: wordsLine ws := by
    intro t h1 h2 h3 h4 h5
    unfold wordsLine at h5
    rcases infix_split h3 h5 with h5 | h5
    · obtain ⟨w, hw, h5⟩ := infix_join h1 h2 h5
      exact h4 w hw h5
    · exact h1 (List.infix_nil.mp h5)
  refine ⟨wordLine_isLine (fun t ht => (h t ht).1), key _ (by decide) (by decide) (by decide) (fun w hw => (h w hw).2.1),
    key _ (by decide) (by decide) (by decide) (fun w hw => (h w hw).2.2.1),
    key _ (by decide) (by decide) (by decide) (fun w hw => (h w hw).2.2.2)⟩

theorem wordsLine_split {ws : List Str} (h : ∀ w ∈ ws, IsWord w) : Py.splitWs (wordsLine ws) = ws := wordLine_split h

theorem PlainLine.word {l : Str} (h : PlainLine l) {w : Str} (hw : w ∈ Py.splitWs l) : IsWord w ∧ PlainWord w :=
  ⟨splitWs_words l w hw, fun hh => h.2.1 (hh.trans (splitWs_infix hw)), fun hh => h.2.2.1 (hh.trans (splitWs_infix hw)),
    fun hh => h.2.2.2 (hh.trans (splitWs_infix hw))⟩

theorem pick_mem {is : List Nat} {l w : Str} (h : w ∈ pick is l) : w ∈ Py.splitWs l := by
  obtain ⟨i, -, h⟩ := List.mem_filterMap.mp h
  exact List.mem_of_getElem? h

theorem TecZone.mapNodes_ok {z : TecZone} (h : z.Ok) {g : Str → Str} (hg : ∀ l ∈ z.nodes, PlainLine (g l)) : (z.mapNodes g).Ok := by
  refine ⟨h.line, h.zone, h.title, h.vars, by simpa [TecZone.mapNodes] using h.counts, ?_, h.elems⟩
  intro l hl
  obtain ⟨x, hx, rfl⟩ := List.mem_map.mp hl
  exact hg x hx

theorem filtered_zone_ok {z : TecZone} (h : z.Ok) (is : List Nat) : (z.mapNodes (fun l => wordsLine (pick is l))).Ok :=
  TecZone.mapNodes_ok h (fun l hl => wordsLine_plain (fun _ hw => (h.nodes l hl).word (pick_mem hw)))

/-! ### Columns in the usual order -/

theorem map_snd_eq {cols : List (Nat × Str)} {ns : List Str} (h : cols.map Prod.snd = ns) : cols = (cols.map Prod.fst).zip ns := by
  subst h
  induction cols with
  | nil => rfl
  | cons a l ih => simp only [List.map_cons, List.zip_cons_cons]; rw [← ih]

theorem fensap_cols {fc : List (Nat × Str)} (h : fc.map Prod.snd = Ansys.fensapVars) : ∃ i0 i1 i2 i3 i4 i5 i6 i7,
    fc = [(i0, "X".toList), (i1, "Y".toList), (i2, "Z".toList), (i3, "Static temperature".toList), (i4, "SF1".toList), (i5, "SF2".toList),
      (i6, "SF3".toList), (i7, "Classical heat flux".toList)] := by
  have hl : fc.length = 8 := by have := congrArg List.length h; simpa [Ansys.fensapVars] using this
  match fc, hl, h with
  | [(i0, _), (i1, _), (i2, _), (i3, _), (i4, _), (i5, _), (i6, _), (i7, _)], _, h =>
    simp only [List.map_cons, List.map_nil, Ansys.fensapVars, List.cons.injEq, and_true] at h
    obtain ⟨rfl, rfl, rfl, rfl, rfl, rfl, rfl, rfl⟩ := h
    exact ⟨_, _, _, _, _, _, _, _, rfl⟩

theorem drop3d_cols {dc : List (Nat × Str)} (h : dc.map Prod.snd = Ansys.drop3dVars) : ∃ i0 i1 i2 i3,
    dc = [(i0, "X".toList), (i1, "Y".toList), (i2, "Z".toList), (i3, "Collection efficiency-Droplet".toList)] := by
  have hl : dc.length = 4 := by have := congrArg List.length h; simpa [Ansys.drop3dVars] using this
  match dc, hl, h with
  | [(i0, _), (i1, _), (i2, _), (i3, _)], _, h =>
    simp only [List.map_cons, List.map_nil, Ansys.drop3dVars, List.cons.injEq, and_true] at h
    obtain ⟨rfl, rfl, rfl, rfl⟩ := h
    exact ⟨_, _, _, _, rfl⟩

theorem adiabatic_cols {ac : List (Nat × Str)} (h : ac.map Prod.snd = Ansys.adiabaticVars) : ∃ i0 i1 i2 i3,
    ac = [(i0, "X".toList), (i1, "Y".toList), (i2, "Z".toList), (i3, "Static temperature".toList)] := by
  have hl : ac.length = 4 := by have := congrArg List.length h; simpa [Ansys.adiabaticVars] using this
  match ac, hl, h with
  | [(i0, _), (i1, _), (i2, _), (i3, _)], _, h =>
    simp only [List.map_cons, List.map_nil, Ansys.adiabaticVars, List.cons.injEq, and_true] at h
    obtain ⟨rfl, rfl, rfl, rfl⟩ := h
    exact ⟨_, _, _, _, rfl⟩

theorem pick_some {is : List Nat} {l : Str} {ws : List Str} (h : List.Forall₂ (fun i w => (Py.splitWs l)[i]? = some w) is ws) :
    pick is l = ws := by
  unfold pick
  induction h with
  | nil => rfl
  | cons h1 _ ih => rw [List.filterMap_cons, h1, ih]

theorem pick_length {cols : List (Nat × Str)} {l : Str} (h : ∀ p ∈ cols, p.1 < (Py.splitWs l).length) :
    (pick (cols.map Prod.fst) l).length = cols.length := by
  unfold pick
  induction cols with
  | nil => rfl
  | cons a cols ih =>
    rw [List.map_cons, List.filterMap_cons, List.getElem?_eq_getElem (h a (by simp)), List.length_cons, List.length_cons,
      ih (fun p hp => h p (by simp [hp]))]

theorem column_at {cols : List (Nat × Str)} {w l v : Str} {i : Nat} (hf : cols.find? (fun p => p.2 = w) = some (i, w))
    (h : column cols w l = some v) : (Py.splitWs l)[i]? = some v := by
  unfold column at h
  rw [hf] at h
  exact h

theorem forall₂_mid {α α' β γ : Type} {r : α → β → Prop} {s : α' → γ → Prop} {t : γ → β → Prop} {g : α → α'} {l1 : List α} {l2 : List β}
    (h : List.Forall₂ r l1 l2) (hm : ∀ a ∈ l1, ∀ b, r a b → ∃ m, s (g a) m ∧ t m b) :
    ∃ ms, List.Forall₂ s (l1.map g) ms ∧ List.Forall₂ t ms l2 := by
  induction h with
  | nil => exact ⟨[], .nil, .nil⟩
  | cons h1 _ ih =>
    obtain ⟨m, hm1, hm2⟩ := hm _ (by simp) _ h1
    obtain ⟨ms, hs1, hs2⟩ := ih (fun a ha => hm a (by simp [ha]))
    exact ⟨m :: ms, .cons hm1 hs1, .cons hm2 hs2⟩

section
variable [Field F]

/-- The three lines of a node after filtering. -/
def pickedNode (fc dc ac : List (Nat × Str)) (p : Str × Str × Str) : Str :=
  mergedNode (wordsLine (pick (fc.map Prod.fst) p.1)) (wordsLine (pick (dc.map Prod.fst) p.2.1)) (wordsLine (pick (ac.map Prod.fst) p.2.2))

theorem surface_node {c : Codec F} (hc : c.Lawful) (hp : ∀ x, PlainWord (c.fmt x)) {fc dc ac : List (Nat × Str)}
    (hfc : fc.map Prod.snd = Ansys.fensapVars) (hdc : dc.map Prod.snd = Ansys.drop3dVars) (hac : ac.map Prod.snd = Ansys.adiabaticVars)
    {airT airV cp : F} {fl dl al : Str} {n : Ansys.CNode F} (h : SurfaceNode c fc dc ac airT airV cp fl dl al n)
    (hf : PlainLine fl) (hd : PlainLine dl) (ha : PlainLine al) (hdl : ∀ p ∈ dc, p.1 < (Py.splitWs dl).length)
    (hal : ∀ p ∈ ac, p.1 < (Py.splitWs al).length) :
    PlainLine (pickedNode fc dc ac (fl, dl, al)) ∧
    ∃ m, (HtcNode c airT airV cp (pickedNode fc dc ac (fl, dl, al)) m ∧ PlainLine m) ∧ NodeLine c m n := by
  obtain ⟨x, y, z, ts, s1, s2, s3, q, b, ta, Q, Ts, Ta, ex, ey, ez, ets, e1, e2, e3, eq, eb, eta, px, py, pz, pts, p1, p2, p3, pq, pb,
    pta, hne, hh, hr⟩ := h
  obtain ⟨i0, i1, i2, i3, i4, i5, i6, i7, rfl⟩ := fensap_cols hfc
  obtain ⟨j0, j1, j2, j3, rfl⟩ := drop3d_cols hdc
  obtain ⟨k0, k1, k2, k3, rfl⟩ := adiabatic_cols hac
  have ex := column_at (i := i0) (by simp) ex
  have ey := column_at (i := i1) (by simp) ey
  have ez := column_at (i := i2) (by simp) ez
  have ets := column_at (i := i3) (by simp) ets
  have e1 := column_at (i := i4) (by simp) e1
  have e2 := column_at (i := i5) (by simp) e2
  have e3 := column_at (i := i6) (by simp) e3
  have eq := column_at (i := i7) (by simp) eq
  have eb := column_at (i := j3) (by simp) eb
  have eta := column_at (i := k3) (by simp) eta
  have hdj : ∀ j, (j ∈ [j0, j1, j2]) → ∃ w, (Py.splitWs dl)[j]? = some w := by
    intro j hj
    refine ⟨_, List.getElem?_eq_getElem ?_⟩
    simp only [List.mem_cons, List.not_mem_nil, or_false] at hj
    rcases hj with rfl | rfl | rfl
    · exact hdl (j, "X".toList) (by simp)
    · exact hdl (j, "Y".toList) (by simp)
    · exact hdl (j, "Z".toList) (by simp)
  have hak : ∀ j, (j ∈ [k0, k1, k2]) → ∃ w, (Py.splitWs al)[j]? = some w := by
    intro j hj
    refine ⟨_, List.getElem?_eq_getElem ?_⟩
    simp only [List.mem_cons, List.not_mem_nil, or_false] at hj
    rcases hj with rfl | rfl | rfl
    · exact hal (j, "X".toList) (by simp)
    · exact hal (j, "Y".toList) (by simp)
    · exact hal (j, "Z".toList) (by simp)
  obtain ⟨d0, hd0⟩ := hdj j0 (by simp)
  obtain ⟨d1, hd1⟩ := hdj j1 (by simp)
  obtain ⟨d2, hd2⟩ := hdj j2 (by simp)
  obtain ⟨a0, ha0⟩ := hak k0 (by simp)
  obtain ⟨a1, ha1⟩ := hak k1 (by simp)
  obtain ⟨a2, ha2⟩ := hak k2 (by simp)
  have pf : pick [i0, i1, i2, i3, i4, i5, i6, i7] fl = [x, y, z, ts, s1, s2, s3, q] :=
    pick_some (.cons ex (.cons ey (.cons ez (.cons ets (.cons e1 (.cons e2 (.cons e3 (.cons eq .nil))))))))
  have pd : pick [j0, j1, j2, j3] dl = [d0, d1, d2, b] := pick_some (.cons hd0 (.cons hd1 (.cons hd2 (.cons eb .nil))))
  have pa : pick [k0, k1, k2, k3] al = [a0, a1, a2, ta] := pick_some (.cons ha0 (.cons ha1 (.cons ha2 (.cons eta .nil))))
  have wf : ∀ w ∈ [x, y, z, ts, s1, s2, s3, q], IsWord w ∧ PlainWord w := by rw [← pf]; exact fun w hw => hf.word (pick_mem hw)
  have wd : ∀ w ∈ [d0, d1, d2, b], IsWord w ∧ PlainWord w := by rw [← pd]; exact fun w hw => hd.word (pick_mem hw)
  have wa : ∀ w ∈ [a0, a1, a2, ta], IsWord w ∧ PlainWord w := by rw [← pa]; exact fun w hw => ha.word (pick_mem hw)
  have em : pickedNode [(i0, "X".toList), (i1, "Y".toList), (i2, "Z".toList), (i3, "Static temperature".toList), (i4, "SF1".toList),
      (i5, "SF2".toList), (i6, "SF3".toList), (i7, "Classical heat flux".toList)]
      [(j0, "X".toList), (j1, "Y".toList), (j2, "Z".toList), (j3, "Collection efficiency-Droplet".toList)]
      [(k0, "X".toList), (k1, "Y".toList), (k2, "Z".toList), (k3, "Static temperature".toList)] (fl, dl, al) =
      wordsLine [x, y, z, q, b, s1, s2, s3, ts, ta] := by
    unfold pickedNode mergedNode
    simp only [List.map_cons, List.map_nil]
    rw [pf, pd, pa]
    unfold pick
    rw [wordsLine_split (fun w hw => (wf w hw).1), wordsLine_split (fun w hw => (wd w hw).1), wordsLine_split (fun w hw => (wa w hw).1)]
    rfl
  have wm : ∀ w ∈ [x, y, z, q, b, s1, s2, s3, ts, ta], IsWord w ∧ PlainWord w := by
    intro w hw
    simp only [List.mem_cons, List.not_mem_nil, or_false] at hw wf wd wa
    rcases hw with rfl | rfl | rfl | rfl | rfl | rfl | rfl | rfl | rfl | rfl
    · exact wf _ (by simp)
    · exact wf _ (by simp)
    · exact wf _ (by simp)
    · exact wf _ (by simp)
    · exact wd _ (by simp)
    · exact wf _ (by simp)
    · exact wf _ (by simp)
    · exact wf _ (by simp)
    · exact wf _ (by simp)
    · exact wa _ (by simp)
  have wr : ∀ w ∈ [x, y, z, c.fmt (-Q / (Ts - Ta)), b, s1, s2, s3, c.fmt ((Ta - airT) * (2 * cp / (airV * airV)))], IsWord w ∧ PlainWord w := by
    intro w hw
    have hfmt : ∀ v, IsWord (c.fmt v) ∧ PlainWord (c.fmt v) := fun v => ⟨⟨hc.nonempty v, hc.word v⟩, hp v⟩
    simp only [List.mem_cons, List.not_mem_nil, or_false] at hw
    rcases hw with rfl | rfl | rfl | rfl | rfl | rfl | rfl | rfl | rfl
    · exact wm _ (by simp)
    · exact wm _ (by simp)
    · exact wm _ (by simp)
    · exact hfmt _
    · exact wm _ (by simp)
    · exact wm _ (by simp)
    · exact wm _ (by simp)
    · exact wm _ (by simp)
    · exact hfmt _
  rw [em]
  refine ⟨wordsLine_plain wm, _, ⟨⟨x, y, z, q, b, s1, s2, s3, ts, ta, Q, Ts, Ta, wordsLine_split (fun w hw => (wm w hw).1), pq, pts, pta, hne,
    rfl⟩, wordsLine_plain wr⟩, x, y, z, _, b, s1, s2, s3, _, wordsLine_split (fun w hw => (wr w hw).1), px, py, pz, ?_, pb, p1, p2, p3, ?_⟩
  · rw [hh]; exact hc.roundtrip _
  · rw [hr]; exact hc.roundtrip _

/-- The three zones after filtering. -/
def pickedZones (fc dc ac : List (Nat × Str)) (zs : TecZone × TecZone × TecZone) : TecZone × TecZone × TecZone :=
  (zs.1.mapNodes (fun l => wordsLine (pick (fc.map Prod.fst) l)), zs.2.1.mapNodes (fun l => wordsLine (pick (dc.map Prod.fst) l)),
   zs.2.2.mapNodes (fun l => wordsLine (pick (ac.map Prod.fst) l)))

theorem picked_length {z : TecZone} (h : z.Ok) {cols : List (Nat × Str)} (hcols : ∀ l ∈ z.nodes, ∀ p ∈ cols, p.1 < (Py.splitWs l).length) :
    ∀ l ∈ (z.mapNodes (fun l => wordsLine (pick (cols.map Prod.fst) l))).nodes, cols.length ≤ (Py.splitWs l).length := by
  intro l hl
  obtain ⟨x, hx, rfl⟩ := List.mem_map.mp hl
  rw [wordsLine_split (fun w hw => ((h.nodes x hx).word (pick_mem hw)).1), pick_length (hcols x hx)]

theorem picked_nodes (fc dc ac : List (Nat × Str)) (zs : TecZone × TecZone × TecZone) :
    (mergedZone (pickedZones fc dc ac zs)).nodes = (zs.1.nodes.zip (zs.2.1.nodes.zip zs.2.2.nodes)).map (pickedNode fc dc ac) := by
  simp only [mergedZone, pickedZones, TecZone.mapNodes, List.zip_map, List.map_map]
  rfl

theorem picked_mergeable {fc dc ac : List (Nat × Str)}
    (hfc : fc.map Prod.snd = Ansys.fensapVars) (hdc : dc.map Prod.snd = Ansys.drop3dVars) (hac : ac.map Prod.snd = Ansys.adiabaticVars)
    {zs : TecZone × TecZone × TecZone} (hf : zs.1.Ok) (hd : zs.2.1.Ok) (ha : zs.2.2.Ok)
    (c1 : zs.2.1.nodes.length = zs.1.nodes.length) (c2 : zs.2.2.nodes.length = zs.1.nodes.length)
    (c3 : zs.2.1.elems.length = zs.1.elems.length) (c4 : zs.2.2.elems.length = zs.1.elems.length)
    (fcols : ∀ l ∈ zs.1.nodes, ∀ p ∈ fc, p.1 < (Py.splitWs l).length) (dcols : ∀ l ∈ zs.2.1.nodes, ∀ p ∈ dc, p.1 < (Py.splitWs l).length)
    (acols : ∀ l ∈ zs.2.2.nodes, ∀ p ∈ ac, p.1 < (Py.splitWs l).length) : Mergeable (pickedZones fc dc ac zs) := by
  have lf : fc.length = 8 := by have := congrArg List.length hfc; simpa [Ansys.fensapVars] using this
  have ld : dc.length = 4 := by have := congrArg List.length hdc; simpa [Ansys.drop3dVars] using this
  have la : ac.length = 4 := by have := congrArg List.length hac; simpa [Ansys.adiabaticVars] using this
  refine ⟨by simp [pickedZones, TecZone.mapNodes, c1], by simp [pickedZones, TecZone.mapNodes, c2], c3, c4, ?_, ?_, ?_⟩
  · rw [← lf]; exact picked_length hf fcols
  · rw [← ld]; exact picked_length hd dcols
  · rw [← la]; exact picked_length ha acols

/-- One zone on the way from three files to nodes. -/
theorem surface_zone {c : Codec F} (hc : c.Lawful) (hp : ∀ x, PlainWord (c.fmt x)) {fc dc ac : List (Nat × Str)}
    (hfc : fc.map Prod.snd = Ansys.fensapVars) (hdc : dc.map Prod.snd = Ansys.drop3dVars) (hac : ac.map Prod.snd = Ansys.adiabaticVars)
    {airT airV cp : F} {rev : Bool} {zs : TecZone × TecZone × TecZone} {cz : Ansys.CZone F}
    (h : SurfaceZone c rev fc dc ac airT airV cp zs cz) (hf : zs.1.Ok) (hd : zs.2.1.Ok) (ha : zs.2.2.Ok) :
    Mergeable (pickedZones fc dc ac zs) ∧ (mergedZone (pickedZones fc dc ac zs)).Ok ∧
    ∃ z', (ZoneRel (HtcNode c airT airV cp) (mergedZone (pickedZones fc dc ac zs)) z' ∧ z'.Ok) ∧ ZoneReads c rev z' cz := by
  obtain ⟨c1, c2, c3, c4⟩ := h.counts
  have hmem : ∀ p ∈ zs.1.nodes.zip (zs.2.1.nodes.zip zs.2.2.nodes), p.1 ∈ zs.1.nodes ∧ p.2.1 ∈ zs.2.1.nodes ∧ p.2.2 ∈ zs.2.2.nodes := by
    intro p hp
    obtain ⟨h1, h2⟩ := List.of_mem_zip (a := p.1) (b := p.2) hp
    obtain ⟨h2, h3⟩ := List.of_mem_zip (a := p.2.1) (b := p.2.2) h2
    exact ⟨h1, h2, h3⟩
  have hlen : (zs.1.nodes.zip (zs.2.1.nodes.zip zs.2.2.nodes)).length = zs.1.nodes.length := by
    simp [c1, c2]
  have hmerge : Mergeable (pickedZones fc dc ac zs) := picked_mergeable hfc hdc hac hf hd ha c1 c2 c3 c4 h.fcols h.dcols h.acols
  have key := fun p (hpm : p ∈ zs.1.nodes.zip (zs.2.1.nodes.zip zs.2.2.nodes)) n hn =>
    surface_node hc hp hfc hdc hac (airT := airT) (airV := airV) (cp := cp) (n := n) hn (hf.nodes _ (hmem p hpm).1) (hd.nodes _ (hmem p hpm).2.1) (ha.nodes _ (hmem p hpm).2.2)
      (h.dcols _ (hmem p hpm).2.1) (h.acols _ (hmem p hpm).2.2)
  obtain ⟨ms, hms1, hms2⟩ := forall₂_mid (s := fun l m => HtcNode c airT airV cp l m ∧ PlainLine m) (t := NodeLine c)
    (g := pickedNode fc dc ac) h.nodes (fun p hpm n hn => (key p hpm n hn).2)
  have hms3 : ms.length = zs.1.nodes.length := by rw [hms2.length_eq, ← h.nodes.length_eq, hlen]
  have hok : (mergedZone (pickedZones fc dc ac zs)).Ok := by
    refine ⟨hf.line, hf.zone, hf.title, hf.vars, ?_, ?_, hf.elems⟩
    · rw [picked_nodes, List.length_map, hlen]; exact hf.counts
    · rw [picked_nodes]
      intro l hl
      obtain ⟨p, hpm, rfl⟩ := List.mem_map.mp hl
      obtain ⟨i, hi, rfl⟩ := List.getElem_of_mem hpm
      have hi' : i < cz.nodes.length := by rw [← h.nodes.length_eq]; exact hi
      exact (key _ hpm _ ((List.forall₂_iff_get.mp h.nodes).2 i hi hi')).1
  refine ⟨hmerge, hok, ⟨zs.1.head, ms, zs.1.elems⟩, ⟨⟨rfl, ?_, rfl⟩, ?_⟩, ?_⟩
  · rw [picked_nodes]
    exact hms1.imp (fun _ _ h => h.1)
  · refine ⟨hf.line, hf.zone, hf.title, hf.vars, ?_, ?_, hf.elems⟩
    · rw [hms3]; exact hf.counts
    · intro m hm
      obtain ⟨i, hi, rfl⟩ := List.getElem_of_mem hm
      have hi' : i < ((zs.1.nodes.zip (zs.2.1.nodes.zip zs.2.2.nodes)).map (pickedNode fc dc ac)).length := by
        rw [hms1.length_eq]; exact hi
      exact ((List.forall₂_iff_get.mp hms1).2 i hi' hi).2
  · exact ⟨h.title, hms2, h.elems, h.data⟩

end

end Verif
