import Verif.Proofs.Tec4
import Verif.Proofs.Convert

/-! The whole script of the ANSYS converter. -/

namespace Verif
variable {F R : Type}

theorem fensapLine_ok : Py.IsLine (Ansys.varsLine Ansys.fensapVars) ∧ "VARIABLES".toList <:+: (Ansys.varsLine Ansys.fensapVars) ∧ ¬ "TITLE".toList <:+: (Ansys.varsLine Ansys.fensapVars) :=
  ⟨⟨List.dropLast (Ansys.varsLine Ansys.fensapVars), by decide +kernel, by decide +kernel, by decide +kernel⟩, by decide +kernel, by decide +kernel⟩

theorem drop3dLine_ok : Py.IsLine (Ansys.varsLine Ansys.drop3dVars) ∧ "VARIABLES".toList <:+: (Ansys.varsLine Ansys.drop3dVars) ∧ ¬ "TITLE".toList <:+: (Ansys.varsLine Ansys.drop3dVars) :=
  ⟨⟨List.dropLast (Ansys.varsLine Ansys.drop3dVars), by decide +kernel, by decide +kernel, by decide +kernel⟩, by decide +kernel, by decide +kernel⟩

theorem adiabaticLine_ok : Py.IsLine (Ansys.varsLine Ansys.adiabaticVars) ∧ "VARIABLES".toList <:+: (Ansys.varsLine Ansys.adiabaticVars) ∧ ¬ "TITLE".toList <:+: (Ansys.varsLine Ansys.adiabaticVars) :=
  ⟨⟨List.dropLast (Ansys.varsLine Ansys.adiabaticVars), by decide +kernel, by decide +kernel, by decide +kernel⟩, by decide +kernel, by decide +kernel⟩

theorem mergedLine_ok : Py.IsLine mergedVars ∧ "VARIABLES".toList <:+: mergedVars ∧ ¬ "TITLE".toList <:+: mergedVars :=
  ⟨⟨List.dropLast mergedVars, by decide +kernel, by decide +kernel, by decide +kernel⟩, by decide +kernel, by decide +kernel⟩

theorem htcLine_ok : Py.IsLine htcVars ∧ "VARIABLES".toList <:+: htcVars ∧ ¬ "TITLE".toList <:+: htcVars :=
  ⟨⟨List.dropLast htcVars, by decide +kernel, by decide +kernel, by decide +kernel⟩, by decide +kernel, by decide +kernel⟩

theorem column_eq {cols : List (Nat × Str)} {w l : Str} {i : Nat} (hf : cols.find? (fun p => p.2 = w) = some (i, w)) :
    column cols w l = (Py.splitWs l)[i]? := by
  unfold column
  rw [hf]
  rfl

/-- The columns of the merged file by their names. -/
theorem pickedNode_columns {fc dc ac : List (Nat × Str)} (hfc : fc.map Prod.snd = Ansys.fensapVars) (hdc : dc.map Prod.snd = Ansys.drop3dVars)
    (hac : ac.map Prod.snd = Ansys.adiabaticVars) {fl dl al : Str} (hf : PlainLine fl) (hd : PlainLine dl) (ha : PlainLine al)
    (hfl : ∀ p ∈ fc, p.1 < (Py.splitWs fl).length) (hdl : ∀ p ∈ dc, p.1 < (Py.splitWs dl).length)
    (hal : ∀ p ∈ ac, p.1 < (Py.splitWs al).length) :
    pickedNode fc dc ac (fl, dl, al) = wordsLine
      (["X".toList, "Y".toList, "Z".toList, "Classical heat flux".toList].filterMap (fun w => column fc w fl) ++
       ["Collection efficiency-Droplet".toList].filterMap (fun w => column dc w dl) ++
       ["SF1".toList, "SF2".toList, "SF3".toList, "Static temperature".toList].filterMap (fun w => column fc w fl) ++
       ["Static temperature".toList].filterMap (fun w => column ac w al)) := by
  obtain ⟨i0, i1, i2, i3, i4, i5, i6, i7, rfl⟩ := fensap_cols hfc
  obtain ⟨j0, j1, j2, j3, rfl⟩ := drop3d_cols hdc
  obtain ⟨k0, k1, k2, k3, rfl⟩ := adiabatic_cols hac
  simp only [List.mem_cons, List.not_mem_nil, or_false, forall_eq_or_imp, forall_eq] at hfl hdl hal
  obtain ⟨a0, a1, a2, a3, a4, a5, a6, a7⟩ := hfl
  obtain ⟨b0, b1, b2, b3⟩ := hdl
  obtain ⟨c0, c1, c2, c3⟩ := hal
  obtain ⟨x0, e0⟩ : ∃ x, (Py.splitWs fl)[i0]? = some x := ⟨_, List.getElem?_eq_getElem a0⟩
  obtain ⟨x1, e1⟩ : ∃ x, (Py.splitWs fl)[i1]? = some x := ⟨_, List.getElem?_eq_getElem a1⟩
  obtain ⟨x2, e2⟩ : ∃ x, (Py.splitWs fl)[i2]? = some x := ⟨_, List.getElem?_eq_getElem a2⟩
  obtain ⟨x3, e3⟩ : ∃ x, (Py.splitWs fl)[i3]? = some x := ⟨_, List.getElem?_eq_getElem a3⟩
  obtain ⟨x4, e4⟩ : ∃ x, (Py.splitWs fl)[i4]? = some x := ⟨_, List.getElem?_eq_getElem a4⟩
  obtain ⟨x5, e5⟩ : ∃ x, (Py.splitWs fl)[i5]? = some x := ⟨_, List.getElem?_eq_getElem a5⟩
  obtain ⟨x6, e6⟩ : ∃ x, (Py.splitWs fl)[i6]? = some x := ⟨_, List.getElem?_eq_getElem a6⟩
  obtain ⟨x7, e7⟩ : ∃ x, (Py.splitWs fl)[i7]? = some x := ⟨_, List.getElem?_eq_getElem a7⟩
  obtain ⟨y0, f0⟩ : ∃ x, (Py.splitWs dl)[j0]? = some x := ⟨_, List.getElem?_eq_getElem b0⟩
  obtain ⟨y1, f1⟩ : ∃ x, (Py.splitWs dl)[j1]? = some x := ⟨_, List.getElem?_eq_getElem b1⟩
  obtain ⟨y2, f2⟩ : ∃ x, (Py.splitWs dl)[j2]? = some x := ⟨_, List.getElem?_eq_getElem b2⟩
  obtain ⟨y3, f3⟩ : ∃ x, (Py.splitWs dl)[j3]? = some x := ⟨_, List.getElem?_eq_getElem b3⟩
  obtain ⟨z0, g0⟩ : ∃ x, (Py.splitWs al)[k0]? = some x := ⟨_, List.getElem?_eq_getElem c0⟩
  obtain ⟨z1, g1⟩ : ∃ x, (Py.splitWs al)[k1]? = some x := ⟨_, List.getElem?_eq_getElem c1⟩
  obtain ⟨z2, g2⟩ : ∃ x, (Py.splitWs al)[k2]? = some x := ⟨_, List.getElem?_eq_getElem c2⟩
  obtain ⟨z3, g3⟩ : ∃ x, (Py.splitWs al)[k3]? = some x := ⟨_, List.getElem?_eq_getElem c3⟩
  have pf := pick_some (l := fl) (.cons e0 (.cons e1 (.cons e2 (.cons e3 (.cons e4 (.cons e5 (.cons e6 (.cons e7 .nil))))))))
  have pd := pick_some (l := dl) (.cons f0 (.cons f1 (.cons f2 (.cons f3 .nil))))
  have pa := pick_some (l := al) (.cons g0 (.cons g1 (.cons g2 (.cons g3 .nil))))
  have wf : ∀ w ∈ [x0, x1, x2, x3, x4, x5, x6, x7], IsWord w := by rw [← pf]; exact fun w hw => (hf.word (pick_mem hw)).1
  have wd : ∀ w ∈ [y0, y1, y2, y3], IsWord w := by rw [← pd]; exact fun w hw => (hd.word (pick_mem hw)).1
  have wa : ∀ w ∈ [z0, z1, z2, z3], IsWord w := by rw [← pa]; exact fun w hw => (ha.word (pick_mem hw)).1
  have em : pickedNode [(i0, "X".toList), (i1, "Y".toList), (i2, "Z".toList), (i3, "Static temperature".toList), (i4, "SF1".toList),
      (i5, "SF2".toList), (i6, "SF3".toList), (i7, "Classical heat flux".toList)]
      [(j0, "X".toList), (j1, "Y".toList), (j2, "Z".toList), (j3, "Collection efficiency-Droplet".toList)]
      [(k0, "X".toList), (k1, "Y".toList), (k2, "Z".toList), (k3, "Static temperature".toList)] (fl, dl, al) =
      wordsLine [x0, x1, x2, x7, y3, x4, x5, x6, x3, z3] := by
    unfold pickedNode mergedNode
    simp only [List.map_cons, List.map_nil]
    rw [pf, pd, pa]
    unfold pick
    rw [wordsLine_split wf, wordsLine_split wd, wordsLine_split wa]
    rfl
  rw [em]
  simp only [List.filterMap_cons, List.filterMap_nil]
  rw [column_eq (i := i0) (by simp), column_eq (i := i1) (by simp), column_eq (i := i2) (by simp), column_eq (i := i7) (by simp),
    column_eq (i := j3) (by simp), column_eq (i := i4) (by simp), column_eq (i := i5) (by simp), column_eq (i := i6) (by simp),
    column_eq (i := i3) (by simp), column_eq (i := k3) (by simp), e0, e1, e2, e3, e4, e5, e6, e7, f3, g3]
  rfl

open Classical in
theorem toCrystal_ok [Field F] [DecidableEq F] [DecidableEq R] [Inhabited F] [Inhabited R] (rc : Vec F → R) {c out : Codec F} {fmt : F → Str}
    {rd : F → F} (hw : ∀ x, IsWord (fmt x)) (hr : ∀ x, c.parse (fmt x) = .ok (rd x)) (hc : c.Lawful) (hp : ∀ x, PlainWord (c.fmt x))
    {names : List Str} {airT airV cp : F} (h2 : (2 : F) ≠ 0) (hv : airV ≠ 0) (hcp : cp ≠ 0) (rev : Bool)
    {f d a : TecFile} (hf : f.Ok) (hd : d.Ok) (ha : a.Ok) {fn dn an : List Str} {fc dc ac : List (Nat × Str)}
    (hfn : HasNames f.vars fn) (hdn : HasNames d.vars dn) (han : HasNames a.vars an) (hfc : WantedColumns Ansys.fensapVars fn fc)
    (hdc : WantedColumns Ansys.drop3dVars dn dc) (hac : WantedColumns Ansys.adiabaticVars an ac)
    (of : fc.map Prod.snd = Ansys.fensapVars) (od : dc.map Prod.snd = Ansys.drop3dVars) (oa : ac.map Prod.snd = Ansys.adiabaticVars)
    {zs : List (TecZone × TecZone × TecZone)} (ef : f.zones.filter (fun z => z.Named names) = zs.map (·.1))
    (ed : d.zones.filter (fun z => z.Named names) = zs.map (·.2.1)) (ea : a.zones.filter (fun z => z.Named names) = zs.map (·.2.2))
    {czs : List (Ansys.CZone F)} (hz : List.Forall₂ (SurfaceZone c rev fc dc ac airT airV cp) zs czs) :
    ∃ blocks, List.Forall₂ (FaceBlock rd) czs blocks ∧
      Ansys.toCrystal rc c out fmt names airT airV cp rev f.text d.text a.text =
        (Grid.loadBlocks rc true (Grid.empty : Grid F R) blocks).bind (fun g => g.storeText out 0) := by
  have zf : ∀ z ∈ zs, z.1.Ok := fun z hz => hf.zones _ (List.mem_filter.mp (ef ▸ List.mem_map.mpr ⟨z, hz, rfl⟩)).1
  have zd : ∀ z ∈ zs, z.2.1.Ok := fun z hz => hd.zones _ (List.mem_filter.mp (ed ▸ List.mem_map.mpr ⟨z, hz, rfl⟩)).1
  have za : ∀ z ∈ zs, z.2.2.Ok := fun z hz => ha.zones _ (List.mem_filter.mp (ea ▸ List.mem_map.mpr ⟨z, hz, rfl⟩)).1
  obtain ⟨zs', hz1, hz2⟩ := forall₂_mid (g := fun z => mergedZone (pickedZones fc dc ac z))
    (s := fun z z' => ZoneRel (HtcNode c airT airV cp) z z' ∧ z'.Ok) (t := ZoneReads c rev) hz
    (fun z hzm cz h => (surface_zone hc hp of od oa h (zf z hzm) (zd z hzm) (za z hzm)).2.2)
  have hsz : ∀ z ∈ zs, Mergeable (pickedZones fc dc ac z) ∧ (mergedZone (pickedZones fc dc ac z)).Ok := by
    intro z hzm
    obtain ⟨i, hi, rfl⟩ := List.getElem_of_mem hzm
    have hi' : i < czs.length := by rw [← hz.length_eq]; exact hi
    have h := surface_zone hc hp of od oa ((List.forall₂_iff_get.mp hz).2 i hi hi') (zf _ hzm) (zd _ hzm) (za _ hzm)
    exact ⟨h.1, h.2.1⟩
  have okf : { f with zones := zs.map (·.1) : TecFile }.Ok :=
    ⟨hf.title, hf.vars, by intro z hz; obtain ⟨x, hx, rfl⟩ := List.mem_map.mp hz; exact zf x hx⟩
  have okd : { d with zones := zs.map (·.2.1) : TecFile }.Ok :=
    ⟨hd.title, hd.vars, by intro z hz; obtain ⟨x, hx, rfl⟩ := List.mem_map.mp hz; exact zd x hx⟩
  have oka : { a with zones := zs.map (·.2.2) : TecFile }.Ok :=
    ⟨ha.title, ha.vars, by intro z hz; obtain ⟨x, hx, rfl⟩ := List.mem_map.mp hz; exact za x hx⟩
  have okp : ∀ (t v : Str) (l : List TecZone) (cols : List (Nat × Str)), Py.IsLine t ∧ "TITLE".toList <:+: t →
      Py.IsLine v ∧ "VARIABLES".toList <:+: v ∧ ¬ "TITLE".toList <:+: v → (∀ z ∈ l, z.Ok) →
      { title := t, vars := v, zones := l.map (TecZone.mapNodes (fun l => wordsLine (pick (cols.map Prod.fst) l))) : TecFile }.Ok := by
    intro t v l cols ht hv hl
    refine ⟨ht, hv, ?_⟩
    intro z hz
    obtain ⟨x, hx, rfl⟩ := List.mem_map.mp hz
    exact filtered_zone_ok (hl x hx) _
  have vf := fensapLine_ok
  have vd := drop3dLine_ok
  have va := adiabaticLine_ok
  have vm := mergedLine_ok
  have vh := htcLine_ok
  have okf2 := okp f.title _ _ fc hf.title vf okf.zones
  have okd2 := okp d.title _ _ dc hd.title vd okd.zones
  have oka2 := okp a.title _ _ ac ha.title va oka.zones
  have okm : { title := f.title, vars := mergedVars, zones := zs.map (fun z => mergedZone (pickedZones fc dc ac z)) : TecFile }.Ok := by
    refine ⟨hf.title, vm, ?_⟩
    intro z hz
    obtain ⟨x, hx, rfl⟩ := List.mem_map.mp hz
    exact (hsz x hx).2
  have okh : { title := f.title, vars := htcVars, zones := zs' : TecFile }.Ok := by
    refine ⟨hf.title, vh, ?_⟩
    intro z hzm
    obtain ⟨i, hi, rfl⟩ := List.getElem_of_mem hzm
    have hi' : i < (zs.map (fun z => mergedZone (pickedZones fc dc ac z))).length := by rw [hz1.length_eq]; exact hi
    exact ((List.forall₂_iff_get.mp hz1).2 i hi' hi).2
  have hn : ∀ z ∈ czs, PlainName z.title := by
    intro z hzm
    obtain ⟨i, hi, rfl⟩ := List.getElem_of_mem hzm
    have hi' : i < zs.length := by rw [hz.length_eq]; exact hi
    exact ((List.forall₂_iff_get.mp hz).2 i hi' hi).plain
  obtain ⟨blocks, hb1, hb2⟩ := nodesToFaces_ok (R := R) rc (out := out) hw hr rev okh hz2 hn
  refine ⟨blocks, hb1, ?_⟩
  rw [← hb2]
  unfold Ansys.toCrystal
  have hmerge := mergeFiles_ok okf2 okd2 oka2 (zs.map (pickedZones fc dc ac)) (by simp [List.map_map, pickedZones, Function.comp_def])
    (by simp [List.map_map, pickedZones, Function.comp_def]) (by simp [List.map_map, pickedZones, Function.comp_def])
    (by intro z hz; obtain ⟨x, hx, rfl⟩ := List.mem_map.mp hz; exact (hsz x hx).1)
  rw [show (zs.map (pickedZones fc dc ac)).map mergedZone = zs.map (fun z => mergedZone (pickedZones fc dc ac z)) from List.map_map] at hmerge
  have hhtc := calcHtc_ok (zs' := zs') h2 hv hcp okm (hz1.imp (fun _ _ h => h.1))
  have f2 := filterVars_ok _ okf hfn hfc
  have d2 := filterVars_ok _ okd hdn hdc
  have a2 := filterVars_ok _ oka han hac
  rw [of] at f2
  rw [od] at d2
  rw [oa] at a2
  rw [filterZones_ok names hf, ef, res_bind_ok, filterZones_ok names hd, ed, res_bind_ok, filterZones_ok names ha, ea, res_bind_ok,
    f2, res_bind_ok, d2, res_bind_ok, a2, res_bind_ok]
  erw [hmerge]
  rw [res_bind_ok]
  erw [hhtc]
  rfl

end Verif
