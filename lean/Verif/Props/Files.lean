import Verif.Props.Convert

/-! Properties C68 to C75: the files of the converters. -/

namespace Verif.Props
open Verif Grid
variable {F R : Type}

/-! ## C68 The chosen zones are kept -/

open Classical in
/-- `filter_zones` keeps exactly the zones with one of the names, as they are and in the same order; doing it again changes nothing. -/
theorem C68_filter_zones (names : List Str) {f : TecFile} (h : f.Ok) :
    ∃ t, Ansys.filterZones names f.text = .ok t ∧ t = { f with zones := f.zones.filter (fun z => z.Named names) : TecFile }.text ∧
      Ansys.filterZones names t = .ok t := by
  refine ⟨_, filterZones_ok names h, rfl, ?_⟩
  have h' : { f with zones := f.zones.filter (fun z => z.Named names) : TecFile }.Ok :=
    ⟨h.title, h.vars, fun z hz => h.zones z (List.mem_filter.mp hz).1⟩
  rw [filterZones_ok names h']
  simp

/-! ## C69 The chosen columns are kept together with their names -/

/-- `filter_variables` keeps the columns that are taken for wanted names, in the order of the file, in the line of variables and in every
line of a node; the heads of zones and the elements stay as they are. -/
theorem C69_filter_variables (wanted : List Str) {f : TecFile} (h : f.Ok) {names : List Str} (hn : HasNames f.vars names)
    {cols : List (Nat × Str)} (hc : WantedColumns wanted names cols) :
    Ansys.filterVars wanted f.text = .ok
      { title := f.title
        vars := "VARIABLES=".toList ++ Py.join ", ".toList (cols.map (fun p => ['"'] ++ p.2 ++ ['"'])) ++ ['\n']
        zones := f.zones.map (TecZone.mapNodes (fun l => wordsLine (pick (cols.map Prod.fst) l))) : TecFile }.text := by
  rw [filterVars_ok wanted h hn hc]
  unfold Ansys.varsLine
  rw [List.map_map]
  rfl

/-- The wanted columns of a file are determined, there is always a list of them. -/
theorem C69_columns (wanted names : List Str) : ∃! cols, WantedColumns wanted names cols :=
  ⟨_, keptColumns_wanted wanted names, fun _ h => wantedColumns_unique h (keptColumns_wanted wanted names)⟩

/-! ## C70 The merged file has the right columns -/

/-- When the wanted variables of each file are found once and in the usual order, the merged file has in each column the number that its
head tells: the point, the heat flux, the friction and the surface temperature from the first file, the collection efficiency from the
second file, the temperature from the third file. -/
theorem C70_merge_partial {f d a : TecFile} (hf : f.Ok) (hd : d.Ok) (ha : a.Ok) {fn dn an : List Str} {fc dc ac : List (Nat × Str)}
    (hfn : HasNames f.vars fn) (hdn : HasNames d.vars dn) (han : HasNames a.vars an) (hfc : WantedColumns Ansys.fensapVars fn fc)
    (hdc : WantedColumns Ansys.drop3dVars dn dc) (hac : WantedColumns Ansys.adiabaticVars an ac)
    (of : fc.map Prod.snd = Ansys.fensapVars) (od : dc.map Prod.snd = Ansys.drop3dVars) (oa : ac.map Prod.snd = Ansys.adiabaticVars)
    {zs : List (TecZone × TecZone × TecZone)} (ef : f.zones = zs.map (·.1)) (ed : d.zones = zs.map (·.2.1)) (ea : a.zones = zs.map (·.2.2))
    (hz : ∀ z ∈ zs, (z.2.1.nodes.length = z.1.nodes.length ∧ z.2.2.nodes.length = z.1.nodes.length ∧
      z.2.1.elems.length = z.1.elems.length ∧ z.2.2.elems.length = z.1.elems.length) ∧
      (∀ l ∈ z.1.nodes, ∀ p ∈ fc, p.1 < (Py.splitWs l).length) ∧ (∀ l ∈ z.2.1.nodes, ∀ p ∈ dc, p.1 < (Py.splitWs l).length) ∧
      ∀ l ∈ z.2.2.nodes, ∀ p ∈ ac, p.1 < (Py.splitWs l).length) :
    (do
      let f' ← Ansys.filterVars Ansys.fensapVars f.text
      let d' ← Ansys.filterVars Ansys.drop3dVars d.text
      let a' ← Ansys.filterVars Ansys.adiabaticVars a.text
      Ansys.mergeFiles f' d' a') = .ok
        { title := f.title
          vars := "VARIABLES = \"X\", \"Y\", \"Z\", \"Flux\", \"Beta\", \"TauX\", \"TauY\", \"TauZ\", \"Ts\", \"StatT\"\n".toList
          zones := zs.map (fun z =>
            { head := z.1.head
              nodes := (z.1.nodes.zip (z.2.1.nodes.zip z.2.2.nodes)).map (fun p => wordsLine
                (["X".toList, "Y".toList, "Z".toList, "Classical heat flux".toList].filterMap (fun w => column fc w p.1) ++
                 ["Collection efficiency-Droplet".toList].filterMap (fun w => column dc w p.2.1) ++
                 ["SF1".toList, "SF2".toList, "SF3".toList, "Static temperature".toList].filterMap (fun w => column fc w p.1) ++
                 ["Static temperature".toList].filterMap (fun w => column ac w p.2.2)))
              elems := z.1.elems }) : TecFile }.text := by
  have okz : ∀ z ∈ zs, z.1.Ok ∧ z.2.1.Ok ∧ z.2.2.Ok := fun z hz =>
    ⟨hf.zones _ (ef ▸ List.mem_map.mpr ⟨z, hz, rfl⟩), hd.zones _ (ed ▸ List.mem_map.mpr ⟨z, hz, rfl⟩),
     ha.zones _ (ea ▸ List.mem_map.mpr ⟨z, hz, rfl⟩)⟩
  have okp : ∀ (t v : Str) (l : List TecZone) (cols : List (Nat × Str)), Py.IsLine t ∧ "TITLE".toList <:+: t →
      Py.IsLine v ∧ "VARIABLES".toList <:+: v ∧ ¬ "TITLE".toList <:+: v → (∀ z ∈ l, z.Ok) →
      { title := t, vars := v, zones := l.map (TecZone.mapNodes (fun l => wordsLine (pick (cols.map Prod.fst) l))) : TecFile }.Ok := by
    intro t v l cols ht hv hl
    refine ⟨ht, hv, ?_⟩
    intro z hz
    obtain ⟨x, hx, rfl⟩ := List.mem_map.mp hz
    exact filtered_zone_ok (hl x hx) _
  have hmerge := mergeFiles_ok (okp f.title _ _ fc hf.title fensapLine_ok hf.zones) (okp d.title _ _ dc hd.title drop3dLine_ok hd.zones)
    (okp a.title _ _ ac ha.title adiabaticLine_ok ha.zones) (zs.map (pickedZones fc dc ac))
    (by simp [List.map_map, pickedZones, Function.comp_def, ef]) (by simp [List.map_map, pickedZones, Function.comp_def, ed])
    (by simp [List.map_map, pickedZones, Function.comp_def, ea]) (by
      intro z hzm
      obtain ⟨x, hx, rfl⟩ := List.mem_map.mp hzm
      obtain ⟨⟨c1, c2, c3, c4⟩, c5, c6, c7⟩ := hz x hx
      exact picked_mergeable of od oa (okz x hx).1 (okz x hx).2.1 (okz x hx).2.2 c1 c2 c3 c4 c5 c6 c7)
  rw [filterVars_ok _ hf hfn hfc, res_bind_ok, filterVars_ok _ hd hdn hdc, res_bind_ok, filterVars_ok _ ha han hac, res_bind_ok, of, od, oa,
    hmerge, List.map_map]
  congr 2
  apply congrArg (fun zones => ({ title := f.title, vars := mergedVars, zones := zones } : TecFile))
  apply List.map_congr_left
  intro z hzm
  obtain ⟨⟨c1, c2, c3, c4⟩, c5, c6, c7⟩ := hz z hzm
  have hn := picked_nodes fc dc ac z
  show mergedZone (pickedZones fc dc ac z) = _
  rw [show mergedZone (pickedZones fc dc ac z) = ⟨z.1.head, (mergedZone (pickedZones fc dc ac z)).nodes, z.1.elems⟩ from rfl, hn]
  congr 1
  apply List.map_congr_left
  intro p hp
  obtain ⟨m1, m2⟩ := List.of_mem_zip (a := p.1) (b := p.2) hp
  obtain ⟨m2, m3⟩ := List.of_mem_zip (a := p.2.1) (b := p.2.2) m2
  exact pickedNode_columns of od oa ((okz z hzm).1.nodes _ m1) ((okz z hzm).2.1.nodes _ m2) ((okz z hzm).2.2.nodes _ m3) (c5 _ m1) (c6 _ m2)
    (c7 _ m3)

/-! ## C71 Heat transfer coefficient -/

/-- Every node gets `HTC = -flux / (Ts - Ta)` and the recovery factor `(Ta - airT) * 2 * cp / airV ^ 2`; nothing else changes. -/
theorem C71_htc [Field F] [DecidableEq F] {c : Codec F} {airT airV cp : F} (h2 : (2 : F) ≠ 0) (hv : airV ≠ 0) (hc : cp ≠ 0) {f : TecFile}
    (hf : f.Ok) {zs : List TecZone} (hz : List.Forall₂ (ZoneRel (HtcNode c airT airV cp)) f.zones zs) :
    Ansys.calcHtc c airT airV cp f.text = .ok
      { title := f.title
        vars := "VARIABLES = \"X\", \"Y\", \"Z\", \"HTC\", \"Beta\", \"TauX\", \"TauY\", \"TauZ\", \"RecoveryFactor\"\n".toList
        zones := zs : TecFile }.text :=
  calcHtc_ok h2 hv hc hf hz

/-- No flow, no heat capacity or a node with the temperature of the adiabatic wall: the computation fails (here in the first node). -/
theorem C71_division_by_zero [Field F] [DecidableEq F] {c : Codec F} {airT airV cp : F} {f : TecFile} (hf : f.Ok) {z : TecZone}
    {zs : List TecZone} (ez : f.zones = z :: zs) {l : Str} {ls : List Str} (el : z.nodes = l :: ls)
    {x y w q b tx ty tz ts st : Str} {Q Ts Ta : F} (hl : Py.splitWs l = [x, y, w, q, b, tx, ty, tz, ts, st])
    (hq : c.parse q = .ok Q) (hts : c.parse ts = .ok Ts) (hst : c.parse st = .ok Ta) (h : airV = 0 ∨ cp = 0 ∨ Ts = Ta) :
    Ansys.calcHtc c airT airV cp f.text = .error .zeroDiv := by
  have hfields : Ansys.htcFields c airT airV cp [x, y, w, q, b, tx, ty, tz, ts, st] = .error .zeroDiv := by
    unfold Ansys.htcFields
    rw [show Py.get [x, y, w, q, b, tx, ty, tz, ts, st] 3 = .ok q from rfl, res_bind_ok, hq, res_bind_ok]
    show (Py.get [x, y, w, q, b, tx, ty, tz, ts, st] 8 >>= _) = _
    rw [show Py.get [x, y, w, q, b, tx, ty, tz, ts, st] 8 = .ok ts from rfl, res_bind_ok, hts, res_bind_ok,
      show Py.get [x, y, w, q, b, tx, ty, tz, ts, st] 9 = .ok st from rfl, res_bind_ok, hst, res_bind_ok]
    by_cases hvv : airV * airV = 0
    · rw [if_pos hvv]
    · rw [if_neg hvv]
      dsimp only
      by_cases hk : 2 * cp / (airV * airV) = 0
      · rw [if_pos hk]
      · rw [if_neg hk]
        have hd : airT + (Ta - airT) * (2 * cp / (airV * airV)) / (2 * cp / (airV * airV)) = Ta := by
          rw [mul_div_assoc, div_self hk]; ring
        rcases h with rfl | rfl | rfl
        · exact absurd (by simp) hvv
        · exact absurd (by simp) hk
        · rw [hd, if_pos (sub_self _)]
  have hzok := hf.zones z (by rw [ez]; simp)
  obtain ⟨h1, h2', h3, -⟩ := hzok.head_facts
  have h4 : Ansys.htcLine c airT airV cp ⟨0, 0, [f.title, "VARIABLES = \"X\", \"Y\", \"Z\", \"HTC\", \"Beta\", \"TauX\", \"TauY\", \"TauZ\", \"RecoveryFactor\"\n".toList]⟩ z.head =
      .ok ⟨z.nodes.length, z.elems.length, [f.title, "VARIABLES = \"X\", \"Y\", \"Z\", \"HTC\", \"Beta\", \"TauX\", \"TauY\", \"TauZ\", \"RecoveryFactor\"\n".toList] ++ [z.head]⟩ := by
    simp [Ansys.htcLine, h1, h2', h3, counts_ok hzok.counts]
  have h5 : ∀ out, Ansys.htcLine c airT airV cp ⟨z.nodes.length, z.elems.length, out⟩ l = .error .zeroDiv := by
    intro out
    unfold Ansys.htcLine
    rw [(hzok.nodes l (by rw [el]; simp)).notMeta]
    simp only [Bool.false_eq_true, if_false]
    rw [if_pos (by rw [el]; simp), hl, hfields]
    rfl
  have h6 : Ansys.htcLine c airT airV cp ⟨0, 0, []⟩ f.title = .ok ⟨0, 0, [f.title]⟩ := by
    simp [Ansys.htcLine, hf.title_facts]
  have h7 : Ansys.htcLine c airT airV cp ⟨0, 0, [f.title]⟩ f.vars = .ok ⟨0, 0, [f.title, "VARIABLES = \"X\", \"Y\", \"Z\", \"HTC\", \"Beta\", \"TauX\", \"TauY\", \"TauZ\", \"RecoveryFactor\"\n".toList]⟩ := by
    simp [Ansys.htcLine, hf.vars_facts]
  unfold Ansys.calcHtc
  rw [hf.readlines]
  unfold TecFile.lines
  rw [ez, List.flatMap_cons]
  unfold TecZone.lines
  rw [el]
  simp only [List.cons_append]
  rw [List.foldlM_cons, h6, res_bind_ok, List.foldlM_cons, h7, res_bind_ok, List.foldlM_cons, h4, res_bind_ok, List.foldlM_cons, h5]
  rfl

/-- In which node ever this happens, no file is written: if the computation succeeds, the air moves, its heat capacity is not zero and the
temperatures are different in every node of every zone. -/
theorem C71_no_value [Field F] [DecidableEq F] {c : Codec F} {airT airV cp : F} {f : TecFile} (hf : f.Ok) {t : Str}
    (h : Ansys.calcHtc c airT airV cp f.text = .ok t) {z : TecZone} (hz : z ∈ f.zones) {l : Str} (hl : l ∈ z.nodes)
    {x y w q b tx ty tz ts st : Str} {Q Ts Ta : F} (hs : Py.splitWs l = [x, y, w, q, b, tx, ty, tz, ts, st])
    (hq : c.parse q = .ok Q) (hts : c.parse ts = .ok Ts) (hst : c.parse st = .ok Ta) : airV ≠ 0 ∧ cp ≠ 0 ∧ Ts ≠ Ta := by
  obtain ⟨fs, h1⟩ := htc_nodes hf h z hz l hl
  rw [hs] at h1
  unfold Ansys.htcFields at h1
  rw [show Py.get [x, y, w, q, b, tx, ty, tz, ts, st] 3 = .ok q from rfl, res_bind_ok, hq, res_bind_ok] at h1
  change (Py.get [x, y, w, q, b, tx, ty, tz, ts, st] 8 >>= _) = _ at h1
  rw [show Py.get [x, y, w, q, b, tx, ty, tz, ts, st] 8 = .ok ts from rfl, res_bind_ok, hts, res_bind_ok,
    show Py.get [x, y, w, q, b, tx, ty, tz, ts, st] 9 = .ok st from rfl, res_bind_ok, hst, res_bind_ok] at h1
  by_cases hvv : airV * airV = 0
  · rw [if_pos hvv] at h1; cases h1
  rw [if_neg hvv] at h1
  dsimp only at h1
  by_cases hk : 2 * cp / (airV * airV) = 0
  · rw [if_pos hk] at h1; cases h1
  rw [if_neg hk] at h1
  have hd : airT + (Ta - airT) * (2 * cp / (airV * airV)) / (2 * cp / (airV * airV)) = Ta := by
    rw [mul_div_assoc, div_self hk]; ring
  refine ⟨fun e => hvv (by simp [e]), fun e => hk (by simp [e]), fun e => ?_⟩
  rw [hd, if_pos (by rw [e, sub_self])] at h1
  cases h1

/-! ## C72 From nodes to faces -/

/-- The file with the data of nodes is read, its data are moved to faces, written and read again as a grid: the result is the text of the
grid built from the zones, with triangles in place of quadrangles and the mean values of three nodes in each of them; `rd x` is the number
read back from the text of `x`. -/
theorem C72_nodes_to_faces [Field F] [DecidableEq F] [DecidableEq R] [Inhabited F] [Inhabited R] (rc : Vec F → R) {c out : Codec F}
    {fmt : F → Str} {rd : F → F} (hw : ∀ x, IsWord (fmt x)) (hr : ∀ x, c.parse (fmt x) = .ok (rd x)) (rev : Bool) {f : TecFile} (hf : f.Ok)
    {zs : List (Ansys.CZone F)} (hz : List.Forall₂ (ZoneReads c rev) f.zones zs) (hn : ∀ z ∈ zs, PlainName z.title) :
    ∃ blocks, List.Forall₂ (FaceBlock rd) zs blocks ∧ Ansys.nodesToFaces rc c out fmt rev f.text =
      (Grid.loadBlocks rc true (Grid.empty : Grid F R) blocks).bind (fun g => g.storeText out 0) :=
  nodesToFaces_ok rc hw hr rev hf hz hn

/-! ## C73 Transferred values are those of the nearest face -/

/-- Temperature and water film: every face gets the values of a face of the other grid whose center is nearest; nothing else changes. -/
theorem C73_interpolation [Field F] [LinearOrder F] [CharZero F] {query : List (Vec F) → Vec F → Nat} (hq : NearestPoint query) {src dst : Grid F R} (hne : src.faces ≠ [])
    (hs : ∀ f ∈ src.faces, (src.fNodes f).length = 3) (hd : ∀ f ∈ dst.faces, (dst.fNodes f).length = 3) :
    ∃ d, Interp.transfer query src dst = .ok { dst with fData := d } ∧
      (∀ f ∈ dst.faces, ∃ s, NearestFace src (faceCenter dst f) s ∧
        (Py.dictGet? (d f) "T".toList).getD 0 = src.getData 0 s "T".toList ∧
        (Py.dictGet? (d f) "Hw".toList).getD 0 = src.getData 0 s "Hw".toList ∧
        ∀ k, k ≠ "T".toList → k ≠ "Hw".toList → Py.dictGet? (d f) k = Py.dictGet? (dst.fData f) k) ∧
      ∀ f ∉ dst.faces, d f = dst.fData f := transfer_ok hq hne hs hd

/-- Collection efficiency. -/
theorem C73_add_beta [Field F] [LinearOrder F] {src dst : Grid F R} (hne : src.faces ≠ [])
    (hs : ∀ f ∈ src.faces, (src.fNodes f).length = 3) (hd : ∀ f ∈ dst.faces, (dst.fNodes f).length = 3) :
    ∃ d, Interp.addBeta src dst = .ok { dst with fData := d } ∧
      (∀ f ∈ dst.faces, ∃ s, NearestFace src (faceCenter dst f) s ∧
        (Py.dictGet? (d f) "Beta".toList).getD 0 = src.getData 0 s "Beta".toList ∧
        ∀ k, k ≠ "Beta".toList → Py.dictGet? (d f) k = Py.dictGet? (dst.fData f) k) ∧
      ∀ f ∉ dst.faces, d f = dst.fData f := addBeta_ok hne hs hd

/-! ## C74 Files of a directory are paired -/

/-- The result does not depend on the order in which the system lists the files. -/
theorem C74_order [Neg F] (c : Codec F) {dir dir' : List (Str × Str)} (h : dir.Perm dir') (hn : (dir.map Prod.fst).Nodup) :
    Lazurit.writeText c dir = Lazurit.writeText c dir' := by
  have h1 : Lazurit.sortNames ((dir.map Prod.fst).filter (fun fn => Py.contains ".TEC".toList fn)) =
      Lazurit.sortNames ((dir'.map Prod.fst).filter (fun fn => Py.contains ".TEC".toList fn)) := by
    apply sortNames_eq
    · exact ((h.map _).filter _).trans (List.perm_insertionSort _ _).symm
    · exact List.pairwise_insertionSort _ _
  have h2 : ∀ k, Py.dictGet? dir k = Py.dictGet? dir' k := by
    intro k
    have hn' : (dir'.map Prod.fst).Nodup := (h.map Prod.fst).nodup_iff.1 hn
    cases e : Py.dictGet? dir' k with
    | none =>
      rw [Utils.dictGet?_none_iff] at e ⊢
      intro hk
      exact e ((h.map Prod.fst).mem_iff.1 hk)
    | some v =>
      rw [← Utils.mem_iff_dictGet? _ hn'] at e
      exact (Utils.mem_iff_dictGet? _ hn _ _).1 (h.mem_iff.2 e)
  have h3 : ∀ files, Lazurit.pairLines c dir files = Lazurit.pairLines c dir' files := by
    intro files
    funext fi
    unfold Lazurit.pairLines
    simp only [h2]
  unfold Lazurit.writeText
  rw [h1]
  simp only [h3]

/-- The converter succeeds only if the `.TEC` files are pairs of a grid file and a solution file with the same end of the name. -/
theorem C74_pairs [Neg F] {c : Codec F} {dir : List (Str × Str)} {t : Str} (h : Lazurit.writeText c dir = .ok t) :
    ∃ ss : List Str, ((dir.map Prod.fst).filter (fun fn => Py.contains ".TEC".toList fn)).Perm
      (ss.map (fun s => "TEC_WALL_Grid_".toList ++ s) ++ ss.map (fun s => "TEC_WALL_Solution_".toList ++ s)) := by
  unfold Lazurit.writeText at h
  simp only at h
  obtain ⟨files, hf⟩ : ∃ files, files = Lazurit.sortNames ((dir.map Prod.fst).filter (fun fn => Py.contains ".TEC".toList fn)) := ⟨_, rfl⟩
  rw [← hf] at h
  have hp : files.Perm ((dir.map Prod.fst).filter (fun fn => Py.contains ".TEC".toList fn)) := hf ▸ List.perm_insertionSort _ _
  split at h
  · cases h
  rename_i heven
  obtain ⟨ls, hls, -⟩ := res_bind_eq_ok.1 h
  obtain ⟨n, hn⟩ : ∃ n, files.length = 2 * n := ⟨files.length / 2, by omega⟩
  rw [show files.length / 2 = n from by omega, mapM_forall₂] at hls
  have key : ∀ i, i < n → ∃ s, files[i]? = some ("TEC_WALL_Grid_".toList ++ s) ∧ files[n + i]? = some ("TEC_WALL_Solution_".toList ++ s) := by
    intro i hi
    have hi2 : i < ls.length := by rw [← hls.length_eq]; simpa using hi
    have hi1 : i < (List.range n).length := by simpa using hi
    have h1 := (List.forall₂_iff_get.mp hls).2 i hi1 hi2
    simp only [List.get_eq_getElem, List.getElem_range] at h1
    unfold Lazurit.pairLines at h1
    rw [get_ofNat, get_ofNat, show files.length / 2 = n from by omega, Nat.add_comm i n] at h1
    have l1 : i < files.length := by omega
    have l2 : n + i < files.length := by omega
    rw [List.getElem?_eq_getElem l1, List.getElem?_eq_getElem l2] at h1 ⊢
    simp only [res_bind_ok] at h1
    split_ifs at h1 with c1 c2 c3
    rw [not_not] at c1 c2 c3
    have t1 : ∀ (s : Str) (k : Nat), Py.slice s none (some (k : Int)) = s.take k := by
      intro s k
      have := slice_nat s 0 k
      rw [show Py.slice s none (some (k : Int)) = Py.slice s (some ((0 : Nat) : Int)) (some (k : Int)) from rfl, this]
      simp
    have t2 : ∀ (s : Str) (k : Nat), Py.slice s (some (k : Int)) none = s.drop k := by
      intro s k
      unfold Py.slice Py.bound
      simp only
      rw [if_neg (by omega), List.take_of_length_le (by simp)]
      by_cases hk : k ≤ s.length
      · simp [hk]
      · rw [List.drop_of_length_le (by simp; omega), List.drop_of_length_le (by omega)]
    refine ⟨files[i].drop 14, ?_, ?_⟩
    · rw [← c1, show (some (14 : Int)) = some ((14 : Nat) : Int) from rfl, t1, List.take_append_drop]
    · rw [← t2 files[i] 14, show ((14 : Nat) : Int) = 14 from rfl, c3, ← c2, show (18 : Int) = ((18 : Nat) : Int) from rfl, t1, t2,
        List.take_append_drop]
  choose! s hs1 hs2 using key
  refine ⟨(List.range n).map s, hp.symm.trans (List.Perm.of_eq ?_)⟩
  apply List.ext_getElem?
  intro i
  by_cases hi : i < n
  · rw [hs1 i hi, List.getElem?_append_left (by simpa using hi)]
    simp [hi]
  · by_cases hi2 : i < 2 * n
    · have := hs2 (i - n) (by omega)
      rw [show n + (i - n) = i from by omega] at this
      rw [this, List.getElem?_append_right (by simp; omega)]
      simp [show i - n < n from by omega]
    · rw [List.getElem?_eq_none (by omega), List.getElem?_eq_none (by simp; omega)]

/-! ## C75 The converters as a whole -/

open Classical in
/-- The ANSYS converter: from the zones with the chosen names of three files it makes the grid whose nodes have the data of the three
files and whose faces have the mean values of their nodes, and writes this grid. (The wanted variables of each file have to be found once
and in the usual order, see C70.) -/
theorem C75_ansys_partial [Field F] [DecidableEq F] [DecidableEq R] [Inhabited F] [Inhabited R] (rc : Vec F → R) {c out : Codec F} {fmt : F → Str}
    {rd : F → F} (hw : ∀ x, IsWord (fmt x)) (hr : ∀ x, c.parse (fmt x) = .ok (rd x)) (hc : c.Lawful) (hp : ∀ x, PlainWord (c.fmt x))
    {names : List Str} {airT airV cp : F} (h2 : (2 : F) ≠ 0) (hv : airV ≠ 0) (hcp : cp ≠ 0) (rev : Bool)
    {f d a : TecFile} (hf : f.Ok) (hd : d.Ok) (ha : a.Ok) {fn dn an : List Str} {fc dc ac : List (Nat × Str)}
    (hfn : HasNames f.vars fn) (hdn : HasNames d.vars dn) (han : HasNames a.vars an) (hfc : WantedColumns Ansys.fensapVars fn fc)
    (hdc : WantedColumns Ansys.drop3dVars dn dc) (hac : WantedColumns Ansys.adiabaticVars an ac)
    (of : fc.map Prod.snd = Ansys.fensapVars) (od : dc.map Prod.snd = Ansys.drop3dVars) (oa : ac.map Prod.snd = Ansys.adiabaticVars)
    {zs : List (TecZone × TecZone × TecZone)} (ef : f.zones.filter (fun z => z.Named names) = zs.map (·.1))
    (ed : d.zones.filter (fun z => z.Named names) = zs.map (·.2.1)) (ea : a.zones.filter (fun z => z.Named names) = zs.map (·.2.2))
    {czs : List (Ansys.CZone F)} (hz : List.Forall₂ (SurfaceZone c rev fc dc ac airT airV cp) zs czs) :
    ∃ blocks, List.Forall₂ (FaceBlock rd) czs blocks ∧
      Ansys.toCrystal rc c out fmt names airT airV cp rev f.text d.text a.text =
        (Grid.loadBlocks rc true (Grid.empty : Grid F R) blocks).bind (fun g => g.storeText out 0) :=
  toCrystal_ok rc hw hr hc hp h2 hv hcp rev hf hd ha hfn hdn han hfc hdc hac of od oa ef ed ea hz

/-- The LAZURIT converter writes the grid built from the blocks. -/
theorem C75_lazurit [Neg F] [OfNat F 0] [DecidableEq R] [Inhabited F] [Inhabited R] (rc : Vec F → R) {c out : Codec F} (hc : c.Lawful)
    {es : List (LazEntry F)} {dir : List (Str × Str)} (hd : LazDir c es dir) :
    ∃ blocks, List.Forall₂ (fun e blk => LazWritten e.name e.block blk ∧ CellsCovered e.block blk) es blocks ∧
      Lazurit.toCrystal rc c out dir =
        (Grid.loadBlocks rc true { (Grid.empty : Grid F R) with name := "FE Surface Data ASCII".toList } blocks).bind
          (fun g => g.storeText out 0) := by
  obtain ⟨t, h1, h2⟩ := writeText_ok hc hd
  refine ⟨es.map (fun e => (lazText e.name e.block).block lazuritVars), ?_, ?_⟩
  rotate_left
  · unfold Lazurit.toCrystal Grid.loadText
    obtain ⟨vars, h3⟩ := h2 (Grid.empty : Grid F R).name
    rw [h1, res_bind_ok]
    simp only
    rw [h3, res_bind_ok]
    rfl
  · rw [List.forall₂_map_right_iff]
    exact List.forall₂_same.mpr (fun e he => ⟨lazWritten e.name (hd.entries e he).block, cellsCovered e.name (hd.entries e he).block⟩)

/-! ## Samples -/

theorem isLine_of {l : Str} (h : l = l.dropLast ++ ['\n'] ∧ '\n' ∉ l.dropLast ∧ '\r' ∉ l.dropLast) : Py.IsLine l := ⟨l.dropLast, h⟩

/-- A line is a plain line, as it can be checked. -/
def plainCheck (l : Str) : Bool :=
  decide (l = l.dropLast ++ ['\n'] ∧ '\n' ∉ l.dropLast ∧ '\r' ∉ l.dropLast ∧ ¬ "TITLE".toList <:+: l ∧ ¬ "VARIABLES".toList <:+: l ∧
    ¬ "ZONE".toList <:+: l)

theorem plainLine_of {ls : List Str} (h : ls.all plainCheck = true) : ∀ l ∈ ls, PlainLine l := by
  intro l hl
  have := List.all_eq_true.1 h l hl
  simp only [plainCheck, decide_eq_true_eq] at this
  exact ⟨isLine_of ⟨this.1, this.2.1, this.2.2.1⟩, this.2.2.2⟩

/-- A zone with four nodes. -/
def wingHead : Str := "ZONE T=\"wing\", N=4, E=1, ET=QUADRILATERAL, F=FEPOINT\n".toList
/-- Another zone. -/
def tail : TecZone := ⟨"ZONE T=\"tail\", N=1, E=0, F=FEPOINT\n".toList, ["7 7 7 7 7 7 7 7 7 7\n".toList], []⟩

def flowWing : TecZone := ⟨wingHead, ["0 0 0 9 300 1 2 3 50 0\n".toList, "1 0 0 9 300 1 2 3 50 0\n".toList,
  "1 1 0 9 310 1 2 3 50 0\n".toList, "0 1 0 9 320 1 2 3 -50 0\n".toList], ["1 2 3 4\n".toList]⟩
def dropWing : TecZone := ⟨wingHead, ["0 0 0 1/2 0\n".toList, "1 0 0 1/3 0\n".toList, "1 1 0 1/4 0\n".toList, "0 1 0 1/5 0\n".toList],
  ["1 2 3 4\n".toList]⟩
def wallWing : TecZone := ⟨wingHead, ["0 0 0 290 0\n".toList, "1 0 0 290 0\n".toList, "1 1 0 290 0\n".toList, "0 1 0 290 0\n".toList],
  ["1 2 3 4\n".toList]⟩

def flowFile : TecFile := ⟨"TITLE=\"flow\"\n".toList,
  ("VARIABLES=\"X\",\"Y\",\"Z\",\"Density\",\"Static temperature (K)\",\"SF1\",\"SF2\",\"SF3\",\"Classical heat flux (W/m^2)\",\"End\"\n").toList,
  [tail, flowWing]⟩
def dropFile : TecFile := ⟨"TITLE=\"drops\"\n".toList,
  "VARIABLES=\"X\",\"Y\",\"Z\",\"Collection efficiency-Droplet\",\"End\"\n".toList, [tail, dropWing]⟩
def wallFile : TecFile := ⟨"TITLE=\"wall\"\n".toList, "VARIABLES=\"X\",\"Y\",\"Z\",\"Static temperature\",\"End\"\n".toList, [wallWing, tail]⟩

theorem tail_ok : tail.Ok :=
  ⟨isLine_of (by decide +kernel), by decide +kernel, by decide +kernel, by decide +kernel,
   ⟨"ZONE T=\"tail\", ".toList, ", E=".toList, ", F=FEPOINT\n".toList, by decide +kernel, by decide +kernel, by decide +kernel,
     by decide +kernel, by decide +kernel⟩, plainLine_of (by decide +kernel), plainLine_of (by decide +kernel)⟩

theorem wing_ok {ns : List Str} (hl : ns.length = 4) (h : ns.all plainCheck = true) : TecZone.Ok ⟨wingHead, ns, ["1 2 3 4\n".toList]⟩ := by
  have h1 : wingHead = wingHead.dropLast ++ ['\n'] ∧ '\n' ∉ wingHead.dropLast ∧ '\r' ∉ wingHead.dropLast := by decide +kernel
  have h2 : "ZONE".toList <:+: wingHead := by decide +kernel
  have h3 : ¬ "TITLE".toList <:+: wingHead := by decide +kernel
  have h4 : ¬ "VARIABLES".toList <:+: wingHead := by decide +kernel
  have h5 : ["1 2 3 4\n".toList].all plainCheck = true := by decide +kernel
  refine ⟨isLine_of h1, h2, h3, h4, ?_, plainLine_of h, plainLine_of h5⟩
  show HasCounts wingHead ns.length 1
  rw [hl]
  exact ⟨"ZONE T=\"wing\", ".toList, ", E=".toList, ", ET=QUADRILATERAL, F=FEPOINT\n".toList, by decide +kernel, by decide +kernel,
    by decide +kernel, by decide +kernel, by decide +kernel⟩

theorem flowFile_ok : flowFile.Ok :=
  ⟨⟨isLine_of (by decide +kernel), by decide +kernel⟩, ⟨isLine_of (by decide +kernel), by decide +kernel, by decide +kernel⟩,
    List.forall_mem_cons.2 ⟨tail_ok,
      List.forall_mem_cons.2 ⟨wing_ok (ns := flowWing.nodes) (by decide) (by decide +kernel), fun _ h => absurd h List.not_mem_nil⟩⟩⟩

theorem dropFile_ok : dropFile.Ok :=
  ⟨⟨isLine_of (by decide +kernel), by decide +kernel⟩, ⟨isLine_of (by decide +kernel), by decide +kernel, by decide +kernel⟩,
    List.forall_mem_cons.2 ⟨tail_ok,
      List.forall_mem_cons.2 ⟨wing_ok (ns := dropWing.nodes) (by decide) (by decide +kernel), fun _ h => absurd h List.not_mem_nil⟩⟩⟩

theorem wallFile_ok : wallFile.Ok :=
  ⟨⟨isLine_of (by decide +kernel), by decide +kernel⟩, ⟨isLine_of (by decide +kernel), by decide +kernel, by decide +kernel⟩,
    List.forall_mem_cons.2 ⟨wing_ok (ns := wallWing.nodes) (by decide) (by decide +kernel),
      List.forall_mem_cons.2 ⟨tail_ok, fun _ h => absurd h List.not_mem_nil⟩⟩⟩

theorem wing_named {ns es : List Str} : TecZone.Named ["wing".toList] ⟨wingHead, ns, es⟩ := ⟨"wing".toList, by simp, by
  show _ <:+: wingHead
  decide +kernel⟩

theorem tail_not_named : ¬ tail.Named ["wing".toList] := by
  rintro ⟨n, hn, h⟩
  rw [List.mem_singleton] at hn
  subst hn
  revert h
  decide +kernel

/-- Names of the variables of a file, as they can be computed. -/
def varNames (line : Str) : List Str := (Py.splitCh ',' ((Py.splitCh '=' line).getD 1 [])).map (fun q => q.filter (· ≠ '"'))

theorem hasNames_of {line : Str} (h : line = "VARIABLES".toList ++ '=' :: Py.join [','] (Py.splitCh ',' ((Py.splitCh '=' line).getD 1 [])) ∧
    Py.splitCh ',' ((Py.splitCh '=' line).getD 1 []) ≠ [] ∧ ∀ q ∈ Py.splitCh ',' ((Py.splitCh '=' line).getD 1 []), '=' ∉ q ∧ ',' ∉ q) :
    HasNames line (varNames line) :=
  ⟨"VARIABLES".toList, _, h.1, by decide +kernel, h.2.1, h.2.2, rfl⟩

/-- The columns found in the first file. -/
def flowCols : List (Nat × Str) := [(0, "X".toList), (1, "Y".toList), (2, "Z".toList), (4, "Static temperature".toList), (5, "SF1".toList),
  (6, "SF2".toList), (7, "SF3".toList), (8, "Classical heat flux".toList)]
def dropCols : List (Nat × Str) := [(0, "X".toList), (1, "Y".toList), (2, "Z".toList), (3, "Collection efficiency-Droplet".toList)]
def wallCols : List (Nat × Str) := [(0, "X".toList), (1, "Y".toList), (2, "Z".toList), (3, "Static temperature".toList)]

theorem flowCols_ok : HasNames flowFile.vars (varNames flowFile.vars) ∧ WantedColumns Ansys.fensapVars (varNames flowFile.vars) flowCols ∧
    flowCols.map Prod.snd = Ansys.fensapVars :=
  ⟨hasNames_of (by decide +kernel), by
    have h : keptColumns Ansys.fensapVars (varNames flowFile.vars) 0 = flowCols := by decide +kernel
    rw [← h]
    exact keptColumns_wanted _ _, by decide +kernel⟩

theorem dropCols_ok : HasNames dropFile.vars (varNames dropFile.vars) ∧ WantedColumns Ansys.drop3dVars (varNames dropFile.vars) dropCols ∧
    dropCols.map Prod.snd = Ansys.drop3dVars :=
  ⟨hasNames_of (by decide +kernel), by
    have h : keptColumns Ansys.drop3dVars (varNames dropFile.vars) 0 = dropCols := by decide +kernel
    rw [← h]
    exact keptColumns_wanted _ _, by decide +kernel⟩

theorem wallCols_ok : HasNames wallFile.vars (varNames wallFile.vars) ∧ WantedColumns Ansys.adiabaticVars (varNames wallFile.vars) wallCols ∧
    wallCols.map Prod.snd = Ansys.adiabaticVars :=
  ⟨hasNames_of (by decide +kernel), by
    have h : keptColumns Ansys.adiabaticVars (varNames wallFile.vars) 0 = wallCols := by decide +kernel
    rw [← h]
    exact keptColumns_wanted _ _, by decide +kernel⟩

/-- The surface that is made from the three files: `airT = 280`, `airV = 10`, `cp = 50`. -/
def wing : Ansys.CZone ℚ :=
  ⟨"wing".toList, [⟨⟨0, 0, 0⟩, -5, 1 / 2, ⟨1, 2, 3⟩, 10⟩, ⟨⟨1, 0, 0⟩, -5, 1 / 3, ⟨1, 2, 3⟩, 10⟩, ⟨⟨1, 1, 0⟩, -5 / 2, 1 / 4, ⟨1, 2, 3⟩, 10⟩,
    ⟨⟨0, 1, 0⟩, 5 / 3, 1 / 5, ⟨1, 2, 3⟩, 10⟩], [Ansys.face 0 1 2, Ansys.face 0 2 3]⟩

theorem wing_surface : SurfaceZone ratCodec false flowCols dropCols wallCols 280 10 50 (flowWing, dropWing, wallWing) wing := by
  refine ⟨⟨"ZONE ".toList, [], ", N=4, E=1, ET=QUADRILATERAL, F=FEPOINT\n".toList, by decide +kernel, by decide +kernel, by decide +kernel,
    by decide +kernel, by decide +kernel⟩, by decide +kernel, ⟨by decide, by decide, by decide, by decide⟩, by decide +kernel, by decide +kernel,
    by decide +kernel, ?_, ⟨[⟨0, 1, 2, 3⟩], ?_, by decide +kernel, by decide +kernel⟩, by decide +kernel⟩
  · refine .cons ?_ (.cons ?_ (.cons ?_ (.cons ?_ .nil)))
    · exact ⟨"0".toList, "0".toList, "0".toList, "300".toList, "1".toList, "2".toList, "3".toList, "50".toList, "1/2".toList, "290".toList,
        50, 300, 290, by decide +kernel, by decide +kernel, by decide +kernel, by decide +kernel, by decide +kernel, by decide +kernel,
        by decide +kernel, by decide +kernel, by decide +kernel, by decide +kernel, .inl (by decide +kernel), .inl (by decide +kernel),
        .inl (by decide +kernel), by decide +kernel, by decide +kernel, by decide +kernel, by decide +kernel, by decide +kernel,
        by decide +kernel, by decide +kernel, by decide +kernel, by decide +kernel, by decide +kernel⟩
    · exact ⟨"1".toList, "0".toList, "0".toList, "300".toList, "1".toList, "2".toList, "3".toList, "50".toList, "1/3".toList, "290".toList,
        50, 300, 290, by decide +kernel, by decide +kernel, by decide +kernel, by decide +kernel, by decide +kernel, by decide +kernel,
        by decide +kernel, by decide +kernel, by decide +kernel, by decide +kernel, .inl (by decide +kernel), .inl (by decide +kernel),
        .inl (by decide +kernel), by decide +kernel, by decide +kernel, by decide +kernel, by decide +kernel, by decide +kernel,
        by decide +kernel, by decide +kernel, by decide +kernel, by decide +kernel, by decide +kernel⟩
    · exact ⟨"1".toList, "1".toList, "0".toList, "310".toList, "1".toList, "2".toList, "3".toList, "50".toList, "1/4".toList, "290".toList,
        50, 310, 290, by decide +kernel, by decide +kernel, by decide +kernel, by decide +kernel, by decide +kernel, by decide +kernel,
        by decide +kernel, by decide +kernel, by decide +kernel, by decide +kernel, .inl (by decide +kernel), .inl (by decide +kernel),
        .inl (by decide +kernel), by decide +kernel, by decide +kernel, by decide +kernel, by decide +kernel, by decide +kernel,
        by decide +kernel, by decide +kernel, by decide +kernel, by decide +kernel, by decide +kernel⟩
    · exact ⟨"0".toList, "1".toList, "0".toList, "320".toList, "1".toList, "2".toList, "3".toList, "-50".toList, "1/5".toList, "290".toList,
        -50, 320, 290, by decide +kernel, by decide +kernel, by decide +kernel, by decide +kernel, by decide +kernel, by decide +kernel,
        by decide +kernel, by decide +kernel, by decide +kernel, by decide +kernel, .inl (by decide +kernel), .inl (by decide +kernel),
        .inl (by decide +kernel), by decide +kernel, by decide +kernel, by decide +kernel, by decide +kernel, by decide +kernel,
        by decide +kernel, by decide +kernel, by decide +kernel, by decide +kernel, by decide +kernel⟩
  · exact .cons ⟨"1".toList, "2".toList, "3".toList, "4".toList, by decide +kernel, by decide +kernel, by decide +kernel, by decide +kernel,
      by decide +kernel, by decide +kernel⟩ .nil

theorem ratCodec_word (x : ℚ) : IsWord (ratCodec.fmt x) := ⟨ratCodec_lawful.nonempty x, ratCodec_lawful.word x⟩

open Classical in
theorem wing_zones : flowFile.zones.filter (fun z => z.Named ["wing".toList]) = [flowWing] ∧
    dropFile.zones.filter (fun z => z.Named ["wing".toList]) = [dropWing] ∧
    wallFile.zones.filter (fun z => z.Named ["wing".toList]) = [wallWing] := by
  have h1 : flowWing.Named ["wing".toList] := wing_named
  have h2 : dropWing.Named ["wing".toList] := wing_named
  have h3 : wallWing.Named ["wing".toList] := wing_named
  refine ⟨?_, ?_, ?_⟩
  · show [tail, flowWing].filter _ = _
    rw [List.filter_cons_of_neg (by simpa using tail_not_named), List.filter_cons_of_pos (by simpa using h1)]; rfl
  · show [tail, dropWing].filter _ = _
    rw [List.filter_cons_of_neg (by simpa using tail_not_named), List.filter_cons_of_pos (by simpa using h2)]; rfl
  · show [wallWing, tail].filter _ = _
    rw [List.filter_cons_of_pos (by simpa using h3), List.filter_cons_of_neg (by simpa using tail_not_named)]; rfl

/-- The three files meet the conditions of the theorem on the whole conversion. -/
example (rc : Vec ℚ → ℚ) : ∃ blocks, List.Forall₂ (FaceBlock id) [wing] blocks ∧
    Ansys.toCrystal rc ratCodec ratCodec ratCodec.fmt ["wing".toList] 280 10 50 false flowFile.text dropFile.text wallFile.text =
      (Grid.loadBlocks rc true (Grid.empty : Grid ℚ ℚ) blocks).bind (fun g => g.storeText ratCodec 0) :=
  C75_ansys_partial rc ratCodec_word (fun x => ratCodec_lawful.roundtrip x) ratCodec_lawful ratCodec_plain (by norm_num) (by norm_num)
    (by norm_num) false flowFile_ok dropFile_ok wallFile_ok flowCols_ok.1 dropCols_ok.1 wallCols_ok.1 flowCols_ok.2.1 dropCols_ok.2.1
    wallCols_ok.2.1 flowCols_ok.2.2 dropCols_ok.2.2 wallCols_ok.2.2 (zs := [(flowWing, dropWing, wallWing)]) wing_zones.1 wing_zones.2.1
    wing_zones.2.2 (.cons wing_surface .nil)

/-- A node line with the heat flux, the temperature of the surface and of the adiabatic wall. -/
example : HtcNode ratCodec 280 10 50 "0 0 0 50 1/2 1 2 3 300 290\n".toList "0 0 0 -5/1 1/2 1 2 3 10/1\n".toList :=
  ⟨"0".toList, "0".toList, "0".toList, "50".toList, "1/2".toList, "1".toList, "2".toList, "3".toList, "300".toList, "290".toList, 50, 300, 290,
    by decide +kernel, by decide +kernel, by decide +kernel, by decide +kernel, by norm_num, by decide +kernel⟩

/-- The same file with the heat flux before the friction: every name is found once, but the merged file has the friction `SF3 = 3` in the
column of the heat flux and the heat flux `50` in the column of `TauX`. -/
theorem C70_order_violation :
    (do
      let f' ← Ansys.filterVars Ansys.fensapVars ("TITLE=\"flow\"\nVARIABLES=\"X\",\"Y\",\"Z\",\"Static temperature\",\"Classical heat flux\",\"SF1\",\"SF2\",\"SF3\",\"End\"\nZONE T=\"wing\", N=1, E=0\n7 8 9 300 50 1 2 3 0\n").toList
      let d' ← Ansys.filterVars Ansys.drop3dVars ("TITLE=\"drops\"\nVARIABLES=\"X\",\"Y\",\"Z\",\"Collection efficiency-Droplet\",\"End\"\nZONE T=\"wing\", N=1, E=0\n7 8 9 1/2 0\n").toList
      let a' ← Ansys.filterVars Ansys.adiabaticVars ("TITLE=\"wall\"\nVARIABLES=\"X\",\"Y\",\"Z\",\"Static temperature\",\"End\"\nZONE T=\"wing\", N=1, E=0\n7 8 9 290 0\n").toList
      Ansys.mergeFiles f' d' a') =
    .ok ("TITLE=\"flow\"\nVARIABLES = \"X\", \"Y\", \"Z\", \"Flux\", \"Beta\", \"TauX\", \"TauY\", \"TauZ\", \"Ts\", \"StatT\"\nZONE T=\"wing\", N=1, E=0\n7 8 9 3 1/2 50 1 2 300 290\n").toList := by
  decide +kernel

/-- A file with another variable whose name contains a wanted name: all later columns are shifted, the heat flux is the friction. -/
theorem C70_twice_violation :
    (do
      let f' ← Ansys.filterVars Ansys.fensapVars ("TITLE=\"flow\"\nVARIABLES=\"X\",\"Y\",\"Z\",\"Static temperature\",\"Static temperature of wall\",\"SF1\",\"SF2\",\"SF3\",\"Classical heat flux\",\"End\"\nZONE T=\"wing\", N=1, E=0\n7 8 9 300 301 1 2 3 50 0\n").toList
      let d' ← Ansys.filterVars Ansys.drop3dVars ("TITLE=\"drops\"\nVARIABLES=\"X\",\"Y\",\"Z\",\"Collection efficiency-Droplet\",\"End\"\nZONE T=\"wing\", N=1, E=0\n7 8 9 1/2 0\n").toList
      let a' ← Ansys.filterVars Ansys.adiabaticVars ("TITLE=\"wall\"\nVARIABLES=\"X\",\"Y\",\"Z\",\"Static temperature\",\"End\"\nZONE T=\"wing\", N=1, E=0\n7 8 9 290 0\n").toList
      Ansys.mergeFiles f' d' a') =
    .ok ("TITLE=\"flow\"\nVARIABLES = \"X\", \"Y\", \"Z\", \"Flux\", \"Beta\", \"TauX\", \"TauY\", \"TauZ\", \"Ts\", \"StatT\"\nZONE T=\"wing\", N=1, E=0\n7 8 9 3 1/2 301 1 2 300 290\n").toList := by
  decide +kernel

/-- A directory with a grid file only, a directory with files of two different blocks. -/
example : Lazurit.writeText ratCodec [("TEC_WALL_Grid_B1.TEC".toList, [])] =
      .error (.exc "количество файлов *.TEC во входной директории должно быть четным") ∧
    Lazurit.writeText ratCodec [("TEC_WALL_Solution_B2.TEC".toList, []), ("TEC_WALL_Grid_B1.TEC".toList, [])] =
      .error (.exc "файлы не соответствуют одному блоку") := by decide +kernel

/-- The sample directory is converted. -/
example : ∃ t, Lazurit.writeText ratCodec sampleDir = .ok t := by
  obtain ⟨t, -, h, -⟩ := C56_cells ratCodec_lawful sampleDir_ok
  exact ⟨t, h⟩

/-- A nearest point can always be found. -/
theorem nearest_query : ∃ query : List (Vec ℚ) → Vec ℚ → Nat, NearestPoint query := by
  classical
  have h : ∀ (ps : List (Vec ℚ)) (p : Vec ℚ), ∃ i : Nat, ps ≠ [] → ∃ q, ps[i]? = some q ∧ ∀ q' ∈ ps, dist2 p q ≤ dist2 p q' := by
    intro ps p
    by_cases hp : ps = []
    · exact ⟨0, fun h => absurd hp h⟩
    · obtain ⟨m, hm, hmin⟩ := ps.toFinset.exists_min_image (fun q => dist2 p q)
        (by obtain ⟨x, hx⟩ := List.exists_mem_of_ne_nil ps hp; exact ⟨x, List.mem_toFinset.2 hx⟩)
      obtain ⟨i, hi, rfl⟩ := List.getElem_of_mem (List.mem_toFinset.1 hm)
      exact ⟨i, fun _ => ⟨_, List.getElem?_eq_getElem hi, fun q hq => hmin q (List.mem_toFinset.2 hq)⟩⟩
  choose query hq using h
  exact ⟨query, fun ps q hp => hq ps q hp⟩

/-- Both transfers succeed between the sample grid and itself. -/
example : ∃ (query : List (Vec ℚ) → Vec ℚ → Nat) (g g' : Grid ℚ (ℚ × ℚ × ℚ)), Interp.transfer query Sample.flatGrid Sample.flatGrid = .ok g ∧
    Interp.addBeta Sample.flatGrid Sample.flatGrid = .ok g' := by
  obtain ⟨query, hq⟩ := nearest_query
  have h : ∀ f ∈ Sample.flatGrid.faces, (Sample.flatGrid.fNodes f).length = 3 := by decide +kernel
  have hne : Sample.flatGrid.faces ≠ [] := by decide +kernel
  obtain ⟨d, h1, -⟩ := C73_interpolation hq hne h h
  obtain ⟨d', h2, -⟩ := C73_add_beta hne h h
  exact ⟨query, _, _, h1, h2⟩

end Verif.Props
