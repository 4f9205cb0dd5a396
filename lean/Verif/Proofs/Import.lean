import Verif.Model.Import
import Verif.Proofs.Store
import Verif.Proofs.RawText

/-! Reading of grid files by `gsu_converter.Grid.Import`. -/

namespace Verif
variable {F R : Type}
open Grid Ansys

theorem floatLine_split {c : Codec F} (hc : c.Lawful) (l : List F) : Py.splitWs (floatLine c l) = l.map c.fmt := by
  unfold floatLine
  rw [Py.splitWs_join]
  · intro t ht
    obtain ⟨x, -, rfl⟩ := List.mem_map.mp ht
    exact hc.nonempty x
  · intro t ht
    obtain ⟨x, -, rfl⟩ := List.mem_map.mp ht
    exact hc.word x
  · decide

theorem connLine_split (l : List Int) : Py.splitWs (connLine l) = l.map Py.intStr := by
  unfold connLine
  rw [Py.splitWs_join]
  · intro t ht
    obtain ⟨x, -, rfl⟩ := List.mem_map.mp ht
    exact (Py.intStr_facts x).1
  · intro t ht
    obtain ⟨x, -, rfl⟩ := List.mem_map.mp ht
    exact (Py.intStr_facts x).2
  · decide

/-- A pattern without the character `ch` does not cross it. -/
theorem infix_cut {p a b : Str} {ch : Char} (hp : ch ∉ p) (h : p <:+: a ++ ch :: b) : p <:+: a ∨ p <:+: b := by
  obtain ⟨x, y, h⟩ := h
  rw [List.append_assoc, List.append_eq_append_iff] at h
  rcases h with ⟨u, h1, h2⟩ | ⟨u, h1, h2⟩
  · rw [List.append_eq_append_iff] at h2
    rcases h2 with ⟨v, h3, h4⟩ | ⟨v, h3, h4⟩
    · left; exact ⟨x, v, by rw [h1, h3, List.append_assoc]⟩
    · cases v with
      | nil => left; exact ⟨x, [], by rw [h1, h3]; simp⟩
      | cons w v =>
        exfalso
        apply hp
        rw [h3]
        have := (List.cons.inj h4).1
        rw [this]
        simp
  · cases u with
    | nil => right; rw [List.nil_append] at h2
             cases p with
             | nil => exact List.nil_infix
             | cons q p =>
               exfalso; apply hp; rw [(List.cons.inj h2).1]; simp
    | cons w u =>
      right
      exact ⟨u, y, by rw [List.append_assoc]; exact ((List.cons.inj h2).2).symm⟩

section
variable [Field F]

/-- A node with coordinates only. -/
def bareNode (p : Vec F) : CNode F := ⟨p, 0, 0, ⟨0, 0, 0⟩, 0⟩

theorem importFloat_ok {c : Codec F} (hc : c.Lawful) (l : List F) {i : Nat} (hi : i < l.length) :
    importFloat c (l.map c.fmt) i = .ok l[i] := by
  unfold importFloat
  rw [get_nat (by simpa using hi), res_bind_ok, List.getElem_map, hc.roundtrip]

theorem importNodes_ok {c : Codec F} (hc : c.Lawful) (pts : List (Vec F)) :
    importNodes c pts.length (floatLine c (pts.map Vec.x)) (floatLine c (pts.map Vec.y)) (floatLine c (pts.map Vec.z)) =
      .ok (pts.map bareNode) := by
  unfold importNodes assertLen
  rw [floatLine_split hc, floatLine_split hc, floatLine_split hc, if_pos (by simp), res_bind_ok, if_pos (by simp), res_bind_ok,
    if_pos (by simp), res_bind_ok, Int.toNat_natCast]
  have h : ∀ i : Fin pts.length, importNode c ((pts.map Vec.x).map c.fmt) ((pts.map Vec.y).map c.fmt) ((pts.map Vec.z).map c.fmt) (i : Nat) =
      .ok (bareNode pts[i]) := by
    intro i
    have hi : ∀ f : Vec F → F, (i : Nat) < ((pts.map f).map c.fmt).length := by simp
    unfold importNode
    rw [get_nat (hi _), res_bind_ok, List.getElem_map, List.getElem_map, hc.roundtrip, res_bind_ok,
      get_nat (hi _), res_bind_ok, List.getElem_map, List.getElem_map, hc.roundtrip, res_bind_ok,
      get_nat (hi _), res_bind_ok, List.getElem_map, List.getElem_map, hc.roundtrip, res_bind_ok]
    rfl
  rw [show List.range pts.length = (List.finRange pts.length).map Fin.val from by simp, List.mapM_map,
    mapM_eq_ok (f := importNode c _ _ _ ∘ Fin.val) (h := fun i : Fin pts.length => bareNode pts[i]) (fun i _ => h i)]
  have : (List.finRange pts.length).map (fun i : Fin pts.length => bareNode pts[i]) =
      ((List.finRange pts.length).map (fun i : Fin pts.length => pts[i])).map bareNode := by rw [List.map_map]; rfl
  rw [this]
  simp

theorem position_succ {α : Type} {l : List α} {n : Nat} (h : n < l.length) : position l ((n : Int) + 1 - 1) = .ok n := by
  unfold position
  rw [show (n : Int) + 1 - 1 = (n : Int) by omega, get_nat h, res_bind_ok, if_neg (by omega), Int.toNat_natCast]

/-- The connectivity line of a face. -/
def faceLine (f : CFace F) : Str := connLine [(f.n1 + 1 : Int), (f.n2 + 1 : Int), (f.n3 + 1 : Int)]

theorem importFace_ok {c : Codec F} (hc : c.Lawful) (nodes : List (CNode F)) (fs : List (CFace F)) {i : Nat} (hi : i < fs.length)
    (hr : fs[i].n1 < nodes.length ∧ fs[i].n2 < nodes.length ∧ fs[i].n3 < nodes.length) (h0 : fs[i].rf = 0) :
    importFace c nodes ((fs.map (·.htc)).map c.fmt) ((fs.map (·.beta)).map c.fmt) ((fs.map (·.tau.x)).map c.fmt)
      ((fs.map (·.tau.y)).map c.fmt) ((fs.map (·.tau.z)).map c.fmt) i (faceLine fs[i]) = .ok fs[i] := by
  unfold importFace
  have e : Py.splitWs (faceLine fs[i]) = [Py.intStr (fs[i].n1 + 1 : Int), Py.intStr (fs[i].n2 + 1 : Int), Py.intStr (fs[i].n3 + 1 : Int)] :=
    connLine_split _
  rw [e]
  have k1 : importCorner nodes [Py.intStr (fs[i].n1 + 1 : Int), Py.intStr (fs[i].n2 + 1 : Int), Py.intStr (fs[i].n3 + 1 : Int)] 0 =
      .ok fs[i].n1 := by
    unfold importCorner
    rw [show Py.get [Py.intStr (fs[i].n1 + 1 : Int), Py.intStr (fs[i].n2 + 1 : Int), Py.intStr (fs[i].n3 + 1 : Int)] 0 =
      .ok (Py.intStr (fs[i].n1 + 1 : Int)) from rfl, res_bind_ok, Py.int_intStr, res_bind_ok, position_succ hr.1]
  have k2 : importCorner nodes [Py.intStr (fs[i].n1 + 1 : Int), Py.intStr (fs[i].n2 + 1 : Int), Py.intStr (fs[i].n3 + 1 : Int)] 1 =
      .ok fs[i].n2 := by
    unfold importCorner
    rw [show Py.get [Py.intStr (fs[i].n1 + 1 : Int), Py.intStr (fs[i].n2 + 1 : Int), Py.intStr (fs[i].n3 + 1 : Int)] 1 =
      .ok (Py.intStr (fs[i].n2 + 1 : Int)) from rfl, res_bind_ok, Py.int_intStr, res_bind_ok, position_succ hr.2.1]
  have k3 : importCorner nodes [Py.intStr (fs[i].n1 + 1 : Int), Py.intStr (fs[i].n2 + 1 : Int), Py.intStr (fs[i].n3 + 1 : Int)] 2 =
      .ok fs[i].n3 := by
    unfold importCorner
    rw [show Py.get [Py.intStr (fs[i].n1 + 1 : Int), Py.intStr (fs[i].n2 + 1 : Int), Py.intStr (fs[i].n3 + 1 : Int)] 2 =
      .ok (Py.intStr (fs[i].n3 + 1 : Int)) from rfl, res_bind_ok, Py.int_intStr, res_bind_ok, position_succ hr.2.2]
  dsimp only
  rw [k1, res_bind_ok, k2, res_bind_ok, k3, res_bind_ok, importFloat_ok hc _ (by simpa using hi), res_bind_ok,
    importFloat_ok hc _ (by simpa using hi), res_bind_ok, importFloat_ok hc _ (by simpa using hi), res_bind_ok,
    importFloat_ok hc _ (by simpa using hi), res_bind_ok, importFloat_ok hc _ (by simpa using hi), res_bind_ok]
  simp only [List.getElem_map]
  congr 1
  rw [← h0]

theorem importFaces_ok {c : Codec F} (hc : c.Lawful) (nodes : List (CNode F)) (fs : List (CFace F))
    (hr : ∀ f ∈ fs, f.n1 < nodes.length ∧ f.n2 < nodes.length ∧ f.n3 < nodes.length) (h0 : ∀ f ∈ fs, f.rf = 0) (more : List Str)
    (pre post : List (CFace F)) (h : fs = pre ++ post) :
    importFaces c nodes ((fs.map (·.htc)).map c.fmt) ((fs.map (·.beta)).map c.fmt) ((fs.map (·.tau.x)).map c.fmt)
      ((fs.map (·.tau.y)).map c.fmt) ((fs.map (·.tau.z)).map c.fmt) post.length pre.length (post.map faceLine ++ more) = .ok (post, more) := by
  induction post generalizing pre with
  | nil => rfl
  | cons f post ih =>
    have hi : pre.length < fs.length := by rw [h]; simp
    have hf : fs[pre.length] = f := by simp [h]
    rw [List.length_cons, importFaces, List.map_cons, List.cons_append]
    show (importFace c nodes _ _ _ _ _ _ (faceLine f) >>= _) = _
    have := importFace_ok hc nodes fs hi (hr _ (List.getElem_mem hi)) (h0 _ (List.getElem_mem hi))
    rw [hf] at this
    rw [this, res_bind_ok]
    have := ih (pre ++ [f]) (by rw [h]; simp)
    rw [List.length_append, List.length_singleton] at this
    show (importFaces c nodes _ _ _ _ _ post.length (pre.length + 1) (post.map faceLine ++ more) >>= _) = _
    rw [this, res_bind_ok]

/-- The numbers written for a zone with three more variables in front of the five. -/
def importForm (z : CZone F) (r1 r2 r3 : List F) : ZoneText F where
  name := z.title
  pts := z.nodes.map (·.p)
  rows := [r1, r2, r3, z.faces.map (·.htc), z.faces.map (·.beta), z.faces.map (·.tau.x), z.faces.map (·.tau.y), z.faces.map (·.tau.z)]
  conns := z.faces.map (fun f => [(f.n1 + 1 : Int), (f.n2 + 1 : Int), (f.n3 + 1 : Int)])

/-- What `Import` can represent. -/
structure Bare (z : CZone F) : Prop where
  nodes : ∀ n ∈ z.nodes, n = bareNode n.p
  faces : ∀ f ∈ z.faces, f.rf = 0
  range : ∀ f ∈ z.faces, f.n1 < z.nodes.length ∧ f.n2 < z.nodes.length ∧ f.n3 < z.nodes.length

theorem importCount_line {a : Str} (ha : '=' ∉ a) (n : Nat) : importCount (a ++ '=' :: (Py.natStr n ++ ['\n'])) = .ok (n : Int) := by
  unfold importCount
  rw [Py.splitCh_one ha (by simp [(Py.natStr_facts n).2.2.2])]
  show Py.int (Py.natStr n ++ ['\n']) = _
  have : Py.strip (Py.natStr n ++ ['\n']) = Py.strip (Py.natStr n) := by
    have hw := (Py.natStr_facts n).1
    unfold Py.strip
    obtain ⟨ch, t, e⟩ := List.exists_cons_of_ne_nil (Py.natStr_ne_nil n)
    rw [e, List.cons_append, List.dropWhile_cons_of_neg (by rw [hw ch (by rw [e]; simp)]; simp),
      List.dropWhile_cons_of_neg (by rw [hw ch (by rw [e]; simp)]; simp), ← List.cons_append, List.reverse_append]
    rfl
  unfold Py.int
  rw [this]
  exact Py.int_natStr n

theorem importZone_ok {c : Codec F} (hc : c.Lawful) (vc : Nat) (z : CZone F) (hz : Bare z) (hn : '=' ∉ z.title) (r1 r2 r3 : List F)
    (more : List Str) :
    importZone c ("ZONE T=\"".toList ++ z.title ++ "\"\n".toList) ((importForm z r1 r2 r3).tail c vc more) = .ok (z, more) := by
  unfold importZone
  have hb : '=' ∉ '"' :: z.title ++ "\"\n".toList := by simp [hn]
  have e : "ZONE T=\"".toList ++ z.title ++ "\"\n".toList = "ZONE T".toList ++ '=' :: ('"' :: z.title ++ "\"\n".toList) := by simp
  rw [e, Py.splitCh_one (by decide) hb]
  show (importCount _ >>= _) = _
  obtain ⟨nn, hnn⟩ : ∃ nn, nn = z.nodes.map (·.p) := ⟨_, rfl⟩
  have l0 : lineAt ((importForm z r1 r2 r3).tail c vc more) 0 = "NODES".toList ++ '=' :: (Py.natStr (z.nodes.map (·.p)).length ++ ['\n']) := rfl
  have l1 : lineAt ((importForm z r1 r2 r3).tail c vc more) 1 = "ELEMENTS".toList ++ '=' :: (Py.natStr (importForm z r1 r2 r3).conns.length ++ ['\n']) := rfl
  have lx : lineAt ((importForm z r1 r2 r3).tail c vc more) 5 = floatLine c ((z.nodes.map (·.p)).map Vec.x) := rfl
  have ly : lineAt ((importForm z r1 r2 r3).tail c vc more) 6 = floatLine c ((z.nodes.map (·.p)).map Vec.y) := rfl
  have lz : lineAt ((importForm z r1 r2 r3).tail c vc more) 7 = floatLine c ((z.nodes.map (·.p)).map Vec.z) := rfl
  have d1 : lineAt ((importForm z r1 r2 r3).tail c vc more) 11 = floatLine c (z.faces.map (·.htc)) := rfl
  have d2 : lineAt ((importForm z r1 r2 r3).tail c vc more) 12 = floatLine c (z.faces.map (·.beta)) := rfl
  have d3 : lineAt ((importForm z r1 r2 r3).tail c vc more) 13 = floatLine c (z.faces.map (·.tau.x)) := rfl
  have d4 : lineAt ((importForm z r1 r2 r3).tail c vc more) 14 = floatLine c (z.faces.map (·.tau.y)) := rfl
  have d5 : lineAt ((importForm z r1 r2 r3).tail c vc more) 15 = floatLine c (z.faces.map (·.tau.z)) := rfl
  have d6 : ((importForm z r1 r2 r3).tail c vc more).drop 16 = z.faces.map faceLine ++ more := by
    show (importForm z r1 r2 r3).conns.map connLine ++ more = _
    simp only [importForm, List.map_map]
    rfl
  have b : (z.nodes.map (·.p)).map bareNode = z.nodes := by
    rw [List.map_map]
    conv_rhs => rw [← List.map_id z.nodes]
    exact List.map_congr_left fun n hn => (hz.nodes n hn).symm
  rw [l0, l1, lx, ly, lz, d1, d2, d3, d4, d5, d6, importCount_line (by decide), res_bind_ok, importCount_line (by decide), res_bind_ok,
    importNodes_ok hc, res_bind_ok, b]
  have hl : (importForm z r1 r2 r3).conns.length = z.faces.length := by simp [importForm]
  rw [hl]
  unfold importData assertLen
  simp only [floatLine_split hc]
  have k := importFaces_ok hc z.nodes z.faces hz.range hz.faces more [] z.faces rfl
  rw [if_pos (by simp), res_bind_ok, if_pos (by simp), res_bind_ok, if_pos (by simp), res_bind_ok, if_pos (by simp), res_bind_ok,
    if_pos (by simp), res_bind_ok, Int.toNat_natCast]
  rw [List.length_nil] at k
  rw [k, res_bind_ok]
  have : Py.slice ('"' :: z.title ++ "\"\n".toList) (some 1) (some (-2)) = z.title := by
    exact Py.slice_one_neg '"' z.title "\"\n".toList 2 (by omega) rfl
  rw [this]

/-- The lines of an exported file. -/
theorem readlines_export {fmt : F → Str} (hw : ∀ x, IsWord (fmt x)) (zs : List (CZone F)) (hn : ∀ z ∈ zs, PlainName z.title) :
    Py.readlines (Ansys.exportText fmt zs) =
      "VARIABLES=\"X\", \"Y\", \"Z\", \"HTC\", \"Beta\", \"TauX\", \"TauY\", \"TauZ\", \"RecoveryFactor\"\n".toList ::
        zs.flatMap (Ansys.exportZone fmt) := by
  unfold Ansys.exportText
  apply Py.readlines_flatten
  intro l hl
  rcases List.mem_cons.mp hl with rfl | hl
  · exact ⟨"VARIABLES=\"X\", \"Y\", \"Z\", \"HTC\", \"Beta\", \"TauX\", \"TauY\", \"TauZ\", \"RecoveryFactor\"".toList, by decide +kernel,
      by decide +kernel, by decide +kernel⟩
  · obtain ⟨z, hz, hl⟩ := List.mem_flatMap.mp hl
    rw [exportZone_lines fmt id] at hl
    refine raw_isLine 9 (exportText id z) (exportRaw fmt z) (hn z hz) ?_ l hl
    refine ⟨exportFloats_isLine hw _, exportFloats_isLine hw _, exportFloats_isLine hw _, ?_, ?_⟩
    · intro l hl
      simp only [exportRaw, List.mem_cons, List.not_mem_nil, or_false] at hl
      rcases hl with rfl | rfl | rfl | rfl | rfl | rfl <;> exact exportFloats_isLine hw _
    · intro l hl
      obtain ⟨f, -, rfl⟩ := List.mem_map.mp hl
      exact connLine_isLine _

theorem res_cases {α : Type} (r : Res α) : (∃ e, r = .error e) ∨ ∃ a, r = .ok a := by
  cases r with
  | error e => exact Or.inl ⟨e, rfl⟩
  | ok a => exact Or.inr ⟨a, rfl⟩

/-- The head of the next zone, or the end of the file, is no element. -/
theorem importFace_head {c : Codec F} (nodes : List (CNode F)) (hs bs xs ys zs : List Str) (i : Nat) {l : Str}
    (h : l = [] ∨ ∃ t, l = "ZONE T=".toList ++ t) : ∃ e, importFace c nodes hs bs xs ys zs i l = .error e := by
  unfold importFace
  rcases h with rfl | ⟨t, rfl⟩
  · exact ⟨.index, rfl⟩
  · refine ⟨.value, ?_⟩
    have : Py.splitWs ("ZONE T=".toList ++ t) = "ZONE".toList :: Py.splitWs ("T=".toList ++ t) := by
      have e : "ZONE T=".toList ++ t = "ZONE".toList ++ (' ' :: ("T=".toList ++ t)) := by simp
      unfold Py.splitWs
      rw [e, Py.splitWsAux_word (by decide), Py.splitWsAux, if_pos (by decide), if_neg (by decide)]
      rfl
    rw [this]
    dsimp only
    rw [show importCorner nodes ("ZONE".toList :: Py.splitWs ("T=".toList ++ t)) 0 = .error .value from rfl]
    rfl

theorem importFaces_head {c : Codec F} (nodes : List (CNode F)) (hs bs xs ys zs : List Str) (n i : Nat) {more : List Str}
    (hm : lineAt more 0 = [] ∨ ∃ t, lineAt more 0 = "ZONE T=".toList ++ t) :
    ∃ e, importFaces c nodes hs bs xs ys zs (n + 1) i more = .error e := by
  obtain ⟨e', he'⟩ := importFace_head (c := c) nodes hs bs xs ys zs i hm
  refine ⟨e', ?_⟩
  rw [importFaces]
  have hl : (readline more).1 = lineAt more 0 := by cases more <;> rfl
  rw [hl, he']
  rfl

/-- A zone with faces that `Export` wrote is refused. -/
theorem importZone_export (c : Codec F) {fmt : F → Str} (hw : ∀ x, IsWord (fmt x)) (z : CZone F) (hf : z.faces ≠ []) (more : List Str)
    (hm : lineAt more 0 = [] ∨ ∃ t, lineAt more 0 = "ZONE T=".toList ++ t) :
    ∃ e, importZone c ("ZONE T=\"".toList ++ z.title ++ "\"\n".toList) ((exportRaw fmt z).tail 9 (exportText id z) more) = .error e := by
  unfold importZone
  obtain ⟨t, ht⟩ : ∃ t, Py.get (Py.splitCh '=' ("ZONE T=\"".toList ++ z.title ++ "\"\n".toList)) 1 = .ok t := by
    rw [show "ZONE T=\"".toList ++ z.title ++ "\"\n".toList = "ZONE T".toList ++ '=' :: ('"' :: z.title ++ "\"\n".toList) by simp,
      Py.splitCh_cons _ (by decide)]
    have hne : ∀ s : Str, Py.splitCh '=' s ≠ [] := by
      intro s
      cases s with
      | nil => simp [Py.splitCh]
      | cons a s =>
        unfold Py.splitCh
        split_ifs
        · simp
        · split <;> simp
    obtain ⟨a, b, e⟩ := List.exists_cons_of_ne_nil (hne ('"' :: z.title ++ "\"\n".toList))
    rw [e]
    exact ⟨a, rfl⟩
  rw [ht, res_bind_ok]
  obtain ⟨L, hL⟩ : ∃ L, L = (exportRaw fmt z).tail 9 (exportText id z) more := ⟨_, rfl⟩
  rw [← hL]
  have l0 : importCount (lineAt L 0) = .ok (((exportText id z).pts.length : Nat) : Int) := by
    rw [hL]; exact importCount_line (a := "NODES".toList) (by decide) _
  have l1 : importCount (lineAt L 1) = .ok ((z.faces.length : Nat) : Int) := by
    have := importCount_line (a := "ELEMENTS".toList) (by decide) (exportText id z).conns.length
    rw [hL]
    refine this.trans ?_
    simp [exportText]
  rw [l0, res_bind_ok, l1, res_bind_ok]
  rcases res_cases (importNodes c (((exportText id z).pts.length : Nat) : Int) (lineAt L 5) (lineAt L 6) (lineAt L 7)) with ⟨e, he⟩ | ⟨ns, hns⟩
  · rw [he]; exact ⟨e, rfl⟩
  rw [hns, res_bind_ok]
  suffices h : ∃ e, importData c z.faces.length ns (lineAt L 11) (lineAt L 12) (lineAt L 13) (lineAt L 14) (lineAt L 15) (L.drop 16) = .error e by
    obtain ⟨e, he⟩ := h
    rw [he]
    exact ⟨e, rfl⟩
  have d1 : lineAt L 11 = Ansys.exportFloats fmt (z.faces.map (·.tau.y)) := by rw [hL]; rfl
  have d2 : lineAt L 12 = Ansys.exportFloats fmt (z.faces.map (·.tau.z)) := by rw [hL]; rfl
  have d3 : lineAt L 13 = Ansys.exportFloats fmt (z.faces.map (·.rf)) := by rw [hL]; rfl
  have d4 : ∀ i, lineAt L (14 + i) = lineAt (z.faces.map faceLine ++ more) i := by
    intro i
    rw [hL]
    unfold lineAt
    have : 14 + i = i + 14 := by omega
    rw [this]
    rfl
  have d5 : ∀ i, L.drop (14 + i) = (z.faces.map faceLine ++ more).drop i := by
    intro i
    rw [hL, ← List.drop_drop]
    rfl
  unfold importData assertLen
  rw [d1, d2, d3, exportFloats_split hw, exportFloats_split hw, exportFloats_split hw, if_pos (by simp), res_bind_ok,
    if_pos (by simp), res_bind_ok, if_pos (by simp), res_bind_ok]
  obtain ⟨f, fs, hfs⟩ := List.exists_cons_of_ne_nil hf
  have e14 : Py.splitWs (lineAt L 14) = [(f.n1 + 1 : Int), (f.n2 + 1 : Int), (f.n3 + 1 : Int)].map Py.intStr := by
    rw [d4 0, hfs]
    exact connLine_split _
  rw [e14]
  by_cases h3 : z.faces.length = 3
  case neg =>
    rw [if_neg]
    · exact ⟨_, rfl⟩
    · intro h
      apply h3
      simp at h
      omega
  obtain ⟨a, b, d, e⟩ := List.length_eq_three.1 h3
  rw [if_pos (by rw [h3]; rfl), res_bind_ok, h3, d5 2, e]
  split_ifs
  case neg => exact ⟨_, rfl⟩
  rw [res_bind_ok]
  show ∃ e, (importFace c ns _ _ _ _ _ 0 (faceLine d) >>= _) = .error e
  rcases res_cases (importFace c ns _ _ _ _ _ 0 (faceLine d)) with ⟨e, he⟩ | ⟨x, hx⟩
  · rw [he]; exact ⟨e, rfl⟩
  rw [hx, res_bind_ok]
  show ∃ e, (importFaces c ns _ _ _ _ _ 2 1 more >>= _) = .error e
  obtain ⟨e'', he''⟩ := importFaces_head (c := c) ns _ _ _ _ _ 1 1 hm
  rw [he'']
  exact ⟨e'', rfl⟩

end

end Verif
