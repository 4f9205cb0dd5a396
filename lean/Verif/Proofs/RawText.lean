import Verif.Proofs.Tec3
import Verif.Model.Lazurit

/-! The grid reader on files that were not written by `Grid.store`. -/

namespace Verif
variable {F R : Type}
open Grid

/-- The lines of a zone that hold numbers. -/
structure RawZone where
  lx : Str
  ly : Str
  lz : Str
  rows : List Str
  conns : List Str

structure RawZone.Reads (c : Codec F) (r : RawZone) (t : ZoneText F) : Prop where
  x : parseFloats c r.lx = .ok (t.pts.map Vec.x)
  y : parseFloats c r.ly = .ok (t.pts.map Vec.y)
  z : parseFloats c r.lz = .ok (t.pts.map Vec.z)
  rows : List.Forall₂ (fun l v => parseFloats c l = .ok v) r.rows t.rows
  conns : List.Forall₂ (fun l v => parseInts l = .ok v) r.conns t.conns

/-- The lines after the first one. -/
def RawZone.tail (vc : Nat) (t : ZoneText F) (r : RawZone) (more : List Str) : List Str :=
  ("NODES=".toList ++ (Py.natStr t.pts.length ++ ['\n'])) :: ("ELEMENTS=".toList ++ (Py.natStr t.conns.length ++ ['\n'])) ::
  "DATAPACKING=BLOCK\n".toList :: "ZONETYPE=FETRIANGLE\n".toList ::
  ("VARLOCATION=([4-".toList ++ Py.natStr vc ++ "]=CELLCENTERED)\n".toList) ::
  r.lx :: r.ly :: r.lz :: (r.rows ++ (r.conns ++ more))

def RawZone.lines (vc : Nat) (t : ZoneText F) (r : RawZone) : List Str :=
  ("ZONE T=\"".toList ++ t.name ++ "\"\n".toList) :: r.tail vc t []

theorem RawZone.lines_append (vc : Nat) (t : ZoneText F) (r : RawZone) (more : List Str) :
    r.lines vc t ++ more = ("ZONE T=\"".toList ++ t.name ++ "\"\n".toList) :: r.tail vc t more := by
  simp [RawZone.lines, RawZone.tail]

theorem mapM_of_forall₂ {α β : Type} {f : α → Res β} {l : List α} {l' : List β} (h : List.Forall₂ (fun a b => f a = .ok b) l l') :
    l.mapM f = .ok l' := by
  induction h with
  | nil => rfl
  | cons h1 _ ih => rw [List.mapM_cons, h1, ih]; rfl

theorem parseZone_raw {c : Codec F} (vars : List Str) (t : ZoneText F) (ht : t.Ok (vars.drop 3)) (hv : (vars.drop 3).Nodup)
    (r : RawZone) (hr : r.Reads c t) (more : List Str) :
    parseZone c vars ("ZONE T=\"".toList ++ t.name ++ "\"\n".toList) (r.tail vars.length t more) = .ok (t.block (vars.drop 3), more) := by
  have hz : lastField ("ZONE T=\"".toList ++ t.name ++ "\"\n".toList) = .ok ('"' :: t.name ++ "\"\n".toList) := by
    refine (lastField_one (a := "ZONE T".toList) (b := '"' :: t.name ++ "\"\n".toList) (by decide) ?_)
    have := ht.name.1
    simp [this]
  have hn : countOf ("NODES=".toList ++ (Py.natStr t.pts.length ++ ['\n'])) = _ :=
    countOf_line (a := "NODES".toList) (by decide) t.pts.length
  have hf : countOf ("ELEMENTS=".toList ++ (Py.natStr t.conns.length ++ ['\n'])) = _ :=
    countOf_line (a := "ELEMENTS".toList) (by decide) t.conns.length
  have hp := mapM_of_forall₂ hr.rows
  have hq := mapM_of_forall₂ hr.conns
  have hl1 : r.rows.length = (vars.drop 3).length := by rw [hr.rows.length_eq, ht.rows]
  have hl2 := hr.conns.length_eq
  unfold parseZone
  rw [hz, res_bind_ok]
  unfold RawZone.tail
  simp only [show ∀ (a b c d e : Str) l, Grid.readlines 5 (a :: b :: c :: d :: e :: l) = ([a, b, c, d, e], l) from
    fun _ _ _ _ _ _ => rfl]
  rw [checkHead_ok, res_bind_ok, hn, res_bind_ok, hf, res_bind_ok]
  simp only [show ∀ (a b c : Str) l, Grid.readlines 3 (a :: b :: c :: l) = ([a, b, c], l) from fun _ _ _ _ => rfl]
  have h3 : [r.lx, r.ly, r.lz].mapM (parseFloats c) = .ok [t.pts.map Vec.x, t.pts.map Vec.y, t.pts.map Vec.z] :=
    mapM_of_forall₂ (.cons hr.x (.cons hr.y (.cons hr.z .nil)))
  rw [h3, res_bind_ok]
  simp only [Int.toNat_natCast]
  rw [points_ok, res_bind_ok, readlines_append' _ _ hl1]
  simp only
  rw [hp, res_bind_ok, datas_ok _ hv t ht, res_bind_ok, readlines_append' _ _ hl2]
  simp only
  rw [hq, res_bind_ok]
  rw [show Py.slice ('"' :: t.name ++ "\"\n".toList) (some 1) (some (-2)) = t.name from
    Py.slice_one_neg '"' t.name _ 2 (by omega) rfl]
  rfl

theorem parseFile_raw {c : Codec F} (n : Nat) (s : FileState F) (t : ZoneText F) (ht : t.Ok (s.vars.drop 3))
    (hv : (s.vars.drop 3).Nodup) (r : RawZone) (hr : r.Reads c t) (more : List Str) :
    parseFile c (n + 1) s (r.lines s.vars.length t ++ more) =
      parseFile c n { s with blocks := s.blocks ++ [t.block (s.vars.drop 3)] } more := by
  rw [r.lines_append]
  have hb : '=' ∉ '"' :: t.name ++ "\"\n".toList := by have := ht.name.1; simp [this]
  have e : "ZONE T=\"".toList ++ t.name ++ "\"\n".toList = "ZONE T".toList ++ '=' :: ('"' :: t.name ++ "\"\n".toList) := by simp
  rw [parseFile, if_neg (by simp), if_neg, if_neg, if_pos, parseZone_raw _ t ht hv r hr, res_bind_ok]
  · rw [e, show "ZONE T".toList ++ '=' :: ('"' :: t.name ++ "\"\n".toList) = "ZONE T=".toList ++ ('"' :: t.name ++ "\"\n".toList)
      from by simp]
    exact Py.contains_prefix _ _
  · rw [e, show "VARIABLES=".toList = "VARIABLES".toList ++ ['='] from by decide,
      Py.not_contains_eq (by decide) hb (by decide) (by decide)]
    simp
  · rw [e, show "TITLE=".toList = "TITLE".toList ++ ['='] from by decide,
      Py.not_contains_eq (by decide) hb (by decide) (by decide)]
    simp

theorem parseFile_raws {c : Codec F} (zs : List (RawZone × ZoneText F)) (s : FileState F)
    (ht : ∀ z ∈ zs, z.2.Ok (s.vars.drop 3) ∧ z.1.Reads c z.2) (hv : (s.vars.drop 3).Nodup) (n : Nat) (hn : zs.length ≤ n) :
    parseFile c n s (zs.flatMap (fun z => z.1.lines s.vars.length z.2)) =
      .ok { s with blocks := s.blocks ++ zs.map (fun z => z.2.block (s.vars.drop 3)) } := by
  induction zs generalizing n s with
  | nil => cases n <;> simp [parseFile]
  | cons z zs ih =>
    cases n with
    | zero => simp at hn
    | succ n =>
      rw [List.flatMap_cons, parseFile_raw n s z.2 (ht z (by simp)).1 hv z.1 (ht z (by simp)).2]
      have := ih { s with blocks := s.blocks ++ [z.2.block (s.vars.drop 3)] } (fun x hx => ht x (by simp [hx])) hv n
        (by simpa using hn)
      simp only at this
      rw [this]
      simp

theorem raws_length (vc : Nat) (zs : List (RawZone × ZoneText F)) :
    zs.length ≤ (zs.flatMap (fun z => z.1.lines vc z.2)).length := by
  induction zs with
  | nil => simp
  | cons z zs ih =>
    have : 1 ≤ (z.1.lines vc z.2).length := by simp [RawZone.lines]
    simp only [List.flatMap_cons, List.length_append, List.length_cons] at *
    omega

theorem raw_isLine (vc : Nat) (t : ZoneText F) (r : RawZone) (hn : PlainName t.name)
    (h : Py.IsLine r.lx ∧ Py.IsLine r.ly ∧ Py.IsLine r.lz ∧ (∀ l ∈ r.rows, Py.IsLine l) ∧ ∀ l ∈ r.conns, Py.IsLine l) :
    ∀ l ∈ r.lines vc t, Py.IsLine l := by
  intro l hl
  obtain ⟨-, hn1, hn2⟩ := hn
  obtain ⟨hx, hy, hz, hr, hc⟩ := h
  have hs : ∀ n, _ := fun n => Py.natStr_facts n
  simp only [RawZone.lines, RawZone.tail, List.mem_append, List.mem_cons, List.not_mem_nil, or_false] at hl
  rcases hl with rfl | rfl | rfl | rfl | rfl | rfl | rfl | rfl | rfl | hl | hl
  · exact ⟨"ZONE T=\"".toList ++ t.name ++ "\"".toList, by simp, by simp [hn1], by simp [hn2]⟩
  · exact ⟨"NODES=".toList ++ Py.natStr t.pts.length, by simp, by simp [(hs t.pts.length).2.1], by simp [(hs t.pts.length).2.2.1]⟩
  · exact ⟨"ELEMENTS=".toList ++ Py.natStr t.conns.length, by simp, by simp [(hs t.conns.length).2.1], by
      simp [(hs t.conns.length).2.2.1]⟩
  · exact isLine_mk (b := "DATAPACKING=BLOCK".toList) (by decide) (by decide)
  · exact isLine_mk (b := "ZONETYPE=FETRIANGLE".toList) (by decide) (by decide)
  · exact ⟨"VARLOCATION=([4-".toList ++ Py.natStr vc ++ "]=CELLCENTERED)".toList, by simp, by simp [(hs vc).2.1], by
      simp [(hs vc).2.2.1]⟩
  · exact hx
  · exact hy
  · exact hz
  · exact hr l hl
  · exact hc l hl

/-! ### Lines of words -/

theorem splitWs_sep {ts : List Str} (hn : ∀ t ∈ ts, t ≠ []) (hw : ∀ t ∈ ts, ∀ ch ∈ t, Py.isWs ch = false) :
    Py.splitWs ((ts.map (· ++ [' '])).flatten ++ ['\n']) = ts := by
  unfold Py.splitWs
  induction ts with
  | nil => decide
  | cons t ts ih =>
    rw [List.map_cons, List.flatten_cons, List.append_assoc, List.append_assoc, Py.splitWsAux_word (hw t (by simp))]
    rw [show ∀ s : Str, [' '] ++ s = ' ' :: s from fun _ => rfl, Py.splitWsAux, if_pos (by decide), if_neg (by
      simpa using hn t (by simp)), ih (fun x hx => hn x (by simp [hx])) (fun x hx => hw x (by simp [hx]))]
    rfl

/-- A word: not empty, no white space. -/
def IsWord (s : Str) : Prop := s ≠ [] ∧ ∀ ch ∈ s, Py.isWs ch = false

theorem splitWsAux_words (s acc : Str) (ha : ∀ ch ∈ acc, Py.isWs ch = false) : ∀ t ∈ Py.splitWsAux s acc, IsWord t := by
  induction s generalizing acc with
  | nil =>
    intro t ht
    unfold Py.splitWsAux at ht
    split at ht
    · simp at ht
    · simp at ht; subst ht; exact ⟨by assumption, ha⟩
  | cons c s ih =>
    intro t ht
    unfold Py.splitWsAux at ht
    split at ht
    · split at ht
      · exact ih [] (by simp) t ht
      · rcases List.mem_cons.mp ht with rfl | ht
        · exact ⟨by assumption, ha⟩
        · exact ih [] (by simp) t ht
    · rename_i hws
      refine ih _ ?_ t ht
      intro ch hc
      rcases List.mem_append.mp hc with hc | hc
      · exact ha ch hc
      · simp at hc; subst hc; simpa using hws

theorem splitWs_words (s : Str) : ∀ t ∈ Py.splitWs s, IsWord t := splitWsAux_words s [] (by simp)

theorem wordLine_split {ts : List Str} (h : ∀ t ∈ ts, IsWord t) : Py.splitWs (Lazurit.wordLine ts) = ts :=
  Py.splitWs_join (fun t ht => (h t ht).1) (fun t ht => (h t ht).2) (by decide)

theorem noWs_line {b : Str} (h : ∀ ch ∈ b, ch = ' ' ∨ Py.isWs ch = false) : Py.IsLine (b ++ ['\n']) := by
  refine isLine_mk ?_ ?_ <;>
  · intro hh
    rcases h _ hh with e | e <;> revert e <;> decide

theorem wordLine_isLine {ts : List Str} (h : ∀ t ∈ ts, IsWord t) : Py.IsLine (Lazurit.wordLine ts) := by
  apply noWs_line
  intro ch hc
  rcases Py.mem_join hc with hc | ⟨t, ht, hc⟩
  · left; simpa using hc
  · exact .inr ((h t ht).2 ch hc)

theorem parseFloats_of {c : Codec F} {l : Str} {ws : List Str} {vs : List F} (hw : Py.splitWs l = ws) (h : ReadsAs c ws vs) :
    parseFloats c l = .ok vs := by
  unfold parseFloats
  rw [hw]
  exact mapM_of_forall₂ h

/-! ### `Export` -/

/-- The numbers of a zone as they are read back. -/
def exportText (rd : F → F) (z : Ansys.CZone F) : ZoneText F :=
  { name := z.title
    pts := z.nodes.map (fun n => ⟨rd n.p.x, rd n.p.y, rd n.p.z⟩)
    rows := [z.faces.map (fun f => rd f.htc), z.faces.map (fun f => rd f.beta), z.faces.map (fun f => rd f.tau.x),
      z.faces.map (fun f => rd f.tau.y), z.faces.map (fun f => rd f.tau.z), z.faces.map (fun f => rd f.rf)]
    conns := z.faces.map (fun f => [(f.n1 + 1 : Int), (f.n2 + 1 : Int), (f.n3 + 1 : Int)]) }

def exportRaw (fmt : F → Str) (z : Ansys.CZone F) : RawZone :=
  { lx := Ansys.exportFloats fmt (z.nodes.map (·.p.x))
    ly := Ansys.exportFloats fmt (z.nodes.map (·.p.y))
    lz := Ansys.exportFloats fmt (z.nodes.map (·.p.z))
    rows := [Ansys.exportFloats fmt (z.faces.map (·.htc)), Ansys.exportFloats fmt (z.faces.map (·.beta)),
      Ansys.exportFloats fmt (z.faces.map (·.tau.x)), Ansys.exportFloats fmt (z.faces.map (·.tau.y)),
      Ansys.exportFloats fmt (z.faces.map (·.tau.z)), Ansys.exportFloats fmt (z.faces.map (·.rf))]
    conns := z.faces.map (fun f => connLine [(f.n1 + 1 : Int), (f.n2 + 1 : Int), (f.n3 + 1 : Int)]) }

theorem exportZone_lines (fmt : F → Str) (rd : F → F) (z : Ansys.CZone F) :
    Ansys.exportZone fmt z = (exportRaw fmt z).lines 9 (exportText rd z) := by
  unfold Ansys.exportZone RawZone.lines RawZone.tail exportRaw exportText
  have h : ∀ f : Ansys.CFace F, Py.natStr (f.n1 + 1) ++ [' '] ++ Py.natStr (f.n2 + 1) ++ [' '] ++ Py.natStr (f.n3 + 1) ++ ['\n'] =
      connLine [(f.n1 + 1 : Int), (f.n2 + 1 : Int), (f.n3 + 1 : Int)] := by
    intro f
    have : ∀ n : Nat, Py.intStr (n + 1 : Int) = Py.natStr (n + 1) := fun _ => rfl
    simp [connLine, Py.join, this]
  simp only [h]
  simp [show Py.natStr 9 = ['9'] from by decide]

theorem exportFloats_split {fmt : F → Str} (hw : ∀ x, IsWord (fmt x)) (l : List F) :
    Py.splitWs (Ansys.exportFloats fmt l) = l.map fmt := by
  unfold Ansys.exportFloats
  have := splitWs_sep (ts := l.map fmt) (by simpa using fun x _ => (hw x).1) (by simpa using fun x _ => (hw x).2)
  simpa [Function.comp_def] using this

theorem exportFloats_isLine {fmt : F → Str} (hw : ∀ x, IsWord (fmt x)) (l : List F) : Py.IsLine (Ansys.exportFloats fmt l) := by
  apply noWs_line
  intro ch hc
  simp only [List.mem_flatten, List.mem_map] at hc
  obtain ⟨_, ⟨x, -, rfl⟩, hc⟩ := hc
  rcases List.mem_append.mp hc with hc | hc
  · exact .inr ((hw x).2 ch hc)
  · left; simpa using hc

theorem parse_exportFloats {c : Codec F} {fmt : F → Str} {rd : F → F} (hw : ∀ x, IsWord (fmt x)) (hr : ∀ x, c.parse (fmt x) = .ok (rd x))
    (l : List F) : parseFloats c (Ansys.exportFloats fmt l) = .ok (l.map rd) := by
  refine parseFloats_of (exportFloats_split hw l) ?_
  unfold ReadsAs
  rw [List.forall₂_map_left_iff, List.forall₂_map_right_iff]
  exact List.forall₂_same.mpr (fun x _ => hr x)

theorem export_reads {c : Codec F} {fmt : F → Str} {rd : F → F} (hw : ∀ x, IsWord (fmt x)) (hr : ∀ x, c.parse (fmt x) = .ok (rd x))
    (z : Ansys.CZone F) : (exportRaw fmt z).Reads c (exportText rd z) := by
  have h := parse_exportFloats hw hr
  refine ⟨?_, ?_, ?_, ?_, ?_⟩
  · exact (h _).trans (by simp [exportText, Function.comp_def])
  · exact (h _).trans (by simp [exportText, Function.comp_def])
  · exact (h _).trans (by simp [exportText, Function.comp_def])
  · unfold exportRaw exportText
    refine .cons ?_ (.cons ?_ (.cons ?_ (.cons ?_ (.cons ?_ (.cons ?_ .nil))))) <;> rw [h] <;> simp [Function.comp_def]
  · unfold exportRaw exportText
    rw [List.forall₂_map_left_iff, List.forall₂_map_right_iff]
    exact List.forall₂_same.mpr (fun f _ => parseInts_line _)

theorem export_ok (rd : F → F) {z : Ansys.CZone F} (hn : PlainName z.title) : (exportText rd z).Ok ansysVars := by
  refine ⟨hn, rfl, ?_⟩
  intro r hr
  simp only [exportText, List.mem_cons, List.not_mem_nil, or_false] at hr
  rcases hr with rfl | rfl | rfl | rfl | rfl | rfl <;> simp [exportText]

theorem export_block (rd : F → F) (z : Ansys.CZone F) : (exportText rd z).block ansysVars = ansysBlock rd z := by
  unfold ZoneText.block ansysBlock
  congr 1
  apply List.ext_getElem
  · simp [exportText]
  · intro i h1 h2
    have hi : i < z.faces.length := by simpa using h2
    simp [ZoneText.data, exportText, hi]

theorem vars_head : ("VARIABLES=\"X\", \"Y\", \"Z\", \"HTC\", \"Beta\", \"TauX\", \"TauY\", \"TauZ\", \"RecoveryFactor\"\n".toList : Str) =
    "VARIABLES=".toList ++ Py.join ", ".toList ((xyz ++ ansysVars).map (fun v => ['"'] ++ v ++ ['"'])) ++ ['\n'] := by decide +kernel

theorem ansysVars_plain : ∀ v ∈ xyz ++ ansysVars, PlainVar v := by
  have : ∀ v ∈ xyz ++ ansysVars, (v ≠ [] ∧ (∀ c ∈ v, Py.isWs c = false) ∧ '=' ∉ v ∧ '"' ∉ v ∧ ',' ∉ v) := by decide +kernel
  exact this

/-- The grid reader on an exported file. -/
theorem loadText_export [DecidableEq R] (rc : Vec F → R) {c : Codec F} {fmt : F → Str} {rd : F → F} (hw : ∀ x, IsWord (fmt x))
    (hr : ∀ x, c.parse (fmt x) = .ok (rd x)) (merge : Bool) (g : Grid F R) (zs : List (Ansys.CZone F)) (hn : ∀ z ∈ zs, PlainName z.title) :
    Grid.loadText rc c merge g (Ansys.exportText fmt zs) = Grid.loadBlocks rc merge g (zs.map (ansysBlock rd)) := by
  obtain ⟨vl, hvl⟩ : ∃ vl : Str, vl = "VARIABLES=\"X\", \"Y\", \"Z\", \"HTC\", \"Beta\", \"TauX\", \"TauY\", \"TauZ\", \"RecoveryFactor\"\n".toList := ⟨_, rfl⟩
  have hlines : vl :: zs.flatMap (Ansys.exportZone fmt) =
      vl :: (zs.map (fun z => (exportRaw fmt z, exportText rd z))).flatMap (fun p => p.1.lines 9 p.2) := by
    rw [List.flatMap_map]
    congr 1
    exact List.flatMap_congr (fun z _ => exportZone_lines fmt rd z)
  have hread : Py.readlines (Ansys.exportText fmt zs) = vl :: zs.flatMap (Ansys.exportZone fmt) := by
    unfold Ansys.exportText
    rw [← hvl]
    apply Py.readlines_flatten
    intro l hl
    rcases List.mem_cons.mp hl with rfl | hl
    · rw [hvl]
      exact ⟨"VARIABLES=\"X\", \"Y\", \"Z\", \"HTC\", \"Beta\", \"TauX\", \"TauY\", \"TauZ\", \"RecoveryFactor\"".toList, by decide +kernel,
        by decide +kernel, by decide +kernel⟩
    · obtain ⟨z, hz, hl⟩ := List.mem_flatMap.mp hl
      rw [exportZone_lines fmt rd] at hl
      refine raw_isLine 9 (exportText rd z) (exportRaw fmt z) (hn z hz) ?_ l hl
      refine ⟨exportFloats_isLine hw _, exportFloats_isLine hw _, exportFloats_isLine hw _, ?_, ?_⟩
      · intro l hl
        simp only [exportRaw, List.mem_cons, List.not_mem_nil, or_false] at hl
        rcases hl with rfl | rfl | rfl | rfl | rfl | rfl <;> exact exportFloats_isLine hw _
      · intro l hl
        obtain ⟨f, -, rfl⟩ := List.mem_map.mp hl
        exact connLine_isLine _
  unfold Grid.loadText
  rw [hread]
  simp only
  rw [hlines]
  have hlen : (vl :: (zs.map (fun z => (exportRaw fmt z, exportText rd z))).flatMap (fun p => p.1.lines 9 p.2)).length =
      ((zs.map (fun z => (exportRaw fmt z, exportText rd z))).flatMap (fun p => p.1.lines 9 p.2)).length + 1 := rfl
  rw [hlen, hvl, vars_head, parseFile_vars c _ _ ansysVars_plain]
  have := parseFile_raws (c := c) (zs.map (fun z => (exportRaw fmt z, exportText rd z))) ⟨g.name, xyz ++ ansysVars, []⟩ (by
      intro p hp
      obtain ⟨z, hz, rfl⟩ := List.mem_map.mp hp
      exact ⟨by simpa [xyz] using export_ok rd (hn z hz), export_reads hw hr z⟩)
    (by simp only [xyz]; decide +kernel) _ (raws_length 9 _)
  simp only [show (xyz ++ ansysVars).length = 9 from rfl] at this
  rw [this, res_bind_ok]
  congr 1
  rw [List.nil_append, List.map_map]
  apply List.map_congr_left
  intro z _
  exact export_block rd z

end Verif
