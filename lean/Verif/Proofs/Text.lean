import Verif.Spec.Text
import Verif.Proofs.Strings
import Verif.Proofs.Mpi

/-! The parser reads back the lines that were written. -/

namespace Verif
variable {F R : Type}
open Grid

theorem readlines_append (a b : List Str) : Grid.readlines a.length (a ++ b) = (a, b) := by
  induction a with
  | nil => rfl
  | cons x a ih => simp [Grid.readlines, readline, ih]

theorem readlines_append' {n : Nat} (a b : List Str) (h : a.length = n) : Grid.readlines n (a ++ b) = (a, b) := by
  rw [← h, readlines_append]

theorem mapM_eq_ok {α β : Type} {f : α → Res β} {h : α → β} {l : List α} (H : ∀ a ∈ l, f a = .ok (h a)) :
    l.mapM f = .ok (l.map h) := by
  induction l with
  | nil => rfl
  | cons a l ih =>
    rw [List.mapM_cons, H a (by simp), ih (fun x hx => H x (by simp [hx]))]
    rfl

theorem parseFloats_line {c : Codec F} (hc : c.Lawful) (l : List F) : parseFloats c (floatLine c l) = .ok l := by
  unfold parseFloats floatLine
  rw [Py.splitWs_join]
  · rw [List.mapM_map]
    have := mapM_eq_ok (f := fun x => c.parse (c.fmt x)) (h := id) (l := l) (fun a _ => hc.roundtrip a)
    simpa [Function.comp_def] using this
  · intro t ht
    obtain ⟨x, -, rfl⟩ := List.mem_map.mp ht
    exact hc.nonempty x
  · intro t ht
    obtain ⟨x, -, rfl⟩ := List.mem_map.mp ht
    exact hc.word x
  · decide

theorem parseInts_line (l : List Int) : parseInts (connLine l) = .ok l := by
  unfold parseInts connLine
  rw [Py.splitWs_join]
  · rw [List.mapM_map]
    have := mapM_eq_ok (f := fun x => Py.int (Py.intStr x)) (h := id) (l := l) (fun a _ => Py.int_intStr a)
    simpa [Function.comp_def] using this
  · intro t ht
    obtain ⟨x, -, rfl⟩ := List.mem_map.mp ht
    exact (Py.intStr_facts x).1
  · intro t ht
    obtain ⟨x, -, rfl⟩ := List.mem_map.mp ht
    exact (Py.intStr_facts x).2
  · decide

theorem lastField_one {a b : Str} (ha : '=' ∉ a) (hb : '=' ∉ b) : lastField (a ++ '=' :: b) = .ok b := by
  unfold lastField
  rw [Py.splitCh_one ha hb]
  exact Py.get_last [a] b

theorem countOf_line {a : Str} (ha : '=' ∉ a) (n : Nat) : countOf (a ++ '=' :: (Py.natStr n ++ ['\n'])) = .ok (n : Int) := by
  unfold countOf
  rw [lastField_one ha (by simp [(Py.natStr_facts n).2.2.2])]
  show Py.int (Py.slice (Py.natStr n ++ ['\n']) none (some (-((1 : Nat) : Int)))) = _
  rw [Py.slice_to_neg _ _ 1 (by omega) rfl, Py.int_natStr]

/-- The numbers of a zone as they are in the file. -/
structure ZoneText (F : Type) where
  name : Str
  pts : List (Vec F)
  rows : List (List F)
  conns : List (List Int)

/-- The data of face number `i`. -/
def ZoneText.data (fvars : List Str) (t : ZoneText F) (i : Nat) : List (Str × F) :=
  fvars.zip (t.rows.filterMap (fun r => r[i]?))

/-- The block read from the numbers. -/
def ZoneText.block (fvars : List Str) (t : ZoneText F) : ZoneBlock F :=
  { name := t.name, pts := t.pts, faces := ((List.range t.conns.length).map (t.data fvars)).zip t.conns }

/-- Its lines. -/
def ZoneText.lines (c : Codec F) (vc : Nat) (t : ZoneText F) : List Str := zoneLines c vc t.name t.pts t.rows t.conns

structure ZoneText.Ok (fvars : List Str) (t : ZoneText F) : Prop where
  name : PlainName t.name
  rows : t.rows.length = fvars.length
  row : ∀ r ∈ t.rows, r.length = t.conns.length

theorem get_nat {α : Type} {l : List α} {i : Nat} (h : i < l.length) : Py.get l (i : Int) = .ok l[i] := by
  rw [get_ofNat, List.getElem?_eq_getElem h]

theorem mapM_get {α : Type} (rows : List (List α)) (i : Nat) (h : ∀ r ∈ rows, i < r.length) :
    rows.mapM (fun r => Py.get r (i : Int)) = .ok (rows.filterMap (fun r => r[i]?)) := by
  induction rows with
  | nil => rfl
  | cons r rows ih =>
    have hr := h r (by simp)
    rw [List.mapM_cons, get_nat hr, ih (fun x hx => h x (by simp [hx]))]
    simp [hr]

theorem checkHead_ok (vc nn nf : Nat) : checkHead vc ("NODES=".toList ++ (Py.natStr nn ++ ['\n']))
    ("ELEMENTS=".toList ++ (Py.natStr nf ++ ['\n'])) "DATAPACKING=BLOCK\n".toList "ZONETYPE=FETRIANGLE\n".toList
    ("VARLOCATION=([4-".toList ++ Py.natStr vc ++ "]=CELLCENTERED)\n".toList) = .ok () := by
  unfold checkHead
  rw [if_neg (by rw [Py.contains_prefix]; simp), if_neg (by rw [Py.contains_prefix]; simp), if_neg (by decide),
    if_neg (by decide), if_neg]
  rw [not_not]
  have := Py.slice_to_neg ("VARLOCATION=([4-".toList ++ Py.natStr vc ++ "]=CELLCENTERED)".toList) ['\n'] 1 (by omega) rfl
  rw [show "VARLOCATION=([4-".toList ++ Py.natStr vc ++ "]=CELLCENTERED)\n".toList =
    "VARLOCATION=([4-".toList ++ Py.natStr vc ++ "]=CELLCENTERED)".toList ++ ['\n'] from by simp]
  exact this

theorem points_ok (pts : List (Vec F)) :
    (List.range pts.length).mapM (pointAt (pts.map Vec.x) (pts.map Vec.y) (pts.map Vec.z)) = .ok pts := by
  have h : ∀ i : Fin pts.length, pointAt (pts.map Vec.x) (pts.map Vec.y) (pts.map Vec.z) (i : Nat) = .ok pts[i] := by
    intro i
    have hi : ∀ f : Vec F → F, (i : Nat) < (pts.map f).length := by simp
    unfold pointAt
    rw [get_nat (hi _), res_bind_ok, get_nat (hi _), res_bind_ok, get_nat (hi _), res_bind_ok]
    simp
  rw [show List.range pts.length = (List.finRange pts.length).map Fin.val from by simp, List.mapM_map,
    mapM_eq_ok (f := pointAt (pts.map Vec.x) (pts.map Vec.y) (pts.map Vec.z) ∘ Fin.val) (h := fun i : Fin pts.length => pts[i]) (fun i _ => h i)]
  simp

theorem datas_ok (fvars : List Str) (hv : fvars.Nodup) (t : ZoneText F) (ht : t.Ok fvars) :
    (List.range t.conns.length).mapM (dataAt fvars t.rows) = .ok ((List.range t.conns.length).map (t.data fvars)) := by
  apply mapM_eq_ok
  intro i hi
  have hi := List.mem_range.mp hi
  unfold dataAt
  rw [mapM_get _ _ (fun r hr => by rw [ht.row r hr]; exact hi), res_bind_ok, Py.dictOf_nodup]
  · rfl
  · rw [List.map_fst_zip]
    · exact hv
    · have : ∀ rs : List (List F), (∀ r ∈ rs, i < r.length) → (rs.filterMap (fun r => r[i]?)).length = rs.length := by
        intro rs
        induction rs with
        | nil => simp
        | cons r rs ih =>
          intro h
          have hr := h r (by simp)
          simp [hr, ih (fun x hx => h x (by simp [hx]))]
      rw [this _ (fun r hr => by rw [ht.row r hr]; exact hi), ht.rows]

/-- The lines after the first one. -/
def ZoneText.tail (c : Codec F) (vc : Nat) (t : ZoneText F) (more : List Str) : List Str :=
  ("NODES=".toList ++ (Py.natStr t.pts.length ++ ['\n'])) :: ("ELEMENTS=".toList ++ (Py.natStr t.conns.length ++ ['\n'])) ::
  "DATAPACKING=BLOCK\n".toList :: "ZONETYPE=FETRIANGLE\n".toList ::
  ("VARLOCATION=([4-".toList ++ Py.natStr vc ++ "]=CELLCENTERED)\n".toList) ::
  floatLine c (t.pts.map Vec.x) :: floatLine c (t.pts.map Vec.y) :: floatLine c (t.pts.map Vec.z) ::
  (t.rows.map (floatLine c) ++ (t.conns.map connLine ++ more))

theorem ZoneText.lines_eq (c : Codec F) (vc : Nat) (t : ZoneText F) (more : List Str) :
    t.lines c vc ++ more = ("ZONE T=\"".toList ++ t.name ++ "\"\n".toList) :: t.tail c vc more := by
  simp [ZoneText.lines, zoneLines, ZoneText.tail]

theorem parseZone_ok {c : Codec F} (hc : c.Lawful) (vars : List Str) (t : ZoneText F) (ht : t.Ok (vars.drop 3))
    (hv : (vars.drop 3).Nodup) (more : List Str) :
    parseZone c vars ("ZONE T=\"".toList ++ t.name ++ "\"\n".toList) (t.tail c vars.length more) =
      .ok (t.block (vars.drop 3), more) := by
  have hz : lastField ("ZONE T=\"".toList ++ t.name ++ "\"\n".toList) = .ok ('"' :: t.name ++ "\"\n".toList) := by
    refine (lastField_one (a := "ZONE T".toList) (b := '"' :: t.name ++ "\"\n".toList) (by decide) ?_)
    have := ht.name.1
    simp [this]
  have hn : countOf ("NODES=".toList ++ (Py.natStr t.pts.length ++ ['\n'])) = _ :=
    countOf_line (a := "NODES".toList) (by decide) t.pts.length
  have hf : countOf ("ELEMENTS=".toList ++ (Py.natStr t.conns.length ++ ['\n'])) = _ :=
    countOf_line (a := "ELEMENTS".toList) (by decide) t.conns.length
  have hp : ∀ L : List (List F), (L.map (floatLine c)).mapM (parseFloats c) = .ok L := by
    intro L
    rw [List.mapM_map]
    have := mapM_eq_ok (f := fun x => parseFloats c (floatLine c x)) (h := id) (l := L) (fun a _ => parseFloats_line hc a)
    simpa [Function.comp_def] using this
  have hq : (t.conns.map connLine).mapM parseInts = .ok t.conns := by
    rw [List.mapM_map]
    have := mapM_eq_ok (f := fun x => parseInts (connLine x)) (h := id) (l := t.conns) (fun a _ => parseInts_line a)
    simpa [Function.comp_def] using this
  unfold parseZone
  rw [hz, res_bind_ok]
  unfold ZoneText.tail
  simp only [show ∀ (a b c d e : Str) l, Grid.readlines 5 (a :: b :: c :: d :: e :: l) = ([a, b, c, d, e], l) from
    fun _ _ _ _ _ _ => rfl]
  rw [checkHead_ok, res_bind_ok, hn, res_bind_ok, hf, res_bind_ok]
  simp only [show ∀ (a b c : Str) l, Grid.readlines 3 (a :: b :: c :: l) = ([a, b, c], l) from fun _ _ _ _ => rfl]
  have h3 := hp [t.pts.map Vec.x, t.pts.map Vec.y, t.pts.map Vec.z]
  simp only [List.map_cons, List.map_nil] at h3
  rw [h3, res_bind_ok]
  simp only [Int.toNat_natCast]
  rw [points_ok, res_bind_ok, readlines_append' _ _ (by rw [List.length_map, ht.rows])]
  simp only
  rw [hp, res_bind_ok, datas_ok _ hv t ht, res_bind_ok,
    readlines_append' _ _ (by rw [List.length_map])]
  simp only
  rw [hq, res_bind_ok]
  rw [show Py.slice ('"' :: t.name ++ "\"\n".toList) (some 1) (some (-2)) = t.name from
    Py.slice_one_neg '"' t.name _ 2 (by omega) rfl]
  rfl

/-! ### The whole file -/

/-- The first three variables. -/
def xyz : List Str := ["X".toList, "Y".toList, "Z".toList]

theorem xyz_plain : ∀ v ∈ xyz, PlainVar v := by
  intro v hv
  simp only [xyz, List.mem_cons, List.not_mem_nil, or_false] at hv
  rcases hv with rfl | rfl | rfl <;> exact ⟨by decide, by decide, by decide, by decide, by decide⟩

theorem varsOf_ok (vars : List Str) (hv : ∀ v ∈ vars, PlainVar v) :
    varsOf ("VARIABLES=".toList ++ Py.join ", ".toList (vars.map (fun v => ['"'] ++ v ++ ['"'])) ++ ['\n']) = .ok vars := by
  obtain ⟨J, hJ⟩ : ∃ J, J = Py.join ", ".toList (vars.map (fun v => ['"'] ++ v ++ ['"'])) := ⟨_, rfl⟩
  have hJe : '=' ∉ J := by
    intro h
    rw [hJ] at h
    rcases Py.mem_join h with h | ⟨t, ht, h⟩
    · revert h; decide
    · obtain ⟨v, hm, rfl⟩ := List.mem_map.mp ht
      have := (hv v hm).2.2.1
      simp [this] at h
  unfold varsOf
  rw [← hJ, show "VARIABLES=".toList ++ J ++ ['\n'] = "VARIABLES".toList ++ '=' :: (J ++ ['\n']) from by simp,
    lastField_one (by decide) (by simp [hJe]), res_bind_ok]
  rw [show Py.slice (J ++ ['\n']) none (some (-1)) = J from Py.slice_to_neg J ['\n'] 1 (by omega) rfl, hJ,
    Py.delCh_join, Py.delCh_join]
  have h1 : Py.delCh ',' (Py.delCh '"' ", ".toList) = [' '] := by decide
  rw [h1, List.map_map, List.map_map]
  have h2 : (vars.map (Py.delCh ',' ∘ Py.delCh '"' ∘ fun v => ['"'] ++ v ++ ['"'])) = vars := by
    conv_rhs => rw [← List.map_id vars]
    apply List.map_congr_left
    intro v hm
    obtain ⟨-, -, -, hq, hc⟩ := hv v hm
    have hq' : Py.delCh '"' ['"'] = [] := by decide
    simp only [Function.comp, Py.delCh_append, Py.delCh_id hq, Py.delCh_id hc, hq', List.nil_append, List.append_nil, id]
  rw [Function.comp_assoc, h2]
  have := Py.splitWs_join (ts := vars) (fun t ht => (hv t ht).1) (fun t ht => (hv t ht).2.1) (w := []) (by simp)
  rw [List.append_nil] at this
  rw [this]
  rfl

theorem parseFile_title (c : Codec F) (n : Nat) (s : FileState F) {name : Str} (hn : PlainName name) (ls : List Str) :
    parseFile c (n + 1) s (("TITLE=\"".toList ++ name ++ "\"\n".toList) :: ls) = parseFile c n { s with name := name } ls := by
  rw [parseFile, if_neg (by simp)]
  have hc : Py.contains "TITLE=".toList ("TITLE=\"".toList ++ name ++ "\"\n".toList) = true :=
    Py.contains_prefix "TITLE=".toList ('"' :: name ++ "\"\n".toList)
  rw [if_pos hc]
  rw [show "TITLE=\"".toList ++ name ++ "\"\n".toList = "TITLE".toList ++ '=' :: ('"' :: name ++ "\"\n".toList) from by simp,
    Py.splitCh_one (by decide) (by have := hn.1; simp [this])]
  show (Except.ok ('"' :: name ++ "\"\n".toList) >>= _) = _
  rw [res_bind_ok, show Py.slice ('"' :: name ++ "\"\n".toList) (some 1) (some (-2)) = name from
    Py.slice_one_neg '"' name _ 2 (by omega) rfl]

theorem parseFile_vars (c : Codec F) (n : Nat) (s : FileState F) {vars : List Str} (hv : ∀ v ∈ vars, PlainVar v) (ls : List Str) :
    parseFile c (n + 1) s (("VARIABLES=".toList ++ Py.join ", ".toList (vars.map (fun v => ['"'] ++ v ++ ['"'])) ++ ['\n']) :: ls)
      = parseFile c n { s with vars := vars } ls := by
  have h := varsOf_ok vars hv
  obtain ⟨J, hJ⟩ : ∃ J, J = Py.join ", ".toList (vars.map (fun v => ['"'] ++ v ++ ['"'])) := ⟨_, rfl⟩
  have hJe : '=' ∉ J ++ ['\n'] := by
    intro h
    rw [hJ] at h
    rcases List.mem_append.mp h with h | h
    · rcases Py.mem_join h with h | ⟨t, ht, h⟩
      · revert h; decide
      · obtain ⟨v, hm, rfl⟩ := List.mem_map.mp ht
        have := (hv v hm).2.2.1
        simp [this] at h
    · revert h; decide
  rw [← hJ] at h ⊢
  have e : "VARIABLES=".toList ++ J ++ ['\n'] = "VARIABLES".toList ++ '=' :: (J ++ ['\n']) := by simp
  rw [parseFile, if_neg (by simp), if_neg, if_pos, h, res_bind_ok]
  · rw [List.append_assoc]; exact Py.contains_prefix _ _
  · rw [e, show "TITLE=".toList = "TITLE".toList ++ ['='] from by decide,
      Py.not_contains_eq (by decide) hJe (by decide) (by decide)]
    simp

theorem parseFile_zone {c : Codec F} (hc : c.Lawful) (n : Nat) (s : FileState F) (t : ZoneText F) (ht : t.Ok (s.vars.drop 3))
    (hv : (s.vars.drop 3).Nodup) (more : List Str) :
    parseFile c (n + 1) s (t.lines c s.vars.length ++ more) =
      parseFile c n { s with blocks := s.blocks ++ [t.block (s.vars.drop 3)] } more := by
  rw [t.lines_eq]
  have hb : '=' ∉ '"' :: t.name ++ "\"\n".toList := by have := ht.name.1; simp [this]
  have e : "ZONE T=\"".toList ++ t.name ++ "\"\n".toList = "ZONE T".toList ++ '=' :: ('"' :: t.name ++ "\"\n".toList) := by simp
  rw [parseFile, if_neg (by simp), if_neg, if_neg, if_pos, parseZone_ok hc _ t ht hv, res_bind_ok]
  · rw [e, show "ZONE T".toList ++ '=' :: ('"' :: t.name ++ "\"\n".toList) = "ZONE T=".toList ++ ('"' :: t.name ++ "\"\n".toList)
      from by simp]
    exact Py.contains_prefix _ _
  · rw [e, show "VARIABLES=".toList = "VARIABLES".toList ++ ['='] from by decide,
      Py.not_contains_eq (by decide) hb (by decide) (by decide)]
    simp
  · rw [e, show "TITLE=".toList = "TITLE".toList ++ ['='] from by decide,
      Py.not_contains_eq (by decide) hb (by decide) (by decide)]
    simp

theorem parseFile_zones {c : Codec F} (hc : c.Lawful) (ts : List (ZoneText F)) (s : FileState F)
    (ht : ∀ t ∈ ts, t.Ok (s.vars.drop 3)) (hv : (s.vars.drop 3).Nodup) (n : Nat) (hn : ts.length ≤ n) :
    parseFile c n s (ts.flatMap (fun t => t.lines c s.vars.length)) =
      .ok { s with blocks := s.blocks ++ ts.map (fun t => t.block (s.vars.drop 3)) } := by
  induction ts generalizing n s with
  | nil => cases n <;> simp [parseFile]
  | cons t ts ih =>
    cases n with
    | zero => simp at hn
    | succ n =>
      rw [List.flatMap_cons, parseFile_zone hc n s t (ht t (by simp)) hv]
      have := ih { s with blocks := s.blocks ++ [t.block (s.vars.drop 3)] } (fun x hx => ht x (by simp [hx])) hv n
        (by simpa using hn)
      simp only at this
      rw [this]
      simp

theorem lines_length_pos (c : Codec F) (vc : Nat) (t : ZoneText F) : 1 ≤ (t.lines c vc).length := by
  simp [ZoneText.lines, zoneLines]

/-- The parser reads back the whole file. -/
theorem parseFile_ok {c : Codec F} (hc : c.Lawful) (nm0 name : Str) (hn : PlainName name) (fvars : List Str)
    (hf : ∀ v ∈ fvars, PlainVar v) (hv : fvars.Nodup) (ts : List (ZoneText F)) (ht : ∀ t ∈ ts, t.Ok fvars) :
    let ls := headLines name (xyz ++ fvars) ++ ts.flatMap (fun t => t.lines c (xyz ++ fvars).length)
    parseFile c ls.length ⟨nm0, [], []⟩ ls = .ok ⟨name, xyz ++ fvars, ts.map (fun t => t.block fvars)⟩ := by
  intro ls
  have hp : ∀ v ∈ xyz ++ fvars, PlainVar v := by
    intro v h
    rcases List.mem_append.mp h with h | h
    · exact xyz_plain v h
    · exact hf v h
  have hlen : ls.length = ((ts.flatMap (fun t => t.lines c (xyz ++ fvars).length)).length + 1 + 1) + 1 := by
    simp [ls, headLines]
  have hts : ts.length ≤ (ts.flatMap (fun t => t.lines c (xyz ++ fvars).length)).length := by
    clear hlen ls ht
    induction ts with
    | nil => simp
    | cons t ts ih =>
      have := lines_length_pos c (xyz ++ fvars).length t
      simp only [List.flatMap_cons, List.length_append, List.length_cons] at *
      omega
  rw [hlen]
  show parseFile c _ _ ("# crys-gsu\n".toList :: _ :: _ :: _) = _
  rw [parseFile, if_pos (by decide), parseFile_title c _ _ hn, parseFile_vars c _ _ hp]
  have := parseFile_zones hc ts ⟨name, xyz ++ fvars, []⟩ (by simpa [xyz] using ht) (by simpa [xyz] using hv) _ hts
  simpa [xyz] using this

theorem isLine_mk {b : Str} (h1 : '\n' ∉ b) (h2 : '\r' ∉ b) : Py.IsLine (b ++ ['\n']) := ⟨b, rfl, h1, h2⟩

theorem floatLine_isLine {c : Codec F} (hc : c.Lawful) (l : List F) : Py.IsLine (floatLine c l) := by
  have : ∀ ch ∈ Py.join [' '] (l.map c.fmt), ch = ' ' ∨ Py.isWs ch = false := by
    intro ch h
    rcases Py.mem_join h with h | ⟨t, ht, h⟩
    · left; simpa using h
    · obtain ⟨x, -, rfl⟩ := List.mem_map.mp ht
      exact .inr (hc.word x ch h)
  refine ⟨Py.join [' '] (l.map c.fmt) ++ [' '], by simp [floatLine], ?_, ?_⟩
  · intro h
    rcases List.mem_append.mp h with h | h
    · rcases this _ h with h | h <;> revert h <;> decide
    · revert h; decide
  · intro h
    rcases List.mem_append.mp h with h | h
    · rcases this _ h with h | h <;> revert h <;> decide
    · revert h; decide

theorem connLine_isLine (l : List Int) : Py.IsLine (connLine l) := by
  have : ∀ ch ∈ Py.join [' '] (l.map Py.intStr), ch = ' ' ∨ Py.isWs ch = false := by
    intro ch h
    rcases Py.mem_join h with h | ⟨t, ht, h⟩
    · left; simpa using h
    · obtain ⟨x, -, rfl⟩ := List.mem_map.mp ht
      exact .inr ((Py.intStr_facts x).2 ch h)
  refine isLine_mk ?_ ?_
  · intro h
    rcases this _ h with h | h <;> revert h <;> decide
  · intro h
    rcases this _ h with h | h <;> revert h <;> decide

theorem lines_isLine {c : Codec F} (hc : c.Lawful) (vc : Nat) (t : ZoneText F) (hn : PlainName t.name) :
    ∀ l ∈ t.lines c vc, Py.IsLine l := by
  intro l hl
  obtain ⟨-, hn1, hn2⟩ := hn
  have hs : ∀ n, _ := fun n => Py.natStr_facts n
  simp only [ZoneText.lines, zoneLines, List.mem_append, List.mem_cons, List.not_mem_nil, or_false, List.mem_map] at hl
  rcases hl with ((rfl | rfl | rfl | rfl | rfl | rfl | rfl | rfl | rfl) | ⟨r, -, rfl⟩) | ⟨r, -, rfl⟩
  · exact ⟨"ZONE T=\"".toList ++ t.name ++ "\"".toList, by simp, by simp [hn1], by simp [hn2]⟩
  · exact isLine_mk (by simp [(hs t.pts.length).2.1]) (by simp [(hs t.pts.length).2.2.1])
  · exact isLine_mk (by simp [(hs t.conns.length).2.1]) (by simp [(hs t.conns.length).2.2.1])
  · exact isLine_mk (b := "DATAPACKING=BLOCK".toList) (by decide) (by decide)
  · exact isLine_mk (b := "ZONETYPE=FETRIANGLE".toList) (by decide) (by decide)
  · exact ⟨"VARLOCATION=([4-".toList ++ Py.natStr vc ++ "]=CELLCENTERED)".toList, by simp, by simp [(hs vc).2.1], by
      simp [(hs vc).2.2.1]⟩
  · exact floatLine_isLine hc _
  · exact floatLine_isLine hc _
  · exact floatLine_isLine hc _
  · exact floatLine_isLine hc _
  · exact connLine_isLine _

theorem headLines_isLine (name : Str) (hn : PlainName name) (vars : List Str) (hv : ∀ v ∈ vars, PlainVar v) :
    ∀ l ∈ headLines name vars, Py.IsLine l := by
  intro l hl
  obtain ⟨-, hn1, hn2⟩ := hn
  simp only [headLines, List.mem_cons, List.not_mem_nil, or_false] at hl
  rcases hl with rfl | rfl | rfl
  · exact isLine_mk (b := "# crys-gsu".toList) (by decide) (by decide)
  · exact ⟨"TITLE=\"".toList ++ name ++ "\"".toList, by simp, by simp [hn1], by simp [hn2]⟩
  · have : ∀ ch ∈ Py.join ", ".toList (vars.map (fun v => ['"'] ++ v ++ ['"'])), ch = ' ' ∨ Py.isWs ch = false := by
      intro ch h
      rcases Py.mem_join h with h | ⟨t, ht, h⟩
      · exact (by decide : ∀ x ∈ ", ".toList, x = ' ' ∨ Py.isWs x = false) ch h
      · obtain ⟨v, hm, rfl⟩ := List.mem_map.mp ht
        right
        simp only [List.mem_append, List.mem_singleton] at h
        rcases h with (rfl | h) | rfl
        · decide
        · exact (hv v hm).2.1 ch h
        · decide
    refine isLine_mk ?_ ?_ <;>
    · intro h
      rcases List.mem_append.mp h with h | h
      · revert h; decide
      · rcases this _ h with h | h <;> revert h <;> decide

/-- Reading the text of a file. -/
theorem parse_render {c : Codec F} (hc : c.Lawful) (nm0 name : Str) (hn : PlainName name) (fvars : List Str)
    (hf : ∀ v ∈ fvars, PlainVar v) (hv : fvars.Nodup) (ts : List (ZoneText F)) (ht : ∀ t ∈ ts, t.Ok fvars) :
    let ls := Py.readlines (headLines name (xyz ++ fvars) ++ ts.flatMap (fun t => t.lines c (xyz ++ fvars).length)).flatten
    parseFile c ls.length ⟨nm0, [], []⟩ ls = .ok ⟨name, xyz ++ fvars, ts.map (fun t => t.block fvars)⟩ := by
  rw [Py.readlines_flatten]
  · exact parseFile_ok hc nm0 name hn fvars hf hv ts ht
  · intro l hl
    rcases List.mem_append.mp hl with hl | hl
    · refine headLines_isLine name hn _ ?_ l hl
      intro v h
      rcases List.mem_append.mp h with h | h
      · exact xyz_plain v h
      · exact hf v h
    · obtain ⟨t, htm, hl⟩ := List.mem_flatMap.mp hl
      exact lines_isLine hc _ t (ht t htm).name l hl

end Verif
