import Verif.Spec.Import
import Verif.Proofs.Import
import Verif.Proofs.DropsFile
import Verif.Props.Text
import Verif.Props.Convert
import Verif.Props.DropsFile

/-! Property C85: the grid reader of the converters. -/

namespace Verif.Props
open Verif Grid Ansys
variable {F R : Type}

section
variable [Field F]

theorem zone_keyword {p name : Str} (hp : '"' ∉ p) (h1 : ¬ p <:+: "ZONE T=".toList) (h2 : ¬ p <:+: ['\n']) (hn : ¬ p <:+: name) :
    Py.contains p ("ZONE T=\"".toList ++ name ++ "\"\n".toList) = false := by
  apply contains_false.2
  intro h
  have e : "ZONE T=\"".toList ++ name ++ "\"\n".toList = "ZONE T=".toList ++ '"' :: (name ++ '"' :: ['\n']) := by simp
  rw [e] at h
  rcases infix_cut hp h with h | h
  · exact h1 h
  · rcases infix_cut hp h with h | h
    · exact hn h
    · exact h2 h

theorem importLoop_zone {c : Codec F} (n : Nat) (zs : List (CZone F)) {name : Str} (hn : NoKeyword name) (ls : List Str) :
    importLoop c (n + 1) zs (("ZONE T=\"".toList ++ name ++ "\"\n".toList) :: ls) =
      (do let r ← importZone c ("ZONE T=\"".toList ++ name ++ "\"\n".toList) ls; importLoop c n (zs ++ [r.1]) r.2) := by
  rw [importLoop, zone_keyword (by decide) (by decide) (by decide) hn.1, if_neg (by simp),
    zone_keyword (by decide) (by decide) (by decide) hn.2.1, if_neg (by simp),
    zone_keyword (by decide) (by decide) (by decide) hn.2.2, if_neg (by simp), if_pos]
  have e : "ZONE T=\"".toList ++ name ++ "\"\n".toList = "ZONE T=".toList ++ ('"' :: name ++ "\"\n".toList) := by simp
  rw [e]
  exact Py.contains_prefix _ _

theorem importLoop_zones {c : Codec F} (hc : c.Lawful) (vc : Nat) (zs : List (CZone F × List F × List F × List F))
    (hz : ∀ z ∈ zs, Bare z.1 ∧ '=' ∉ z.1.title ∧ NoKeyword z.1.title) (acc : List (CZone F)) (n : Nat) (hn : zs.length ≤ n) :
    importLoop c n acc (zs.flatMap (fun z => (importForm z.1 z.2.1 z.2.2.1 z.2.2.2).lines c vc)) = .ok (acc ++ zs.map Prod.fst) := by
  induction zs generalizing acc n with
  | nil => cases n <;> simp [importLoop]
  | cons z zs ih =>
    obtain ⟨n, rfl⟩ : ∃ k, n = k + 1 := ⟨n - 1, by simp at hn; omega⟩
    obtain ⟨h1, h2, h3⟩ := hz z (by simp)
    rw [List.flatMap_cons, ZoneText.lines_eq]
    show importLoop c (n + 1) acc (("ZONE T=\"".toList ++ z.1.title ++ "\"\n".toList) :: _) = _
    rw [importLoop_zone n acc h3, importZone_ok hc vc z.1 h1 h2, res_bind_ok]
    have := ih (fun x hx => hz x (by simp [hx])) (acc ++ [z.1]) n (by simpa using hn)
    rw [this]
    simp

/-- The zone as the reader represents it. -/
def importedZone (g : Grid F R) (z : Nat) : CZone F where
  title := g.zName z
  nodes := ((g.zNodes z).map g.nP).map bareNode
  faces := (g.zFaces z).map (fun f => ⟨(g.zNodes z).idxOf ((g.fNodes f).getD 0 0), (g.zNodes z).idxOf ((g.fNodes f).getD 1 0),
    (g.zNodes z).idxOf ((g.fNodes f).getD 2 0), g.getData 0 f "HTC".toList, g.getData 0 f "Beta".toList,
    ⟨g.getData 0 f "TauX".toList, g.getData 0 f "TauY".toList, g.getData 0 f "TauZ".toList⟩, 0⟩)

theorem importedZone_form {g : Grid F R} (hw : Wf g) {v1 v2 v3 : Str}
    (hv : g.vars = [v1, v2, v3, "HTC".toList, "Beta".toList, "TauX".toList, "TauY".toList, "TauZ".toList]) {z : Nat} (hz : z ∈ g.zones) :
    zoneText g 0 z = importForm (importedZone g z) (g.dataSlice 0 z v1) (g.dataSlice 0 z v2) (g.dataSlice 0 z v3) := by
  unfold zoneText importForm importedZone
  rw [hv]
  simp only [List.map_cons, List.map_nil, List.map_map, ZoneText.mk.injEq, true_and]
  refine ⟨?_, ?_, ?_⟩
  · exact List.map_congr_left fun _ _ => rfl
  · simp only [dataSlice, Function.comp_def]
  · apply List.map_congr_left
    intro f hf
    obtain ⟨a, b, d, e⟩ := List.length_eq_three.1 (hw.mesh.face_nodes f (hw.face_mem hz hf)).1
    simp [e]

theorem importedZone_bare {g : Grid F R} (hw : Wf g) (hl : ZoneLists g) {z : Nat} (hz : z ∈ g.zones) : Bare (importedZone g z) := by
  refine ⟨?_, ?_, ?_⟩
  · intro n hn
    obtain ⟨p, -, rfl⟩ := List.mem_map.1 hn
    rfl
  · intro f hf
    obtain ⟨p, -, rfl⟩ := List.mem_map.1 hf
    rfl
  · intro f hf
    obtain ⟨p, hp, rfl⟩ := List.mem_map.1 hf
    obtain ⟨a, b, d, e⟩ := List.length_eq_three.1 (hw.mesh.face_nodes p (hw.face_mem hz hp)).1
    have hs := face_nodes_sub hw hl hz hp
    rw [e] at hs
    simp only [importedZone, e, List.length_map, List.getD_cons_zero, List.getD_cons_succ, List.idxOf_lt_length_iff]
    exact ⟨hs a (by simp), hs b (by simp), hs d (by simp)⟩

/-- What `gsu.Grid.store` wrote is read back by the reader of the converters if the grid has the five variables after three others: the
zones with their titles, points and triangles and the five values of each face. Missing: the files of its own `Export`, see
`C85_export_violation`. -/
theorem C85_store_partial {c : Codec F} (hc : c.Lawful) {g : Grid F R} (hg : Storable g) {v1 v2 v3 : Str}
    (hv : g.vars = [v1, v2, v3, "HTC".toList, "Beta".toList, "TauX".toList, "TauY".toList, "TauZ".toList])
    (hk : ∀ z ∈ g.zones, NoKeyword (g.zName z)) :
    ∃ text zs, g.storeText c 0 = .ok text ∧ importText c text = .ok zs ∧ List.Forall₂ (ReadZone g) g.zones zs := by
  obtain ⟨hw, hl, hgp, h0, hn, hz, hp, hd⟩ := hg
  refine ⟨_, g.zones.map (importedZone g), by unfold storeText; rw [storeLines_ok c 0 hw hl hgp h0, res_bind_ok]; rfl, ?_, ?_⟩
  · have hpl : ∀ v ∈ xyz ++ g.vars, PlainVar v := by
      intro v h
      rcases List.mem_append.mp h with h | h
      · exact xyz_plain v h
      · exact hp v h
    unfold importText
    rw [Py.readlines_flatten]
    · obtain ⟨zs, hzs⟩ : ∃ zs, zs = g.zones.map (fun z => (importedZone g z, g.dataSlice 0 z v1, g.dataSlice 0 z v2, g.dataSlice 0 z v3)) := ⟨_, rfl⟩
      have e : g.zones.flatMap (fun z => (zoneText g 0 z).lines c (xyz ++ g.vars).length) =
          zs.flatMap (fun z => (importForm z.1 z.2.1 z.2.2.1 z.2.2.2).lines c (xyz ++ g.vars).length) := by
        rw [hzs, List.flatMap_map]
        apply List.flatMap_congr
        intro z hz
        rw [importedZone_form hw hv hz]
      rw [e]
      have hlen : ∀ m : Nat, zs.length ≤ (zs.flatMap (fun z => (importForm z.1 z.2.1 z.2.2.1 z.2.2.2).lines c m)).length := by
        intro m
        clear e hzs
        induction zs with
        | nil => simp
        | cons t ts ih =>
          have := lines_length_pos c m (importForm t.1 t.2.1 t.2.2.1 t.2.2.2)
          simp only [List.flatMap_cons, List.length_append, List.length_cons] at *
          omega
      have hlen := hlen (xyz ++ g.vars).length
      generalize hL : zs.flatMap (fun z => (importForm z.1 z.2.1 z.2.2.1 z.2.2.2).lines c (xyz ++ g.vars).length) = L at hlen
      have hll : (headLines g.name (xyz ++ g.vars) ++ L).length = L.length + 1 + 1 + 1 := by simp [headLines]
      dsimp only
      rw [hll]
      show importLoop c _ _ ("# crys-gsu\n".toList :: _ :: _ :: L) = _
      rw [importLoop, if_neg (by decide), if_neg (by decide), if_neg (by decide), if_neg (by decide)]
      have t1 : Py.contains "TITLE".toList ("TITLE=\"".toList ++ g.name ++ "\"\n".toList) = true := by
        rw [show "TITLE=\"".toList ++ g.name ++ "\"\n".toList = "TITLE".toList ++ ("=\"".toList ++ g.name ++ "\"\n".toList) from by simp]
        exact Py.contains_prefix _ _
      have t2 : ∀ s, Py.contains "VARIABLES".toList ("VARIABLES=".toList ++ s ++ ['\n']) = true := by
        intro s
        rw [show "VARIABLES=".toList ++ s ++ ['\n'] = "VARIABLES".toList ++ ('=' :: (s ++ ['\n'])) from by simp]
        exact Py.contains_prefix _ _
      rw [importLoop]
      rw [t1, if_pos rfl, ite_self, importLoop, t2, if_pos rfl, ite_self, ite_self, ← hL, importLoop_zones hc _ zs _ [] _ (by rw [hL]; exact hlen)]
      · rw [hzs, List.map_map]
        rfl
      · intro z hm
        rw [hzs] at hm
        obtain ⟨y, hy, rfl⟩ := List.mem_map.1 hm
        exact ⟨importedZone_bare hw hl hy, (hz y hy).1, hk y hy⟩
    · intro l hl'
      rcases List.mem_append.mp hl' with hl' | hl'
      · exact headLines_isLine g.name hn _ hpl l hl'
      · obtain ⟨z, hzm, hl'⟩ := List.mem_flatMap.mp hl'
        exact lines_isLine hc _ (zoneText g 0 z) (hz z hzm) l hl'
  · rw [List.forall₂_map_right_iff]
    refine List.forall₂_same.2 fun z hz => ⟨rfl, ?_, ?_⟩
    · simp [importedZone, bareNode, Function.comp_def]
    · show List.Forall₂ _ _ ((g.zFaces z).map _)
      rw [List.forall₂_map_right_iff]
      refine List.forall₂_same.2 fun f hf => ⟨?_, rfl, rfl, rfl⟩
      obtain ⟨a, b, d, e⟩ := List.length_eq_three.1 (hw.mesh.face_nodes f (hw.face_mem hz hf)).1
      have hs := face_nodes_sub hw hl hz hf
      rw [e] at hs
      simp only [e, List.getD_cons_zero, List.getD_cons_succ, List.map_cons, List.map_nil]
      rw [List.getElem?_idxOf (hs a (by simp)), List.getElem?_idxOf (hs b (by simp)), List.getElem?_idxOf (hs d (by simp))]

/-- The reader refuses every file that its own class wrote if the first zone has faces: `Export` writes six variables, `Import` expects
eight. -/
theorem C85_export_violation (c : Codec F) {fmt : F → Str} (hw : ∀ x, IsWord (fmt x)) (z : CZone F) (zs : List (CZone F))
    (hn : ∀ z' ∈ z :: zs, PlainName z'.title) (hk : NoKeyword z.title) (hf : z.faces ≠ []) :
    ∃ e, importText c (Ansys.exportText fmt (z :: zs)) = .error e := by
  unfold importText
  rw [readlines_export hw _ hn]
  dsimp only
  rw [List.length_cons, importLoop, if_neg (by decide +kernel), if_neg (by decide +kernel), if_pos (by decide +kernel), List.flatMap_cons,
    exportZone_lines fmt id, RawZone.lines_append]
  rw [List.length_cons]
  show ∃ e, importLoop c (_ + 1) [] (("ZONE T=\"".toList ++ z.title ++ "\"\n".toList) :: _) = .error e
  rw [importLoop_zone _ _ hk]
  obtain ⟨e, he⟩ := importZone_export c hw z hf (zs.flatMap (Ansys.exportZone fmt)) (by
    cases zs with
    | nil => left; rfl
    | cons y ys =>
      right
      exact ⟨'"' :: (y.title ++ "\"\n".toList), rfl⟩)
  rw [he]
  exact ⟨e, rfl⟩

end

/-! ### C86 Cleaning of a zone -/

theorem foldl_append_flatten {α : Type} (ls : List (List α)) (a : List α) : ls.foldl (fun ns f => ns ++ f) a = a ++ ls.flatten := by
  induction ls generalizing a with
  | nil => simp
  | cons l ls ih => rw [List.foldl_cons, ih, List.flatten_cons, List.append_assoc]

theorem foldl_ids (l : List (Nat × Nat)) (m : Nat → Nat) (n : Nat) :
    (∃ i, (n, i) ∈ l ∧ l.foldl (fun m p => fun n => if n = p.1 then p.2 else m n) m n = i) ∨
      (∀ i, (n, i) ∉ l) ∧ l.foldl (fun m p => fun n => if n = p.1 then p.2 else m n) m n = m n := by
  induction l generalizing m with
  | nil => right; exact ⟨by simp, rfl⟩
  | cons p l ih =>
    rw [List.foldl_cons]
    rcases ih (fun n => if n = p.1 then p.2 else m n) with ⟨i, h1, h2⟩ | ⟨h1, h2⟩
    · left; exact ⟨i, by simp [h1], h2⟩
    · by_cases hn : n = p.1
      · left
        refine ⟨p.2, by simp [hn], ?_⟩
        rw [h2, if_pos hn]
      · right
        refine ⟨?_, by rw [h2, if_neg hn]⟩
        intro i hi
        rcases List.mem_cons.1 hi with h | h
        · exact hn (by rw [← h])
        · exact h1 i h

theorem cleaned_closed {z z' : LinkZone} (h : Cleaned z z') (hc : z.Closed) : z'.Closed := by
  induction h with
  | refl => exact hc
  | replace on nn _ ih =>
    intro f hf n hn
    obtain ⟨f, hf', rfl⟩ := List.mem_map.1 hf
    obtain ⟨n, hn', rfl⟩ := List.mem_map.1 hn
    exact List.mem_map.2 ⟨n, ih f hf' n hn', rfl⟩
  | delete _ ih =>
    intro f hf n hn
    refine List.mem_filter.2 ⟨ih f hf n hn, ?_⟩
    rw [foldl_append_flatten, List.nil_append]
    exact decide_eq_true (List.mem_flatten.2 ⟨f, hf, hn⟩)

/-- After any cleaning of a zone followed by `RestoreNodesIndices` the exported numbers of the corners are the positions (from 1) of
these corners in the list of nodes. -/
theorem C86_links {z z' : LinkZone} (hc : z.Closed) (h : Cleaned z z') :
    List.Forall₂ (List.Forall₂ fun n k => ∃ i, k = i + 1 ∧ z'.restoreIds.nodes[i]? = some n) z'.restoreIds.faces z'.restoreIds.links := by
  have hc' := cleaned_closed h hc
  unfold LinkZone.links
  rw [List.forall₂_map_right_iff]
  refine List.forall₂_same.2 fun f hf => ?_
  rw [List.forall₂_map_right_iff]
  refine List.forall₂_same.2 fun n hn => ⟨_, rfl, ?_⟩
  have hm : n ∈ z'.nodes := hc' f hf n hn
  show z'.nodes[z'.nodes.zipIdx.foldl (fun m p => fun n => if n = p.1 then p.2 else m n) z'.id n]? = some n
  rcases foldl_ids z'.nodes.zipIdx z'.id n with ⟨i, h1, h2⟩ | ⟨h1, -⟩
  · rw [h2]
    exact (List.mk_mem_zipIdx_iff_getElem?).1 h1
  · obtain ⟨i, hi, rfl⟩ := List.mem_iff_getElem.1 hm
    exact absurd (List.mk_mem_zipIdx_iff_getElem?.2 (List.getElem?_eq_getElem hi)) (h1 i)

/-- `DeleteExtraNodes` keeps the nodes that are corners of faces, in the same order, and nothing else. -/
theorem C86_delete (z : LinkZone) : z.deleteExtra.nodes.Sublist z.nodes ∧ z.deleteExtra.faces = z.faces ∧
    ∀ n, z.deleteExtra.nodes.count n = if ∃ f ∈ z.faces, n ∈ f then z.nodes.count n else 0 := by
  refine ⟨List.filter_sublist, rfl, fun n => ?_⟩
  show (z.nodes.filter (fun n => n ∈ z.faces.foldl (fun ns f => ns ++ f) [])).count n = _
  rw [foldl_append_flatten, List.nil_append]
  split_ifs with h
  · exact List.count_filter (decide_eq_true (List.mem_flatten.2 h))
  · rw [List.count_eq_zero]
    intro hm
    have := of_decide_eq_true (List.mem_filter.1 hm).2
    exact h (List.mem_flatten.1 this)

/-- `ReplaceNode` puts the new node to every place of the old one, in the list of nodes and in the faces; all other places stay. -/
theorem C86_replace (on nn : Nat) (z : LinkZone) :
    List.Forall₂ (fun n n' => n = on ∧ n' = nn ∨ n ≠ on ∧ n' = n) z.nodes (z.replaceNode on nn).nodes ∧
    List.Forall₂ (List.Forall₂ fun n n' => n = on ∧ n' = nn ∨ n ≠ on ∧ n' = n) z.faces (z.replaceNode on nn).faces := by
  have key : ∀ l : List Nat, List.Forall₂ (fun n n' => n = on ∧ n' = nn ∨ n ≠ on ∧ n' = n) l (l.map fun n => if n = on then nn else n) := by
    intro l
    rw [List.forall₂_map_right_iff]
    refine List.forall₂_same.2 fun n _ => ?_
    by_cases h : n = on <;> simp [h]
  refine ⟨key _, ?_⟩
  show List.Forall₂ _ _ (z.faces.map _)
  rw [List.forall₂_map_right_iff]
  exact List.forall₂_same.2 fun f _ => key f

/-! ### Samples -/

/-- Two triangles, a node without faces and a node to be merged with another. -/
def linkSample : LinkZone := ⟨[10, 11, 12, 13, 14, 15], [[10, 11, 13], [14, 13, 11]], fun n => n - 10⟩

example : linkSample.Closed ∧ Cleaned linkSample ((linkSample.replaceNode 14 10).deleteExtra) ∧
    (linkSample.replaceNode 14 10).deleteExtra.restoreIds.links = [[4, 2, 3], [4, 3, 2]] ∧
    (linkSample.replaceNode 14 10).deleteExtra.links = [[1, 2, 4], [1, 4, 2]] :=
  ⟨by unfold LinkZone.Closed; decide, .delete (.replace 14 10 (.refl _)), by decide, by decide⟩

/-- A grid with the variables of the reader. -/
def importFile (name : String) : Str := "# crys-gsu
TITLE=\"t\"
VARIABLES=\"X\", \"Y\", \"Z\", \"T\", \"Hw\", \"Hi\", \"HTC\", \"Beta\", \"TauX\", \"TauY\", \"TauZ\"
ZONE T=\"".toList ++ name.toList ++ "\"
NODES=4
ELEMENTS=2
DATAPACKING=BLOCK
ZONETYPE=FETRIANGLE
VARLOCATION=([4-11]=CELLCENTERED)
0 10 0 10
0 0 10 10
0 0 0 0
5 6
1/2 1/2
0 0
1 2
3 4
5 6
7 8
9 10
1 2 3
2 4 3
".toList

/-- What can be checked by running. -/
def importCheck (text : Str) (P : Grid ℚ (ℚ × ℚ × ℚ) → Bool) : Bool :=
  match parseFile ratCodec (Py.readlines text).length ⟨[], [], []⟩ (Py.readlines text) with
  | .error _ => false
  | .ok s => decide (∀ t ∈ fileFaces ratKey true s.blocks, t.Nodup) &&
    match loadBlocks (R := ℚ × ℚ × ℚ) ratKey true { (empty : Grid ℚ (ℚ × ℚ × ℚ)) with name := s.name } s.blocks with
    | .error _ => false
    | .ok g => decide (g.faces ≠ []) && decide ('=' ∉ g.name ∧ '\n' ∉ g.name ∧ '\r' ∉ g.name) &&
      decide (∀ z ∈ g.zones, ('=' ∉ g.zName z ∧ '\n' ∉ g.zName z ∧ '\r' ∉ g.zName z)) &&
      decide (∀ v ∈ g.vars, (v ≠ [] ∧ (∀ c ∈ v, Py.isWs c = false) ∧ '=' ∉ v ∧ '"' ∉ v ∧ ',' ∉ v)) && decide g.vars.Nodup && P g

theorem importCheck_sound {text : Str} {P : Grid ℚ (ℚ × ℚ × ℚ) → Bool} (h : importCheck text P = true) :
    ∃ g : Grid ℚ (ℚ × ℚ × ℚ), loadText ratKey ratCodec true empty text = .ok g ∧ Storable g ∧ P g = true := by
  unfold importCheck at h
  split at h
  · cases h
  rename_i s hs
  rw [Bool.and_eq_true] at h
  obtain ⟨hd, h⟩ := h
  split at h
  · cases h
  rename_i g hg
  simp only [Bool.and_eq_true, decide_eq_true_eq] at h hd
  obtain ⟨⟨⟨⟨⟨a1, a2⟩, a3⟩, a4⟩, a5⟩, a6⟩ := h
  have L := loaded_of hd hg
  refine ⟨g, ?_, ⟨⟨L.mesh, L.zones, L.alloc⟩, L.lists, L.glo.perm, a1, a2, a3, a4, a5⟩, a6⟩
  unfold loadText
  dsimp only
  rw [show (empty : Grid ℚ (ℚ × ℚ × ℚ)).name = [] from rfl, hs, res_bind_ok, hg]

theorem noKeyword_check {s : Str} (h : (Py.contains "EXPORT_MODE".toList s || Py.contains "TITLE".toList s ||
    Py.contains "VARIABLES".toList s) = false) : NoKeyword s := by
  simp only [Bool.or_eq_false_iff] at h
  exact ⟨contains_false.1 h.1.1, contains_false.1 h.1.2, contains_false.1 h.2⟩

/-- The hypotheses of `C85_store_partial`. -/
example : ∃ g : Grid ℚ (ℚ × ℚ × ℚ), Storable g ∧
    g.vars = ["T".toList, "Hw".toList, "Hi".toList, "HTC".toList, "Beta".toList, "TauX".toList, "TauY".toList, "TauZ".toList] ∧
    ∀ z ∈ g.zones, NoKeyword (g.zName z) := by
  obtain ⟨g, -, h1, h2⟩ := importCheck_sound (text := importFile "low") (P := fun g => decide
    (g.vars = ["T".toList, "Hw".toList, "Hi".toList, "HTC".toList, "Beta".toList, "TauX".toList, "TauY".toList, "TauZ".toList]) &&
    decide (∀ z ∈ g.zones, (Py.contains "EXPORT_MODE".toList (g.zName z) || Py.contains "TITLE".toList (g.zName z) ||
      Py.contains "VARIABLES".toList (g.zName z)) = false)) (by decide +kernel)
  rw [Bool.and_eq_true, decide_eq_true_eq, decide_eq_true_eq] at h2
  exact ⟨g, h1, h2.1, fun z hz => noKeyword_check (h2.2 z hz)⟩

/-- A zone whose name has one of the keywords is silently left out. -/
theorem C85_keyword_violation : ∃ (g : Grid ℚ (ℚ × ℚ × ℚ)) (text : Str), Storable g ∧ g.zones ≠ [] ∧
    g.vars = ["T".toList, "Hw".toList, "Hi".toList, "HTC".toList, "Beta".toList, "TauX".toList, "TauY".toList, "TauZ".toList] ∧
    g.storeText ratCodec 0 = .ok text ∧ importText ratCodec text = .ok [] := by
  obtain ⟨g, -, h1, h2⟩ := importCheck_sound (text := importFile "SUBTITLE") (P := fun g => decide (g.zones ≠ []) && decide
    (g.vars = ["T".toList, "Hw".toList, "Hi".toList, "HTC".toList, "Beta".toList, "TauX".toList, "TauY".toList, "TauZ".toList]) &&
    match g.storeText ratCodec 0 with
    | .error _ => false
    | .ok t => match importText ratCodec t with
      | .ok [] => true
      | _ => false) (by decide +kernel)
  rw [Bool.and_eq_true, Bool.and_eq_true, decide_eq_true_eq, decide_eq_true_eq] at h2
  obtain ⟨⟨a, b⟩, h2⟩ := h2
  split at h2
  · cases h2
  rename_i t ht
  split at h2
  · rename_i hz; exact ⟨g, t, h1, a, b, ht, hz⟩
  · cases h2

/-- The hypotheses of `C85_export_violation`: a zone of one triangle. -/
example : ∃ z : CZone ℚ, (∀ z' ∈ [z], PlainName z'.title) ∧ NoKeyword z.title ∧ z.faces ≠ [] ∧ (∀ x, IsWord (ratCodec.fmt x)) ∧
    importText ratCodec (Ansys.exportText ratCodec.fmt [z]) = .error .assertion := by
  refine ⟨⟨"wing".toList, [bareNode ⟨0, 0, 0⟩, bareNode ⟨1, 0, 0⟩, bareNode ⟨0, 1, 0⟩], [⟨0, 1, 2, 1, 2, ⟨3, 4, 5⟩, 6⟩]⟩, ?_,
    noKeyword_check (by decide), by simp, fun x => ⟨ratCodec_lawful.nonempty x, ratCodec_lawful.word x⟩, ?_⟩
  · intro z hz
    rw [List.mem_singleton] at hz
    subst hz
    unfold PlainName
    decide
  · have : (match importText ratCodec (Ansys.exportText ratCodec.fmt [⟨"wing".toList, [bareNode ⟨0, 0, 0⟩, bareNode ⟨1, 0, 0⟩, bareNode ⟨0, 1, 0⟩],
        [⟨0, 1, 2, 1, 2, ⟨3, 4, 5⟩, 6⟩]⟩]) with
      | .error e => decide (e = .assertion)
      | .ok _ => false) = true := by decide +kernel
    split at this
    · rename_i e he
      rw [he, of_decide_eq_true this]
    · cases this

/-- The counts of nodes and elements are the numbers between the first and the second `=` of their lines; a line without `=` is
refused. -/
theorem C85_count :
    (∀ (a rest : Str) (n : Nat), '=' ∉ a → Ansys.importCount (a ++ '=' :: (Py.natStr n ++ '=' :: rest)) = .ok (n : Int)) ∧
    (∀ (a : Str) (n : Nat), '=' ∉ a → Ansys.importCount (a ++ '=' :: (Py.natStr n ++ ['\n'])) = .ok (n : Int)) ∧
    ∀ a : Str, '=' ∉ a → Ansys.importCount a = .error .index := by
  refine ⟨fun a rest n ha => ?_, fun a n ha => importCount_line ha n, fun a ha => ?_⟩
  · unfold Ansys.importCount
    rw [Py.splitCh_cons _ ha, Py.splitCh_cons _ (Py.natStr_facts n).2.2.2]
    exact Py.int_natStr n
  · unfold Ansys.importCount
    rw [Py.splitCh_none ha]
    rfl

example : '=' ∉ "NODES".toList ∧ "NODES=4=7\n".toList = "NODES".toList ++ '=' :: (Py.natStr 4 ++ '=' :: "7\n".toList) := by
  decide +kernel

end Verif.Props
