import Verif.Spec.DropsFile
import Verif.Proofs.RawText
import Verif.Proofs.Drops

/-! The files of `drops`. -/

namespace Verif
variable {F R : Type}
open Grid

theorem get_some {α : Type} {l : List α} {i : Nat} {x : α} (h : l[i]? = some x) : Py.get l (i : Int) = .ok x := by
  obtain ⟨h1, h2⟩ := List.getElem?_eq_some_iff.1 h
  rw [get_nat h1, h2]

theorem slice_one {α : Type} (l : List α) : Py.slice l (some 1) none = l.tail := by
  cases l with
  | nil => rfl
  | cons a l => simp [Py.slice, Py.bound]

theorem get_words {l : Str} {i : Nat} {w : Str} (h : WordAt l (i + 1) w) :
    Py.get (Py.slice (Py.splitWs l) (some 1) none) (i : Int) = .ok w := by
  rw [slice_one]
  apply get_some
  unfold WordAt at h
  rw [List.getElem?_tail, h]

theorem airLine_ok {c : Codec F} {l : Str} {a : Vec F × Vec F} (h : AirNode c l a) : airLine c l = .ok a := by
  obtain ⟨x, y, z, u, v, w, h0, h1, h2, h5, h6, h7, p0, p1, p2, p5, p6, p7⟩ := h
  unfold airLine
  have e0 := get_some h0
  have e1 := get_some h1
  have e2 := get_some h2
  have e5 := get_some h5
  have e6 := get_some h6
  have e7 := get_some h7
  norm_num at e0 e1 e2 e5 e6 e7
  simp only [e0, e1, e2, e5, e6, e7, res_bind_ok, p0, p1, p2, p5, p6, p7]

theorem contains_true {p l : Str} : Py.contains p l = true ↔ p <:+: l := by
  rw [Py.contains_iff]
  exact ⟨fun ⟨a, b, h⟩ => ⟨a, b, h.symm⟩, fun ⟨a, b, h⟩ => ⟨a, b, h.symm⟩⟩

theorem contains_false {p l : Str} : Py.contains p l = false ↔ ¬ p <:+: l := by
  rw [← contains_true, Bool.not_eq_true]

/-- The head of a zone of bricks. -/
theorem readAir_brick {c : Codec F} {h : Str} {n e : Nat} (hh : AirHead h True n e) (m : Nat) (ds : List (Vec F × Vec F)) (ls : List Str) :
    readAir c (m + 1) ds (h :: ls) = (Grid.readlines n ls).1.mapM (airLine c) >>= fun new =>
      readAir c m (ds ++ new) (Grid.readlines e (Grid.readlines n ls).2).2 := by
  obtain ⟨-, h1, h2, h3, ⟨w, h4, h5⟩, h6, -⟩ := hh
  obtain ⟨h7, h8⟩ := h6 trivial
  have e0 := get_words h4
  have e5 := get_words h7
  have e8 := get_words h8
  norm_num at e0 e5 e8
  rw [readAir, if_neg (by rw [contains_false.2 h2]; simp), if_neg (by rw [contains_false.2 h3]; simp), if_pos (contains_true.2 h1)]
  dsimp only
  rw [e0, res_bind_ok, if_pos (contains_true.2 (h5.2 trivial)), e5, e8]
  simp only [res_bind_ok, Py.int_natStr, Int.toNat_natCast]

theorem readAir_other {c : Codec F} {h : Str} {n e : Nat} (hh : AirHead h False n e) (m : Nat) (ds : List (Vec F × Vec F)) (ls : List Str) :
    readAir c (m + 1) ds (h :: ls) = readAir c m ds (Grid.readlines (n + e) ls).2 := by
  obtain ⟨-, h1, h2, h3, ⟨w, h4, h5⟩, -, h6⟩ := hh
  obtain ⟨h7, h8⟩ := h6 id
  have e0 := get_words h4
  have e5 := get_words h7
  have e8 := get_words h8
  norm_num at e0 e5 e8
  rw [readAir, if_neg (by rw [contains_false.2 h2]; simp), if_neg (by rw [contains_false.2 h3]; simp), if_pos (contains_true.2 h1)]
  dsimp only
  rw [e0, res_bind_ok, if_neg (by rw [contains_false.2 (fun h => h5.1 h)]; simp), e5, e8]
  simp only [res_bind_ok, Py.int_natStr]
  rw [← Nat.cast_add, Int.toNat_natCast]

theorem readAir_part {c : Codec F} {p : AirPart} {as : List (Vec F × Vec F)} (hp : p.Holds c as) (m : Nat) (ds : List (Vec F × Vec F))
    (ls : List Str) : readAir c (m + 1) ds (p.lines ++ ls) = readAir c m (ds ++ as) ls := by
  cases p with
  | line l =>
    obtain ⟨-, h1, rfl⟩ := hp
    rw [List.append_nil]
    show readAir c (m + 1) ds (l :: ls) = _
    rw [readAir]
    split_ifs with h2 h3 h4
    · rfl
    · rfl
    · exfalso
      rcases h1 (contains_true.1 h4) with h | h
      · exact h2 (contains_true.2 h)
      · exact h3 (contains_true.2 h)
    · rfl
  | zone h ns es =>
    obtain ⟨-, ⟨h1, h2⟩ | ⟨h1, rfl⟩⟩ := hp
    · show readAir c (m + 1) ds (h :: (ns ++ es) ++ ls) = _
      rw [List.cons_append, readAir_brick h1, List.append_assoc, readlines_append]
      dsimp only
      rw [mapM_of_forall₂ (h2.imp fun _ _ h => airLine_ok h), res_bind_ok, readlines_append]
    · show readAir c (m + 1) ds (h :: (ns ++ es) ++ ls) = _
      rw [List.cons_append, readAir_other h1, readlines_append' _ _ (List.length_append), List.append_nil]

theorem readAir_parts {c : Codec F} {ps : List AirPart} {ass : List (List (Vec F × Vec F))}
    (h : List.Forall₂ (fun p as => p.Holds c as) ps ass) : ∀ (m : Nat) (ds : List (Vec F × Vec F)) (ls : List Str),
    readAir c (m + ps.length) ds (ps.flatMap AirPart.lines ++ ls) = readAir c m (ds ++ ass.flatten) ls := by
  induction h with
  | nil => intro m ds ls; simp
  | cons h1 _ ih =>
    intro m ds ls
    rw [List.length_cons, ← Nat.add_assoc, List.flatMap_cons, List.append_assoc, readAir_part h1, ih, List.flatten_cons, List.append_assoc]

theorem AirPart.Holds.isLine {c : Codec F} {p : AirPart} {as : List (Vec F × Vec F)} (hp : p.Holds c as) : ∀ l ∈ p.lines, Py.IsLine l := by
  intro l hl
  cases p with
  | line k =>
    obtain ⟨h, -⟩ := hp
    simp only [AirPart.lines, List.mem_singleton] at hl
    rw [hl]; exact h
  | zone h ns es =>
    obtain ⟨h1, h2⟩ := hp
    simp only [AirPart.lines, List.mem_cons] at hl
    rcases hl with rfl | hl
    · rcases h2 with ⟨h, -⟩ | ⟨h, -⟩ <;> exact h.1
    · exact h1 l hl

theorem AirPart.lines_pos (p : AirPart) : 1 ≤ p.lines.length := by
  cases p <;> simp [AirPart.lines]

theorem parts_length (ps : List AirPart) : ps.length ≤ (ps.flatMap AirPart.lines).length := by
  induction ps with
  | nil => simp
  | cons p ps ih =>
    have := p.lines_pos
    simp only [List.flatMap_cons, List.length_append, List.length_cons] at *
    omega

theorem parts_isLine {c : Codec F} {ps : List AirPart} {ass : List (List (Vec F × Vec F))}
    (h : List.Forall₂ (fun p as => p.Holds c as) ps ass) : ∀ l ∈ ps.flatMap AirPart.lines, Py.IsLine l := by
  induction h with
  | nil => simp
  | cons h1 _ ih =>
    intro l hl
    rw [List.flatMap_cons] at hl
    rcases List.mem_append.1 hl with hl | hl
    · exact h1.isLine l hl
    · exact ih l hl

theorem readAir_nil (c : Codec F) (m : Nat) (ds : List (Vec F × Vec F)) : readAir c m ds [] = .ok ds := by
  cases m <;> rfl

/-- Reading beyond the end of the file gives empty lines. -/
theorem readlines_short (ls : List Str) (k : Nat) : Grid.readlines (ls.length + (k + 1)) ls = (ls ++ List.replicate (k + 1) [], []) := by
  induction ls with
  | nil =>
    simp only [List.length_nil, Nat.zero_add, List.nil_append]
    have : ∀ k, Grid.readlines k ([] : List Str) = (List.replicate k [], []) := by
      intro k
      induction k with
      | zero => rfl
      | succ k ih => simp [Grid.readlines, readline, ih, List.replicate_succ]
    exact this _
  | cons a ls ih =>
    rw [List.length_cons, show ls.length + 1 + (k + 1) = (ls.length + (k + 1)) + 1 from by omega, Grid.readlines]
    simp only [readline, List.headD_cons, List.tail_cons, ih, List.cons_append]

theorem mapM_error_at {α β : Type} {f : α → Res β} {l : List α} {l' : List β} (h : List.Forall₂ (fun a b => f a = .ok b) l l') {x : α}
    {e : Err} (hx : f x = .error e) (t : List α) : (l ++ x :: t).mapM f = .error e := by
  induction h with
  | nil => rw [List.nil_append, List.mapM_cons, hx]; rfl
  | cons h1 _ ih => rw [List.cons_append, List.mapM_cons, h1, ih]; rfl

/-! ### Trajectories -/

def trajText (name : Str) (pts : List (Vec F)) : ZoneText F :=
  { name := name, pts := pts, rows := []
    conns := (List.range (pts.length - 1)).map (fun i : Nat => [(i : Int) + 1, (i : Int) + 2, (i : Int) + 2]) }

def trajRaw (str : F → Str) (pts : List (Vec F)) : RawZone :=
  { lx := Py.join [' '] (pts.map (fun p => str p.x)) ++ ['\n']
    ly := Py.join [' '] (pts.map (fun p => str p.y)) ++ ['\n']
    lz := Py.join [' '] (pts.map (fun p => str p.z)) ++ ['\n']
    rows := []
    conns := (List.range (pts.length - 1)).map (fun i : Nat => connLine [(i : Int) + 1, (i : Int) + 2, (i : Int) + 2]) }

theorem dump_lines (str : F → Str) (name : Str) (pts : List (Vec F)) :
    dumpLines str name pts = (trajRaw str pts).lines 3 (trajText name pts) := by
  unfold dumpLines RawZone.lines RawZone.tail trajRaw trajText
  have h : ∀ i : Nat, Py.natStr (i + 1) ++ [' '] ++ Py.natStr (i + 2) ++ [' '] ++ Py.natStr (i + 2) ++ ['\n'] =
      connLine [(i : Int) + 1, (i : Int) + 2, (i : Int) + 2] := by
    intro i
    have h1 : Py.intStr ((i : Int) + 1) = Py.natStr (i + 1) := rfl
    have h2 : Py.intStr ((i : Int) + 2) = Py.natStr (i + 2) := rfl
    simp [connLine, Py.join, h1, h2]
  simp only [h]
  simp [show Py.natStr 3 = ['3'] from by decide]

theorem traj_split {str : F → Str} (hw : ∀ x, IsWord (str x)) (l : List F) : Py.splitWs (Py.join [' '] (l.map str) ++ ['\n']) = l.map str :=
  Py.splitWs_join (by simpa using fun x _ => (hw x).1) (by simpa using fun x _ => (hw x).2) (by decide)

theorem traj_floats {c : Codec F} {str : F → Str} (hw : ∀ x, IsWord (str x)) (hr : ∀ x, c.parse (str x) = .ok x) (l : List F) :
    parseFloats c (Py.join [' '] (l.map str) ++ ['\n']) = .ok l := by
  refine parseFloats_of (traj_split hw l) ?_
  unfold ReadsAs
  rw [List.forall₂_map_left_iff]
  exact List.forall₂_same.mpr (fun x _ => hr x)

theorem traj_reads {c : Codec F} {str : F → Str} (hw : ∀ x, IsWord (str x)) (hr : ∀ x, c.parse (str x) = .ok x) (name : Str)
    (pts : List (Vec F)) : (trajRaw str pts).Reads c (trajText name pts) := by
  have h := traj_floats hw hr
  refine ⟨?_, ?_, ?_, .nil, ?_⟩
  · have := h (pts.map Vec.x); rwa [List.map_map] at this
  · have := h (pts.map Vec.y); rwa [List.map_map] at this
  · have := h (pts.map Vec.z); rwa [List.map_map] at this
  · unfold trajRaw trajText
    rw [List.forall₂_map_left_iff, List.forall₂_map_right_iff]
    exact List.forall₂_same.mpr (fun f _ => parseInts_line _)

theorem traj_isLine {str : F → Str} (hw : ∀ x, IsWord (str x)) (l : List F) : Py.IsLine (Py.join [' '] (l.map str) ++ ['\n']) := by
  apply noWs_line
  intro ch hc
  rcases Py.mem_join hc with hc | ⟨t, ht, hc⟩
  · left; simpa using hc
  · obtain ⟨x, -, rfl⟩ := List.mem_map.1 ht
    exact .inr ((hw x).2 ch hc)

theorem traj_block (name : Str) (pts : List (Vec F)) : (trajText name pts).block [] = trajBlock name pts := by
  unfold ZoneText.block trajBlock trajText
  congr 1
  apply List.ext_getElem
  · simp
  · intro i h1 h2
    simp [ZoneText.data]

theorem parse_traj {c : Codec F} {str : F → Str} (hw : ∀ x, IsWord (str x)) (hr : ∀ x, c.parse (str x) = .ok x) (nm0 : Str)
    (zs : List (Str × List (Vec F))) (hn : ∀ z ∈ zs, PlainName z.1) :
    let ls := Py.readlines (trajHead ++ zs.flatMap (fun z => dumpLines str z.1 z.2)).flatten
    parseFile c ls.length ⟨nm0, [], []⟩ ls =
      .ok ⟨"Trajectories".toList, ["X".toList, "Y".toList, "Z".toList], zs.map (fun z => trajBlock z.1 z.2)⟩ := by
  have hlines : zs.flatMap (fun z => dumpLines str z.1 z.2) =
      (zs.map (fun z => (trajRaw str z.2, trajText z.1 z.2))).flatMap (fun p => p.1.lines 3 p.2) := by
    rw [List.flatMap_map]
    exact List.flatMap_congr (fun z _ => dump_lines str z.1 z.2)
  have hh : trajHead.tail.tail = ["VARIABLES=".toList ++ Py.join ", ".toList (xyz.map (fun v => ['"'] ++ v ++ ['"'])) ++ ['\n']] := by
    decide +kernel
  have hh' : trajHead = "# Trajectories file.\n".toList :: ("TITLE=\"".toList ++ "Trajectories".toList ++ "\"\n".toList) ::
      ["VARIABLES=".toList ++ Py.join ", ".toList (xyz.map (fun v => ['"'] ++ v ++ ['"'])) ++ ['\n']] := by
    rw [← hh]; decide +kernel
  have hread : Py.readlines (trajHead ++ zs.flatMap (fun z => dumpLines str z.1 z.2)).flatten =
      trajHead ++ zs.flatMap (fun z => dumpLines str z.1 z.2) := by
    apply Py.readlines_flatten
    intro l hl
    rcases List.mem_append.1 hl with hl | hl
    · simp only [trajHead, List.mem_cons, List.not_mem_nil, or_false] at hl
      rcases hl with rfl | rfl | rfl
      · exact ⟨"# Trajectories file.".toList, by decide +kernel, by decide +kernel, by decide +kernel⟩
      · exact ⟨"TITLE=\"Trajectories\"".toList, by decide +kernel, by decide +kernel, by decide +kernel⟩
      · exact ⟨"VARIABLES=\"X\", \"Y\", \"Z\"".toList, by decide +kernel, by decide +kernel, by decide +kernel⟩
    · obtain ⟨z, hz, hl⟩ := List.mem_flatMap.1 hl
      rw [dump_lines] at hl
      refine raw_isLine 3 (trajText z.1 z.2) (trajRaw str z.2) (hn z hz) ⟨?_, ?_, ?_, by simp [trajRaw], ?_⟩ l hl
      · have := traj_isLine hw (z.2.map Vec.x); rwa [List.map_map] at this
      · have := traj_isLine hw (z.2.map Vec.y); rwa [List.map_map] at this
      · have := traj_isLine hw (z.2.map Vec.z); rwa [List.map_map] at this
      · intro l hl
        obtain ⟨f, -, rfl⟩ := List.mem_map.1 hl
        exact connLine_isLine _
  intro ls
  have hls : ls = trajHead ++ (zs.map (fun z => (trajRaw str z.2, trajText z.1 z.2))).flatMap (fun p => p.1.lines 3 p.2) := by
    rw [← hlines]; exact hread
  rw [hls, hh']
  obtain ⟨Z, hZ⟩ : ∃ Z, Z = zs.map (fun z => (trajRaw str z.2, trajText z.1 z.2)) := ⟨_, rfl⟩
  rw [← hZ]
  have hlen : ∀ a b d : Str, (([a, b, d] : List Str) ++ Z.flatMap (fun p => p.1.lines 3 p.2)).length =
      (Z.flatMap (fun p => p.1.lines 3 p.2)).length + 1 + 1 + 1 := by intro a b d; simp
  rw [hlen, List.cons_append, List.cons_append, List.cons_append, List.nil_append, parseFile, if_pos (by decide),
    parseFile_title c _ _ (by unfold PlainName; decide), parseFile_vars c _ _ xyz_plain]
  have := parseFile_raws (c := c) Z ⟨"Trajectories".toList, xyz, []⟩ (by
      intro p hp
      rw [hZ] at hp
      obtain ⟨z, hz, rfl⟩ := List.mem_map.1 hp
      exact ⟨⟨hn z hz, rfl, by simp [trajText]⟩, traj_reads hw hr _ _⟩)
    (by simp [xyz]) _ (raws_length 3 _)
  simp only [show (xyz).length = 3 from rfl] at this
  rw [this]
  congr 2
  rw [hZ, List.nil_append, List.map_map]
  apply List.map_congr_left
  intro z _
  exact traj_block z.1 z.2

end Verif
