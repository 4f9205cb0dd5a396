import Verif.Proofs.Lazurit
import Verif.Proofs.Tec

/-! The directory of the LAZURIT converter. -/

namespace Verif
variable {F R : Type}
open Grid

/-! ### Links -/

theorem range_flatMap_get {α : Type} (f : Nat → List α) (m : Nat) (hf : ∀ i, (f i).length = m) (n i k : Nat) (hi : i < n) (hk : k < m) :
    ((List.range n).flatMap f)[i * m + k]? = (f i)[k]? := by
  induction n with
  | zero => omega
  | succ n ih =>
    have hl : ∀ n, ((List.range n).flatMap f).length = n * m := by
      intro n
      rw [List.length_flatMap]
      simp [hf]
    rw [List.range_succ, List.flatMap_append]
    by_cases h : i < n
    · rw [List.getElem?_append_left, ih h]
      rw [hl]
      calc i * m + k < i * m + m := by omega
        _ = (i + 1) * m := by ring
        _ ≤ n * m := Nat.mul_le_mul_right m h
    · obtain rfl : i = n := by omega
      rw [List.getElem?_append_right (by rw [hl]; omega), hl]
      simp

theorem links_get (b : LazBlock F) (i j : Nat) (hi : i < b.I - 1) (hj : j < b.J - 1) (k : Nat) (hk : k < 2) :
    (Lazurit.links b.I b.J)[2 * (i * (b.J - 1) + j) + k]? = (b.cell i j)[k]? := by
  unfold Lazurit.links
  rw [show ((b.I : Int) - 1).toNat = b.I - 1 from by omega, show ((b.J : Int) - 1).toNat = b.J - 1 from by omega]
  have h1 : ∀ (i n : Nat), ((List.range n).flatMap (fun (j : Nat) => Lazurit.cellLinks (b.I : Int) (i : Int) (j : Int))).length = 2 * n := by
    intro i n
    simp [List.length_flatMap, Lazurit.cellLinks, Nat.mul_comm]
  rw [show 2 * (i * (b.J - 1) + j) + k = i * (2 * (b.J - 1)) + (j * 2 + k) from by ring]
  rw [range_flatMap_get _ (2 * (b.J - 1)) (fun i => h1 i _) _ _ _ hi (by omega),
    range_flatMap_get _ 2 (fun j => rfl) _ _ _ hj hk]
  congr 1

/-! ### Sorting -/

theorem leStr_total (s t : Str) : Lazurit.leStr s t = true ∨ Lazurit.leStr t s = true := by
  induction s generalizing t with
  | nil => left; rfl
  | cons a s ih =>
    cases t with
    | nil => right; rfl
    | cons b t =>
      simp only [Lazurit.leStr, Bool.or_eq_true, Bool.and_eq_true, decide_eq_true_eq]
      rcases Nat.lt_trichotomy a.toNat b.toNat with h | h | h
      · exact .inl (.inl h)
      · have : a = b := Char.toNat_inj.mp h
        subst this
        rcases ih t with h | h
        · exact .inl (.inr ⟨rfl, h⟩)
        · exact .inr (.inr ⟨rfl, h⟩)
      · exact .inr (.inl h)

theorem leStr_antisymm {s t : Str} (h : Lazurit.leStr s t = true) (h' : Lazurit.leStr t s = true) : s = t := by
  induction s generalizing t with
  | nil =>
    cases t with
    | nil => rfl
    | cons b t => simp [Lazurit.leStr] at h'
  | cons a s ih =>
    cases t with
    | nil => simp [Lazurit.leStr] at h
    | cons b t =>
      simp only [Lazurit.leStr, Bool.or_eq_true, Bool.and_eq_true, decide_eq_true_eq] at h h'
      rcases h with h | ⟨rfl, h⟩
      · rcases h' with h' | ⟨rfl, h'⟩ <;> omega
      · rcases h' with h' | ⟨-, h'⟩
        · omega
        · rw [ih h h']

theorem leStr_trans {s t u : Str} (h : Lazurit.leStr s t = true) (h' : Lazurit.leStr t u = true) : Lazurit.leStr s u = true := by
  induction s generalizing t u with
  | nil => rfl
  | cons a s ih =>
    cases t with
    | nil => simp [Lazurit.leStr] at h
    | cons b t =>
      cases u with
      | nil => simp [Lazurit.leStr] at h'
      | cons c u =>
        simp only [Lazurit.leStr, Bool.or_eq_true, Bool.and_eq_true, decide_eq_true_eq] at h h' ⊢
        rcases h with h | ⟨rfl, h⟩
        · rcases h' with h' | ⟨rfl, h'⟩
          · left; omega
          · left; omega
        · rcases h' with h' | ⟨rfl, h'⟩
          · left; omega
          · exact .inr ⟨rfl, ih h h'⟩

instance : Std.Total (fun a b => Lazurit.leStr a b = true) := ⟨leStr_total⟩
instance : Std.Antisymm (fun a b => Lazurit.leStr a b = true) := ⟨fun _ _ h h' => leStr_antisymm h h'⟩
instance : IsTrans Str (fun a b => Lazurit.leStr a b = true) := ⟨fun _ _ _ h h' => leStr_trans h h'⟩

theorem leStr_prefix (p s t : Str) : Lazurit.leStr (p ++ s) (p ++ t) = Lazurit.leStr s t := by
  induction p with
  | nil => rfl
  | cons a p ih => simp [Lazurit.leStr, ih]

theorem leStr_of_lex {s t : Str} (h : List.Lex (fun a b => a.toNat < b.toNat) s t) : Lazurit.leStr s t = true := by
  induction h with
  | nil => rfl
  | cons _ ih => simp [Lazurit.leStr, ih]
  | rel h => simp [Lazurit.leStr, h]

theorem sortNames_eq {l l' : List Str} (hp : l.Perm l') (hs : l'.Pairwise (fun a b => Lazurit.leStr a b = true)) :
    Lazurit.sortNames l = l' := by
  unfold Lazurit.sortNames
  exact List.Perm.eq_of_pairwise' (List.pairwise_insertionSort _ l) hs ((List.perm_insertionSort _ l).trans hp)

/-! ### Names of files -/

theorem lastB_none {s : Str} (h : 'B' ∉ s) : Lazurit.lastB s = none := by
  induction s with
  | nil => rfl
  | cons a s ih =>
    rw [List.mem_cons, not_or] at h
    rw [Lazurit.lastB, ih h.2]
    simp only
    rw [if_neg (fun e => h.1 e.symm)]

theorem lastB_some (pre : Str) {t : Str} (h : 'B' ∉ t) : Lazurit.lastB (pre ++ 'B' :: t) = some pre.length := by
  induction pre with
  | nil => rw [List.nil_append, Lazurit.lastB, lastB_none h]; rfl
  | cons a s ih => rw [List.cons_append, Lazurit.lastB, ih]; rfl

theorem blockName_ok {c : Codec F} {e : LazEntry F} (h : e.Ok c) (p : Str) : Lazurit.blockName (p ++ e.suffix) = e.name := by
  obtain ⟨pre, t, hs, hn, ht⟩ := h.suffix
  unfold Lazurit.blockName
  rw [hs, hn, show p ++ (pre ++ 'B' :: t ++ ".TEC".toList) = (p ++ pre) ++ 'B' :: (t ++ ".TEC".toList) from by simp]
  rw [lastB_some _ (by simp [ht])]
  simp only
  unfold Py.slice
  simp only
  have h1 : Py.bound ((p ++ pre) ++ 'B' :: (t ++ ".TEC".toList)).length ((p ++ pre).length : Int) = (p ++ pre).length := by
    unfold Py.bound
    simp only [List.length_append, List.length_cons]
    omega
  have h2 : Py.bound ((p ++ pre) ++ 'B' :: (t ++ ".TEC".toList)).length (-4) = (p ++ pre).length + (t.length + 1) := by
    unfold Py.bound
    simp only [List.length_append, List.length_cons, show (".TEC".toList).length = 4 from rfl]
    split <;> omega
  rw [h1, h2, List.drop_left, Nat.add_sub_cancel_left]
  rw [show 'B' :: (t ++ ".TEC".toList) = ('B' :: t) ++ ".TEC".toList from rfl, List.take_left' (by simp)]

theorem dictGet?_unique {β : Type} {d : List (Str × β)} {k : Str} {v : β} (h : (k, v) ∈ d) (hu : ∀ w, (k, w) ∈ d → w = v) :
    Py.dictGet? d k = some v := by
  induction d with
  | nil => simp at h
  | cons x d ih =>
    obtain ⟨k', w⟩ := x
    rw [Py.dictGet?]
    by_cases hk : k' = k
    · subst hk
      rw [if_pos rfl, hu w (by simp)]
    · rw [if_neg hk]
      refine ih ?_ (fun w hw => hu w (by simp [hw]))
      rcases List.mem_cons.mp h with h | h
      · exact absurd (congrArg Prod.fst h).symm hk
      · exact h

theorem lazWritten {F : Type} [Neg F] (name : Str) {b : LazBlock F} (hb : b.Ok) : LazWritten name b ((lazText name b).block lazuritVars) := by
  have hlen : ((lazText name b).block lazuritVars).faces.length = 2 * ((b.I - 1) * (b.J - 1)) := by
    simp only [ZoneText.block, List.length_zip, List.length_map, List.length_range]
    rw [min_self]
    exact links_length _ _
  refine ⟨rfl, rfl, hlen, ?_⟩
  intro i j k conn hi hj hc
  have hk : k < 2 := (List.getElem?_eq_some_iff.mp hc).1
  obtain ⟨m, hm⟩ : ∃ m, m = i * (b.J - 1) + j := ⟨_, rfl⟩
  have hml : m < (b.I - 1) * (b.J - 1) := by
    rw [hm]
    calc i * (b.J - 1) + j < i * (b.J - 1) + (b.J - 1) := by omega
      _ = (i + 1) * (b.J - 1) := by ring
      _ ≤ (b.I - 1) * (b.J - 1) := Nat.mul_le_mul_right _ hi
  obtain ⟨r0, r1, r2, r3, r4, r5, r6, r7, hrows⟩ : ∃ r0 r1 r2 r3 r4 r5 r6 r7, b.rows = [r0, r1, r2, r3, r4, r5, r6, r7] := by
    match b.rows, hb.rows with
    | [r0, r1, r2, r3, r4, r5, r6, r7], _ => exact ⟨_, _, _, _, _, _, _, _, rfl⟩
  have hrl := hb.row
  rw [hrows] at hrl
  have hg : ∀ r ∈ [r0, r1, r2, r3, r4, r5, r6, r7], ∃ v, r[m]? = some v := fun r hr =>
    ⟨_, List.getElem?_eq_getElem (by rw [hrl r hr]; exact hml)⟩
  obtain ⟨v0, h0⟩ := hg r0 (by simp)
  obtain ⟨v1, h1⟩ := hg r1 (by simp)
  obtain ⟨v2, h2⟩ := hg r2 (by simp)
  obtain ⟨v3, h3⟩ := hg r3 (by simp)
  obtain ⟨v4, h4⟩ := hg r4 (by simp)
  obtain ⟨v5, h5⟩ := hg r5 (by simp)
  obtain ⟨v6, h6⟩ := hg r6 (by simp)
  obtain ⟨v7, h7⟩ := hg r7 (by simp)
  refine ⟨lazuritVars.zip [v0, v1, v2, v3, v4, -v5, -v6, -v7], ?_, v0, v1, v2, v3, v4, v5, v6, v7, ?_, rfl⟩
  · rw [← hm]
    have hx : 2 * m + k < (Lazurit.links b.I b.J).length := by rw [links_length]; omega
    have hd : (lazText name b).data lazuritVars (2 * m + k) = lazuritVars.zip [v0, v1, v2, v3, v4, -v5, -v6, -v7] := by
      unfold ZoneText.data lazText lazRows
      rw [hrows]
      simp [double_get, show (2 * m + k) / 2 = m from by omega, h0, h1, h2, h3, h4, h5, h6, h7]
    show (((List.range (Lazurit.links b.I b.J).length).map ((lazText name b).data lazuritVars)).zip (Lazurit.links b.I b.J))[2 * m + k]? = _
    rw [List.getElem?_zip_eq_some]
    refine ⟨?_, ?_⟩
    · rw [List.getElem?_map, List.getElem?_range hx, Option.map_some, hd]
    · rw [hm, links_get b i j hi hj k hk, hc]
  · rw [hrows, ← hm]
    simp [h0, h1, h2, h3, h4, h5, h6, h7]

theorem lazHead : Lazurit.headLines = "# EXPORT_MODE=CHECK_POINT\n".toList :: ("TITLE=\"".toList ++ "FE Surface Data ASCII".toList ++ "\"\n".toList) ::
    ["VARIABLES=".toList ++ Py.join ", ".toList ((xyz ++ lazuritVars).map (fun v => ['"'] ++ v ++ ['"'])) ++ ['\n']] := by
  decide +kernel

theorem lazuritVars_plain : ∀ v ∈ xyz ++ lazuritVars, PlainVar v := by
  have : ∀ v ∈ xyz ++ lazuritVars, (v ≠ [] ∧ (∀ c ∈ v, Py.isWs c = false) ∧ '=' ∉ v ∧ '"' ∉ v ∧ ',' ∉ v) := by decide +kernel
  exact this

theorem lex_ne {s t : Str} (h : List.Lex (fun a b => a.toNat < b.toNat) s t) : s ≠ t := by
  intro e
  subst e
  induction s with
  | nil => cases h
  | cons a s ih =>
    cases h with
    | cons h => exact ih h
    | rel h => omega

section
variable [Neg F]

theorem lazFiles_sorted {c : Codec F} {es : List (LazEntry F)} {dir : List (Str × Str)} (hd : LazDir c es dir) :
    Lazurit.sortNames ((dir.map Prod.fst).filter (fun fn => Py.contains ".TEC".toList fn)) =
      es.map (fun e => "TEC_WALL_Grid_".toList ++ e.suffix) ++ es.map (fun e => "TEC_WALL_Solution_".toList ++ e.suffix) := by
  obtain ⟨other, ho, hp⟩ := hd.files
  have hs : ∀ e ∈ es, ∀ p : Str, Py.contains ".TEC".toList (p ++ e.suffix) = true := by
    intro e he p
    obtain ⟨pre, t, hs, -, -⟩ := (hd.entries e he).suffix
    rw [contains_iff_infix, hs]
    exact ⟨p ++ (pre ++ e.name), [], by simp⟩
  apply sortNames_eq
  · refine ((hp.map Prod.fst).filter _).trans ?_
    rw [List.map_append, List.map_append, List.filter_append, List.filter_append, List.map_map, List.map_map]
    rw [List.filter_eq_self.mpr, List.filter_eq_self.mpr, List.filter_eq_nil_iff.mpr, List.append_nil]
    · exact List.Perm.refl _
    · intro s hs
      obtain ⟨p, hp, rfl⟩ := List.mem_map.mp hs
      rw [contains_iff_infix]
      exact ho p hp
    · intro s hx
      obtain ⟨e, he, rfl⟩ := List.mem_map.mp hx
      exact hs e he _
    · intro s hx
      obtain ⟨e, he, rfl⟩ := List.mem_map.mp hx
      exact hs e he _
  · have hsort := hd.sorted
    rw [List.pairwise_map] at hsort
    rw [List.pairwise_append, List.pairwise_map, List.pairwise_map]
    refine ⟨hsort.imp ?_, hsort.imp ?_, ?_⟩
    · intro a b h; rw [leStr_prefix]; exact leStr_of_lex h
    · intro a b h; rw [leStr_prefix]; exact leStr_of_lex h
    · intro s hs t ht
      obtain ⟨e, -, rfl⟩ := List.mem_map.mp hs
      obtain ⟨e', -, rfl⟩ := List.mem_map.mp ht
      rw [show "TEC_WALL_Grid_".toList ++ e.suffix = "TEC_WALL_".toList ++ ("Grid_".toList ++ e.suffix) from by simp,
        show "TEC_WALL_Solution_".toList ++ e'.suffix = "TEC_WALL_".toList ++ ("Solution_".toList ++ e'.suffix) from by simp, leStr_prefix]
      simp [Lazurit.leStr]

theorem laz_suffix_inj {c : Codec F} {es : List (LazEntry F)} {dir : List (Str × Str)} (hd : LazDir c es dir) {e e' : LazEntry F}
    (h : e ∈ es) (h' : e' ∈ es) (hs : e.suffix = e'.suffix) : e = e' := by
  have hn : (es.map LazEntry.suffix).Nodup := hd.sorted.imp (fun h => lex_ne h)
  exact List.inj_on_of_nodup_map hn h h' hs

theorem lazGrid_get {c : Codec F} {es : List (LazEntry F)} {dir : List (Str × Str)} (hd : LazDir c es dir) {e : LazEntry F} (he : e ∈ es) :
    Py.dictGet? dir ("TEC_WALL_Grid_".toList ++ e.suffix) = some e.grid := by
  obtain ⟨other, ho, hp⟩ := hd.files
  apply dictGet?_unique
  · rw [hp.mem_iff]
    simp only [List.mem_append, List.mem_map]
    exact .inl (.inl ⟨e, he, rfl⟩)
  · intro w hw
    rw [hp.mem_iff] at hw
    simp only [List.mem_append, List.mem_map] at hw
    rcases hw with (⟨e', he', h⟩ | ⟨e', he', h⟩) | h
    · have h1 := congrArg Prod.fst h
      have h2 := congrArg Prod.snd h
      rw [laz_suffix_inj hd he he' (List.append_cancel_left h1).symm]
      exact h2.symm
    · have h1 := congrArg Prod.fst h
      simp at h1
    · refine absurd ?_ (ho _ h)
      obtain ⟨pre, t, hs, -, -⟩ := (hd.entries e he).suffix
      exact ⟨"TEC_WALL_Grid_".toList ++ (pre ++ e.name), [], by rw [hs]; simp⟩

theorem lazSolution_get {c : Codec F} {es : List (LazEntry F)} {dir : List (Str × Str)} (hd : LazDir c es dir) {e : LazEntry F} (he : e ∈ es) :
    Py.dictGet? dir ("TEC_WALL_Solution_".toList ++ e.suffix) = some e.solution := by
  obtain ⟨other, ho, hp⟩ := hd.files
  apply dictGet?_unique
  · rw [hp.mem_iff]
    simp only [List.mem_append, List.mem_map]
    exact .inl (.inr ⟨e, he, rfl⟩)
  · intro w hw
    rw [hp.mem_iff] at hw
    simp only [List.mem_append, List.mem_map] at hw
    rcases hw with (⟨e', he', h⟩ | ⟨e', he', h⟩) | h
    · have h1 := congrArg Prod.fst h
      simp at h1
    · have h1 := congrArg Prod.fst h
      have h2 := congrArg Prod.snd h
      rw [laz_suffix_inj hd he he' (List.append_cancel_left h1).symm]
      exact h2.symm
    · refine absurd ?_ (ho _ h)
      obtain ⟨pre, t, hs, -, -⟩ := (hd.entries e he).suffix
      exact ⟨"TEC_WALL_Solution_".toList ++ (pre ++ e.name), [], by rw [hs]; simp⟩

/-- The lines of one pair of files. -/
def PairRaw (c : Codec F) (e : LazEntry F) (r : RawZone) : Prop :=
  r.Reads c (lazText e.name e.block) ∧
    Py.IsLine r.lx ∧ Py.IsLine r.ly ∧ Py.IsLine r.lz ∧ (∀ l ∈ r.rows, Py.IsLine l) ∧ ∀ l ∈ r.conns, Py.IsLine l

theorem pairLines_eq {c : Codec F} {es : List (LazEntry F)} {dir : List (Str × Str)} (hd : LazDir c es dir) (fi : Nat)
    (e : LazEntry F) (he : es[fi]? = some e) :
    Lazurit.pairLines c dir (es.map (fun e => "TEC_WALL_Grid_".toList ++ e.suffix) ++
      es.map (fun e => "TEC_WALL_Solution_".toList ++ e.suffix)) fi =
        Lazurit.blockLines c e.name (Py.readlines e.grid) (Py.readlines e.solution) := by
  have hm : e ∈ es := List.mem_of_getElem? he
  have hlt := (List.getElem?_eq_some_iff.mp he).1
  unfold Lazurit.pairLines
  have hlen : (es.map (fun e => "TEC_WALL_Grid_".toList ++ e.suffix) ++
      es.map (fun e => "TEC_WALL_Solution_".toList ++ e.suffix)).length / 2 = es.length := by
    rw [List.length_append, List.length_map, List.length_map]; omega
  rw [hlen, get_ofNat, List.getElem?_append_left (by simpa using hlt), List.getElem?_map, he]
  simp only [Option.map_some, res_bind_ok]
  rw [get_ofNat, List.getElem?_append_right (by simp), List.getElem?_map]
  simp only [List.length_map, Nat.add_sub_cancel]
  rw [he]
  simp only [Option.map_some, res_bind_ok]
  have s1 : ∀ (p s : Str), Py.slice (p ++ s) none (some (p.length : Int)) = p := by
    intro p s
    have := slice_nat (p ++ s) 0 p.length
    rw [show Py.slice (p ++ s) none (some (p.length : Int)) = Py.slice (p ++ s) (some ((0 : Nat) : Int)) (some (p.length : Int)) from rfl,
      this]
    simp
  have s2 : ∀ (p s : Str), Py.slice (p ++ s) (some (p.length : Int)) none = s := by
    intro p s
    unfold Py.slice Py.bound
    simp only
    rw [if_neg (by omega)]
    simp
  have a1 := s1 "TEC_WALL_Grid_".toList e.suffix
  have a2 := s1 "TEC_WALL_Solution_".toList e.suffix
  have a3 := s2 "TEC_WALL_Grid_".toList e.suffix
  have a4 := s2 "TEC_WALL_Solution_".toList e.suffix
  rw [show (("TEC_WALL_Grid_".toList.length : Nat) : Int) = 14 from by decide] at a1 a3
  rw [show (("TEC_WALL_Solution_".toList.length : Nat) : Int) = 18 from by decide] at a2 a4
  rw [a1, a2, a3, a4, lazGrid_get hd hm, lazSolution_get hd hm, blockName_ok (hd.entries e hm)]
  rw [if_neg (by simp), if_neg (by simp), if_neg (by simp)]

theorem pairLines_ok {c : Codec F} (hc : c.Lawful) {es : List (LazEntry F)} {dir : List (Str × Str)} (hd : LazDir c es dir) (fi : Nat)
    (e : LazEntry F) (he : es[fi]? = some e) :
    ∃ r, Lazurit.pairLines c dir (es.map (fun e => "TEC_WALL_Grid_".toList ++ e.suffix) ++
      es.map (fun e => "TEC_WALL_Solution_".toList ++ e.suffix)) fi = .ok (r.lines 11 (lazText e.name e.block)) ∧ PairRaw c e r := by
  have hm : e ∈ es := List.mem_of_getElem? he
  obtain ⟨r, hr, hr'⟩ := blockLines_ok hc e.name (hd.entries e hm).block (hd.entries e hm).files
  exact ⟨r, (pairLines_eq hd fi e he).trans hr, hr'⟩

theorem pairs_ok {c : Codec F} (hc : c.Lawful) {es : List (LazEntry F)} {dir : List (Str × Str)} (hd : LazDir c es dir) :
    ∃ rs : List RawZone, (List.range es.length).mapM (Lazurit.pairLines c dir (es.map (fun e => "TEC_WALL_Grid_".toList ++ e.suffix) ++
      es.map (fun e => "TEC_WALL_Solution_".toList ++ e.suffix))) =
        .ok ((rs.zip es).map (fun p => p.1.lines 11 (lazText p.2.name p.2.block))) ∧ rs.length = es.length ∧
      ∀ p ∈ rs.zip es, PairRaw c p.2 p.1 := by
  haveI : Inhabited RawZone := ⟨⟨[], [], [], [], []⟩⟩
  choose! r h1 h2 using (fun (e : LazEntry F) (fi : Nat) (he : es[fi]? = some e) => pairLines_ok hc hd fi e he)
  refine ⟨es.mapIdx (fun i e => r e i), ?_, by simp, ?_⟩
  · apply mapM_of_forall₂
    rw [List.forall₂_iff_get]
    refine ⟨by simp, ?_⟩
    intro i hi1 hi2
    have hi : i < es.length := by simpa using hi1
    have := h1 es[i] i (List.getElem?_eq_getElem hi)
    simpa using this
  · intro p hp
    obtain ⟨i, hi, rfl⟩ := List.getElem_of_mem hp
    have hi' : i < es.length := by simp at hi; exact hi
    have := h2 es[i] i (List.getElem?_eq_getElem hi')
    simpa using this

/-- The text does not depend on the order in which the files are listed. -/
theorem writeText_eq {c : Codec F} {es : List (LazEntry F)} {dir : List (Str × Str)} (hd : LazDir c es dir) :
    Lazurit.writeText c dir = (do
      let ls ← es.mapM (fun e => Lazurit.blockLines c e.name (Py.readlines e.grid) (Py.readlines e.solution))
      .ok (Lazurit.headLines ++ ls.flatten).flatten) := by
  unfold Lazurit.writeText
  rw [lazFiles_sorted hd]
  simp only
  have hlen : (es.map (fun e => "TEC_WALL_Grid_".toList ++ e.suffix) ++
      es.map (fun e => "TEC_WALL_Solution_".toList ++ e.suffix)).length = 2 * es.length := by
    rw [List.length_append, List.length_map, List.length_map]; omega
  rw [hlen, if_neg (by omega), show 2 * es.length / 2 = es.length from by omega]
  congr 1
  have key : ∀ (f : Nat → Res (List Str)) (h : LazEntry F → Res (List Str)) (l : List (LazEntry F)) (k : Nat),
      (∀ i e, l[i]? = some e → f (k + i) = h e) → (List.range' k l.length).mapM f = l.mapM h := by
    intro f h l
    induction l with
    | nil => intro k _; rfl
    | cons a l ih =>
      intro k hk
      rw [List.length_cons, List.range'_succ, List.mapM_cons, List.mapM_cons, show f k = h a from hk 0 a rfl,
        ih (k + 1) (fun i e he => by rw [show k + 1 + i = k + (i + 1) from by omega]; exact hk (i + 1) e (by simpa using he))]
  rw [List.range_eq_range']
  apply key
  intro i e he
  rw [Nat.zero_add]
  exact pairLines_eq hd i e he

/-- What the grid reader gets from the written text. -/
theorem writeText_ok {c : Codec F} (hc : c.Lawful) {es : List (LazEntry F)} {dir : List (Str × Str)} (hd : LazDir c es dir) :
    ∃ t, Lazurit.writeText c dir = .ok t ∧
      ReadsBlocks c t "FE Surface Data ASCII".toList (es.map (fun e => (lazText e.name e.block).block lazuritVars)) := by
  obtain ⟨rs, h1, h2, h3⟩ := pairs_ok hc hd
  unfold Lazurit.writeText
  rw [lazFiles_sorted hd]
  simp only
  have hlen : (es.map (fun e => "TEC_WALL_Grid_".toList ++ e.suffix) ++
      es.map (fun e => "TEC_WALL_Solution_".toList ++ e.suffix)).length = 2 * es.length := by
    rw [List.length_append, List.length_map, List.length_map]; omega
  rw [hlen, if_neg (by omega), show 2 * es.length / 2 = es.length from by omega, h1, res_bind_ok]
  refine ⟨_, rfl, ?_⟩
  obtain ⟨zs, hzs⟩ : ∃ zs : List (RawZone × ZoneText F), zs = (rs.zip es).map (fun p => (p.1, lazText p.2.name p.2.block)) := ⟨_, rfl⟩
  have hfl : ((rs.zip es).map (fun p => p.1.lines 11 (lazText p.2.name p.2.block))).flatten = zs.flatMap (fun z => z.1.lines 11 z.2) := by
    rw [hzs, List.flatMap_map, List.flatMap_def]
  have hmem : ∀ p ∈ rs.zip es, p.2 ∈ es := fun p hp => (List.of_mem_zip hp).2
  have hread : Py.readlines (Lazurit.headLines ++ zs.flatMap (fun z => z.1.lines 11 z.2)).flatten =
      Lazurit.headLines ++ zs.flatMap (fun z => z.1.lines 11 z.2) := by
    apply Py.readlines_flatten
    intro l hl
    rcases List.mem_append.mp hl with hl | hl
    · have h0 : ∀ l ∈ Lazurit.headLines, l = l.dropLast ++ ['\n'] ∧ '\n' ∉ l.dropLast ∧ '\r' ∉ l.dropLast := by decide +kernel
      obtain ⟨e1, e2, e3⟩ := h0 l hl
      exact ⟨l.dropLast, e1, e2, e3⟩
    · obtain ⟨z, hz, hl⟩ := List.mem_flatMap.mp hl
      rw [hzs] at hz
      obtain ⟨p, hp, rfl⟩ := List.mem_map.mp hz
      exact raw_isLine 11 _ _ (hd.entries _ (hmem p hp)).name (h3 p hp).2 l hl
  intro nm
  refine ⟨xyz ++ lazuritVars, ?_⟩
  rw [hfl, hread]
  obtain ⟨body, hbody⟩ : ∃ body, body = zs.flatMap (fun z => z.1.lines 11 z.2) := ⟨_, rfl⟩
  rw [← hbody, lazHead]
  rw [show ∀ a b c : Str, ((a :: b :: [c]) ++ body).length = body.length + 1 + 1 + 1 from fun _ _ _ => by simp,
    List.cons_append, List.cons_append, List.cons_append, List.nil_append]
  rw [parseFile, if_pos (by decide), parseFile_title _ _ _ (by
    have : '=' ∉ "FE Surface Data ASCII".toList ∧ '\n' ∉ "FE Surface Data ASCII".toList ∧ '\r' ∉ "FE Surface Data ASCII".toList := by
      decide +kernel
    exact this), parseFile_vars _ _ _ lazuritVars_plain, hbody]
  have := parseFile_raws (c := c) zs ⟨"FE Surface Data ASCII".toList, xyz ++ lazuritVars, []⟩ (by
      intro z hz
      rw [hzs] at hz
      obtain ⟨p, hp, rfl⟩ := List.mem_map.mp hz
      exact ⟨by simpa [xyz] using lazText_ok (hd.entries _ (hmem p hp)).name (hd.entries _ (hmem p hp)).block, (h3 p hp).1⟩)
    (by simp only [xyz]; decide +kernel) _ (raws_length 11 _)
  simp only [show (xyz ++ lazuritVars).length = 11 from rfl] at this
  rw [this]
  congr 2
  rw [hzs, List.nil_append, List.map_map]
  apply List.ext_getElem
  · simp [h2]
  · intro i hi1 hi2
    simp [xyz]

end

end Verif
