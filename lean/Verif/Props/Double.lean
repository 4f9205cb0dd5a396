import Verif.Proofs.DoubleKey
import Verif.Proofs.DoubleRound
import Verif.Proofs.SciText
import Verif.Proofs.RawText
import Verif.Props.Load
import Verif.Props.Text
import Verif.Props.Cry

/-! Properties C119 - C121: floats in files and keys of nodes. -/

namespace Verif.Props
open Verif Grid

/-! ## C119 Floats survive files -/

/-- Every float, with both zeros, infinities and NaN, is read back from the text written for it. -/
theorem C119_read_back (x : Double) : Py.float (Double.sci 18 x) = .ok x := Double.roundtrip (by omega) x

/-- Seventeen digits are enough. -/
theorem C119_digits {k : Nat} (hk : 16 ≤ k) (x : Double) : Py.float (Double.sci k x) = .ok x := Double.roundtrip hk x

/-- Sixteen digits are not. -/
theorem C119_sixteen_violation : ∃ x y : Double, x ≠ y ∧ Double.sci 15 x = Double.sci 15 y := by
  exact ⟨.num false ⟨1023 * 2 ^ 52, by decide⟩, .num false ⟨1023 * 2 ^ 52 + 1, by decide⟩, by decide, by decide +kernel⟩

/-- The text of a float is a word, so everything proved for the texts of numbers in files holds for floats. -/
theorem C119_lawful : floatCodec.Lawful := Double.floatCodec_lawful

/-- What is read from `±i.f` or `±i.fe±d` is a float nearest to this number, if the result is finite. -/
theorem C119_nearest {neg : Bool} {i f k : Nat} {e : Int} (hk : 0 < k) (hf : f < 10 ^ k) {x : Double} {v : ℚ}
    (h : Py.float ((if neg then ['-'] else []) ++ Py.natStr i ++ ['.'] ++ Py.natStrPad k f ++ ['e'] ++ Py.intStr e) = .ok x) (hv : x.val? = some v)
    {y : Double} {w : ℚ} (hw : y.val? = some w) :
    |v - (if neg then -1 else 1) * (i + f / 10 ^ k) * 10 ^ e| ≤ |w - (if neg then -1 else 1) * (i + f / 10 ^ k) * 10 ^ e| := by
  rw [Double.float_sci_text hk hf] at h
  injection h with h
  have hr : (0 : ℚ) ≤ (i + f / 10 ^ k) * 10 ^ e := mul_nonneg (by positivity) (zpow_nonneg (by norm_num) _)
  rw [mul_assoc, ← mul_comm (10 ^ e : ℚ), mul_comm (10 ^ e : ℚ)]
  exact Double.ofMag_nearest hr h hv hw

/-- The text of a finite float: a sign if it is negative, one digit, a point, 18 digits, and an exponent. -/
theorem C119_text (neg : Bool) (b : Fin (2047 * 2 ^ 52)) {v : ℚ} (hv : (Double.num neg b).val? = some v) :
    ∃ t, Double.sci 18 (.num neg b) = (if neg then ['-'] else []) ++ t ∧ SciText 18 |v| t := by
  injection hv with hv
  refine ⟨_, rfl, ?_⟩
  have e : |v| = Double.mag b := by
    rw [← hv]
    cases neg
    · exact abs_of_nonneg (Double.mag_nonneg b)
    · rw [if_pos rfl, abs_neg, abs_of_nonneg (Double.mag_nonneg b)]
  rw [e]
  exact Double.sciText_is (Double.mag_nonneg b) 18

/-- Every text of a number is read, as the float to which the number is rounded. -/
theorem C119_number {s : Str} {neg : Bool} {r : ℚ} (h : NumberText s neg r) : ∃ x, Py.float s = .ok x ∧ RoundsTo neg r x :=
  ⟨_, Py.float_number h, Double.ofMag_rounds (Py.number_nonneg h)⟩

/-- The names of infinity and of NaN are read. -/
theorem C119_name {s : Str} {neg : Bool} : (NameText ["inf", "infinity"] s neg → Py.float s = .ok (.inf neg)) ∧
    (NameText ["nan"] s neg → Py.float s = .ok .nan) := by
  refine ⟨fun h => ?_, fun h => ?_⟩
  · rw [Py.float_name (.inl rfl) h, if_neg (by decide)]
  · rw [Py.float_name (.inr rfl) h, if_pos rfl]

/-- Nothing else is read: everything else raises `ValueError`. -/
theorem C119_only (s : Str) : (∃ neg r x, NumberText s neg r ∧ RoundsTo neg r x ∧ Py.float s = .ok x) ∨
    (∃ neg, NameText ["inf", "infinity"] s neg ∧ Py.float s = .ok (.inf neg)) ∨ (∃ neg, NameText ["nan"] s neg ∧ Py.float s = .ok .nan) ∨
    Py.float s = .error .value := by
  cases h : Py.float s with
  | error e => rw [Py.float_err h]; simp
  | ok x =>
    rcases Py.float_inv h with ⟨neg, r, h1, rfl⟩ | ⟨neg, h1, rfl⟩ | ⟨neg, h1, rfl⟩
    · exact .inl ⟨neg, r, _, h1, Double.ofMag_rounds (Py.number_nonneg h1), rfl⟩
    · exact .inr (.inl ⟨neg, h1, rfl⟩)
    · exact .inr (.inr (.inl ⟨neg, h1, rfl⟩))

/-- `" -1_0.5E+1\n"` is a text of -105. -/
example : NumberText " -1_0.5E+1\n".toList true 105 := by
  have d : ∀ d < 10, Digit (Char.ofNat (48 + d)) d := fun d h => ⟨h, rfl⟩
  refine ⟨"1_0.5".toList, "E+1".toList, 10 + 5 / 10 ^ 1, 1, ⟨[' '], ['\n'], ['-'], by decide, by decide, by decide, rfl⟩, ?_, ?_, by norm_num⟩
  · exact Mantissa.both (.skip (.one (d 1 (by omega))) (d 0 (by omega))) (.one (d 5 (by omega)))
  · exact Exponent.pos (t := ['+']) (.inr rfl) (.inr rfl) (.one (d 1 (by omega)))

example : Py.float " -1_0.5E+1\n".toList = .ok (Double.ofMag true 105) ∧ Py.float "1__0".toList = .error .value ∧
    Py.float "- 1".toList = .error .value ∧ Py.float "".toList = .error .value ∧ Py.float ".".toList = .error .value ∧
    Py.float ".5".toList = Py.float "0.5".toList ∧ Py.float "-Infinity".toList = .ok (.inf true) := by
  decide +kernel

/-- A grid of floats with at least one face is loaded as it was stored, if no two nodes agree in the first ten digits of their coordinates. -/
theorem C119_stored (dflt : Double) (g : Grid Double (Double × Double × Double)) (hg : Storable g) (hv : SameVars g) (merge : Bool)
    (P : Nat → Vec ℚ) (hP : ∀ n ∈ g.nodes, (g.nP n).Is (P n))
    (hk : ∀ n ∈ g.nodes, ∀ m ∈ g.nodes, SameDecimals 10 (P n).x (P m).x → SameDecimals 10 (P n).y (P m).y → SameDecimals 10 (P n).z (P m).z → n = m) :
    ∃ text, g.storeText floatCodec dflt = .ok text ∧ ∀ g1 : Grid Double (Double × Double × Double), ∃ g',
      loadText Double.roundedCoords floatCodec merge g1 text = .ok g' ∧ g'.name = g.name ∧
      List.Forall₂ (fun z z' => g'.zName z' = g.zName z ∧ List.Forall₂ (fun f f' => g'.fData f' = g.fData f ∧
        (g'.fNodes f').map g'.nP = (g.fNodes f).map g.nP) (g.zFaces z) (g'.zFaces z')) g.zones g'.zones := by
  have key : ∀ n ∈ g.nodes, ∀ m ∈ g.nodes, Double.roundedCoords (g.nP n) = Double.roundedCoords (g.nP m) → n = m := by
    intro n hn m hm h
    obtain ⟨n1, n2, n3⟩ := hP n hn
    obtain ⟨m1, m2, m3⟩ := hP m hm
    simp only [Double.roundedCoords, Prod.mk.injEq] at h
    exact hk n hn m hm ((Double.key_iff n1 m1).1 h.1) ((Double.key_iff n2 m2).1 h.2.1) ((Double.key_iff n3 m3).1 h.2.2)
  refine C22_roundtrip floatCodec C119_lawful dflt Double.roundedCoords merge g hg hv ?_
  unfold KeysApart
  split
  · exact key
  · intro z hz n hn m hm
    rw [hg.lists.nodes z hz] at hn hm
    exact key n (List.mem_filter.1 hn).1 m (List.mem_filter.1 hm).1

/-- The float 1. -/
def fOne : Double := .num false ⟨1023 * 2 ^ 52, by decide⟩

/-- The float 0. -/
def fZero : Double := .num false ⟨0, by decide⟩

/-- Two triangles and a value for each of them. -/
def fBlocks : List (ZoneBlock Double) :=
  [ { name := "a".toList
      pts := [⟨fZero, fZero, fZero⟩, ⟨fOne, fZero, fZero⟩, ⟨fZero, fOne, fZero⟩]
      faces := [([("T".toList, .inf true)], [1, 2, 3])] },
    { name := "b".toList
      pts := [⟨fOne, fZero, fZero⟩, ⟨.num true ⟨0, by decide⟩, fOne, fZero⟩, ⟨fOne, fOne, fZero⟩]
      faces := [([("T".toList, .num true ⟨1, by decide⟩)], [1, 3, 2])] } ]

/-- The grid loaded from them. -/
@[irreducible] def fGrid : Grid Double (Double × Double × Double) :=
  match loadBlocks Double.roundedCoords true Grid.empty fBlocks with
  | .ok g => g
  | .error _ => Grid.empty

theorem fGrid_load : loadBlocks Double.roundedCoords true Grid.empty fBlocks = .ok fGrid := by
  have h : ∃ g, loadBlocks Double.roundedCoords true Grid.empty fBlocks = .ok g := by
    have : (loadBlocks Double.roundedCoords true Grid.empty fBlocks).isOk = true := by decide +kernel
    cases h : loadBlocks Double.roundedCoords true Grid.empty fBlocks with
    | ok g => exact ⟨g, rfl⟩
    | error e => rw [h] at this; cases this
  obtain ⟨g, hg⟩ := h
  unfold fGrid
  rw [hg]

theorem fGrid_storable : Storable fGrid := by
  have hv : ∀ b ∈ fBlocks, b.Valid := by unfold ZoneBlock.Valid; decide +kernel
  have hd : NonDegenerate Double.roundedCoords true fBlocks := by unfold NonDegenerate; decide +kernel
  rcases load_spec Double.roundedCoords true Grid.empty fBlocks hv hd (by intro h; cases h) with ⟨_, h⟩ | ⟨_, g, h2, h3⟩
  · rw [fGrid_load] at h; cases h
  · rw [fGrid_load] at h2
    obtain rfl := Except.ok.inj h2
    refine ⟨⟨h3.mesh, h3.zones, h3.alloc⟩, h3.lists, h3.glo.perm, ?_, ?_, ?_, ?_, ?_⟩
    · unfold fGrid; decide +kernel
    · unfold fGrid; decide +kernel
    · unfold fGrid; decide +kernel
    · unfold fGrid; decide +kernel
    · unfold fGrid; decide +kernel

/-- The hypotheses of `C119_stored` are met: the coordinates of the nodes are finite and differ. -/
example : Storable fGrid ∧ SameVars fGrid ∧ ∃ P : Nat → Vec ℚ, (∀ n ∈ fGrid.nodes, (fGrid.nP n).Is (P n)) ∧
    ∀ n ∈ fGrid.nodes, ∀ m ∈ fGrid.nodes, SameDecimals 10 (P n).x (P m).x → SameDecimals 10 (P n).y (P m).y → SameDecimals 10 (P n).z (P m).z → n = m := by
  have hP : ∀ n ∈ fGrid.nodes, (fGrid.nP n).Is ⟨((fGrid.nP n).x.val?).getD 0, ((fGrid.nP n).y.val?).getD 0, ((fGrid.nP n).z.val?).getD 0⟩ := by
    unfold Vec.Is fGrid
    decide +kernel
  refine ⟨fGrid_storable, by unfold SameVars fGrid; decide +kernel, _, hP, fun n hn m hm h1 h2 h3 => ?_⟩
  have hk : Double.roundedCoords (fGrid.nP n) = Double.roundedCoords (fGrid.nP m) := by
    obtain ⟨n1, n2, n3⟩ := hP n hn
    obtain ⟨m1, m2, m3⟩ := hP m hm
    simp only [Double.roundedCoords, Prod.mk.injEq]
    exact ⟨(Double.key_iff n1 m1).2 h1, (Double.key_iff n2 m2).2 h2, (Double.key_iff n3 m3).2 h3⟩
  have : ∀ n ∈ fGrid.nodes, ∀ m ∈ fGrid.nodes, Double.roundedCoords (fGrid.nP n) = Double.roundedCoords (fGrid.nP m) → n = m := by
    unfold fGrid
    decide +kernel
  exact this n hn m hm hk

/-- The point of negative zero is a corner of both faces: four nodes are left. -/
example : fGrid.nodes.length = 4 ∧ fGrid.faces.length = 2 ∧ SameVars fGrid := by
  unfold SameVars fGrid
  decide +kernel

example : Double.sci 18 fOne = "1.000000000000000000e+00".toList ∧ Double.sci 18 (.num true ⟨1, by decide⟩) = "-4.940656458412465442e-324".toList := by
  decide +kernel

/-! ## C120 Which nodes are merged -/

/-- `round(x, 10)` is the float for the decimal fraction with ten digits that is nearest to `x`. -/
theorem C120_round (neg : Bool) (b : Fin (2047 * 2 ^ 52)) {v : ℚ} (hv : (Double.num neg b).val? = some v) :
    ∃ m : Nat, NearestEven (|v| * 10 ^ 10) m ∧ RoundsTo neg (m / 10 ^ 10) (Double.round 10 (.num neg b)) := by
  injection hv with hv
  have e : |v| = Double.mag b := by
    rw [← hv]
    cases neg
    · exact abs_of_nonneg (Double.mag_nonneg b)
    · rw [if_pos rfl, abs_neg, abs_of_nonneg (Double.mag_nonneg b)]
  rw [e]
  exact ⟨_, Double.rne_even (mul_nonneg (Double.mag_nonneg b) (by positivity)), Double.ofMag_rounds (by positivity)⟩

theorem same_key_iff {p q : Vec Double} {P Q : Vec ℚ} (hp : p.Is P) (hq : q.Is Q) :
    Double.roundedCoords p = Double.roundedCoords q ↔ SameDecimals 10 P.x Q.x ∧ SameDecimals 10 P.y Q.y ∧ SameDecimals 10 P.z Q.z := by
  obtain ⟨n1, n2, n3⟩ := hp
  obtain ⟨m1, m2, m3⟩ := hq
  simp only [Double.roundedCoords, Prod.mk.injEq]
  rw [Double.key_iff n1 m1, Double.key_iff n2 m2, Double.key_iff n3 m3]

/-- Two points of a file become one node exactly when all their coordinates agree after rounding to ten digits: the rounding of the results to floats
changes nothing. (A node `n` stands for `p` when it has the rounded coordinates of `p`; there is one such node.) The full claim, that points within
`10 ^ -10` of each other become one node, is false: `C120_close_violation`. -/
theorem C120_merged_partial (g g' : Grid Double (Double × Double × Double)) (blocks : List (ZoneBlock Double))
    (h : loadBlocks Double.roundedCoords true g blocks = .ok g') :
    ∃ node : Vec Double → Nat, (∀ b ∈ blocks, ∀ p ∈ b.pts, node p ∈ g'.nodes ∧ Double.roundedCoords (g'.nP (node p)) = Double.roundedCoords p ∧
      ∀ m ∈ g'.nodes, Double.roundedCoords (g'.nP m) = Double.roundedCoords p → m = node p) ∧
    ∀ b ∈ blocks, ∀ p ∈ b.pts, ∀ b' ∈ blocks, ∀ q ∈ b'.pts, ∀ P Q, p.Is P → q.Is Q →
      (node p = node q ↔ SameDecimals 10 P.x Q.x ∧ SameDecimals 10 P.y Q.y ∧ SameDecimals 10 P.z Q.z) := by
  have hc := (C03_corners Double.roundedCoords true g g' blocks h).2.1
  have hnd := C03_merged_keys Double.roundedCoords g g' blocks h
  have hex : ∀ p : Vec Double, ∃ n, (∃ b ∈ blocks, p ∈ b.pts) → n ∈ g'.nodes ∧ Double.roundedCoords (g'.nP n) = Double.roundedCoords p := by
    intro p
    by_cases hp : ∃ b ∈ blocks, p ∈ b.pts
    · obtain ⟨b, hb, hp⟩ := hp
      obtain ⟨n, hn, hk⟩ := hc b hb p hp
      exact ⟨n, fun _ => ⟨hn, hk⟩⟩
    · exact ⟨0, fun h => absurd h hp⟩
  choose node hnode using hex
  refine ⟨node, ?_, ?_⟩
  · intro b hb p hp
    obtain ⟨h1, h2⟩ := hnode p ⟨b, hb, hp⟩
    exact ⟨h1, h2, fun m hm hk => List.inj_on_of_nodup_map hnd hm h1 (hk.trans h2.symm)⟩
  · intro b hb p hp b' hb' q hq P Q hP hQ
    obtain ⟨h1, h2⟩ := hnode p ⟨b, hb, hp⟩
    obtain ⟨h3, h4⟩ := hnode q ⟨b', hb', hq⟩
    rw [← same_key_iff hP hQ, ← h2, ← h4]
    constructor
    · intro h; rw [h]
    · intro h; exact List.inj_on_of_nodup_map hnd h1 h3 h

/-- After loading with merging, the node that stands for a point of the file is within `10 ^ -10` of the point in every coordinate. -/
theorem C120_moved_partial (g g' : Grid Double (Double × Double × Double)) (blocks : List (ZoneBlock Double))
    (h : loadBlocks Double.roundedCoords true g blocks = .ok g') {b : ZoneBlock Double} (hb : b ∈ blocks) {p : Vec Double} (hp : p ∈ b.pts)
    {Q : Vec ℚ} (hQ : p.Is Q) : ∃ n ∈ g'.nodes, Double.roundedCoords (g'.nP n) = Double.roundedCoords p ∧
      ∀ P, (g'.nP n).Is P → P.Near (1 / 10 ^ 10) Q := by
  obtain ⟨n, hn, hk⟩ := (C03_corners Double.roundedCoords true g g' blocks h).2.1 b hb p hp
  refine ⟨n, hn, hk, fun P hP => ?_⟩
  obtain ⟨s1, s2, s3⟩ := (same_key_iff hP hQ).1 hk
  exact ⟨Double.same_near s1, Double.same_near s2, Double.same_near s3⟩

/-- Points that differ by more than `10 ^ -10` in some coordinate become different nodes. -/
theorem C120_kept_partial (g g' : Grid Double (Double × Double × Double)) (blocks : List (ZoneBlock Double))
    (h : loadBlocks Double.roundedCoords true g blocks = .ok g') {b b' : ZoneBlock Double} (hb : b ∈ blocks) (hb' : b' ∈ blocks) {p q : Vec Double}
    (hp : p ∈ b.pts) (hq : q ∈ b'.pts) {P Q : Vec ℚ} (hP : p.Is P) (hQ : q.Is Q) (hf : ¬ P.Near (1 / 10 ^ 10) Q) :
    ∃ n ∈ g'.nodes, ∃ m ∈ g'.nodes, n ≠ m ∧ Double.roundedCoords (g'.nP n) = Double.roundedCoords p ∧
      Double.roundedCoords (g'.nP m) = Double.roundedCoords q := by
  obtain ⟨n, hn, hk⟩ := (C03_corners Double.roundedCoords true g g' blocks h).2.1 b hb p hp
  obtain ⟨m, hm, hk'⟩ := (C03_corners Double.roundedCoords true g g' blocks h).2.1 b' hb' q hq
  refine ⟨n, hn, m, hm, ?_, hk, hk'⟩
  rintro rfl
  obtain ⟨s1, s2, s3⟩ := (same_key_iff hP hQ).1 (hk.symm.trans hk')
  exact hf ⟨Double.same_near s1, Double.same_near s2, Double.same_near s3⟩

/-- The greatest float below `5 * 10 ^ -11` and the next one. -/
def fBelow : Double := .num false ⟨4452789957460213178, by decide⟩
def fAbove : Double := .num false ⟨4452789957460213179, by decide⟩

/-- Two points of a file that are next to each other stay different nodes. -/
def closeBlocks : List (ZoneBlock Double) :=
  [ { name := "a".toList, pts := [⟨fBelow, fZero, fZero⟩, ⟨fOne, fZero, fZero⟩, ⟨fZero, fOne, fZero⟩], faces := [([], [1, 2, 3])] },
    { name := "b".toList, pts := [⟨fAbove, fZero, fZero⟩, ⟨fOne, fZero, fZero⟩, ⟨fZero, fOne, fZero⟩], faces := [([], [1, 2, 3])] } ]

theorem C120_close_violation : ∃ (x y : Double) (r s : ℚ) (g' : Grid Double (Double × Double × Double)), x.val? = some r ∧ y.val? = some s ∧
    |r - s| ≤ 1 / 10 ^ 26 ∧ (closeBlocks.map (fun b => b.pts.take 1)) = [[⟨x, fZero, fZero⟩], [⟨y, fZero, fZero⟩]] ∧
    loadBlocks Double.roundedCoords true Grid.empty closeBlocks = .ok g' ∧ g'.nodes.length = 4 := by
  obtain ⟨g', hg, hn⟩ : ∃ g', loadBlocks Double.roundedCoords true Grid.empty closeBlocks = .ok g' ∧ g'.nodes.length = 4 := by
    have : ((loadBlocks Double.roundedCoords true Grid.empty closeBlocks).map (fun g => g.nodes.length)) = .ok 4 := by decide +kernel
    cases h : loadBlocks Double.roundedCoords true Grid.empty closeBlocks with
    | ok g => rw [h] at this; exact ⟨g, rfl, Except.ok.inj this⟩
    | error e => rw [h] at this; cases this
  exact ⟨fBelow, fAbove, _, _, g', rfl, rfl, by decide +kernel, rfl, hg, hn⟩

/-! ## C121 Six digits of the ANSYS converter -/

/-- The numbers of the file written by `Export` are read as numbers rounded to six digits; names, order and triangles stay. (The full claim, that the
numbers are read as they were, is false: `C121_lost_violation`.) -/
theorem C121_export_partial (merge : Bool) (g : Grid Double (Double × Double × Double)) (zs : List (Ansys.CZone Double))
    (hn : ∀ z ∈ zs, PlainName z.title) :
    Grid.loadText Double.roundedCoords floatCodec merge g (Ansys.exportText (Double.fixed 6) zs) =
      Grid.loadBlocks Double.roundedCoords merge g (zs.map (ansysBlock (Double.round 6))) :=
  loadText_export Double.roundedCoords (Double.fixed_word 6) (Double.float_fixed (by omega)) merge g zs hn

/-- The text of a finite float in this file: a sign if it is negative, a whole number, a point and six digits. -/
theorem C121_text (neg : Bool) (b : Fin (2047 * 2 ^ 52)) {v : ℚ} (hv : (Double.num neg b).val? = some v) :
    ∃ t, Double.fixed 6 (.num neg b) = (if neg then ['-'] else []) ++ t ∧ FixedText 6 |v| t := by
  injection hv with hv
  obtain ⟨s, h1, h2⟩ := Double.fixed_is 6 (by omega) neg b
  refine ⟨s, h1, ?_⟩
  have e : |v| = Double.mag b := by
    rw [← hv]
    cases neg
    · exact abs_of_nonneg (Double.mag_nonneg b)
    · rw [if_pos rfl, abs_neg, abs_of_nonneg (Double.mag_nonneg b)]
  rw [e]
  exact h2

/-- A number changes by no more than `10 ^ -6`. -/
theorem C121_error_partial {x : Double} {r : ℚ} (hx : x.val? = some r) :
    ∃ y s, Py.float (Double.fixed 6 x) = .ok y ∧ y.val? = some s ∧ |s - r| ≤ 1 / 10 ^ 6 := by
  obtain ⟨s, h1, h2⟩ := Double.round_val (k := 6) hx
  exact ⟨_, s, Double.float_fixed (by omega) x, h1, h2⟩

/-- Numbers that agree after rounding to six digits are read as the same number. -/
theorem C121_same {x y : Double} {r s : ℚ} (hx : x.val? = some r) (hy : y.val? = some s) (h : SameDecimals 6 r s) :
    ∃ x' y' t, Py.float (Double.fixed 6 x) = .ok x' ∧ Py.float (Double.fixed 6 y) = .ok y' ∧ x'.val? = some t ∧ y'.val? = some t := by
  obtain ⟨t, h1, -⟩ := Double.round_val (k := 6) hx
  exact ⟨_, _, t, Double.float_fixed (by omega) x, Double.float_fixed (by omega) y, h1, (Double.round_same hx hy h) ▸ h1⟩

/-- Points more than `2.1 * 10 ^ -6` apart in some coordinate stay different nodes. -/
theorem C121_apart_partial (g g' : Grid Double (Double × Double × Double)) (zs : List (Ansys.CZone Double)) (hn : ∀ z ∈ zs, PlainName z.title)
    (h : Grid.loadText Double.roundedCoords floatCodec true g (Ansys.exportText (Double.fixed 6) zs) = .ok g')
    {z z' : Ansys.CZone Double} (hz : z ∈ zs) (hz' : z' ∈ zs) {a a' : Ansys.CNode Double} (ha : a ∈ z.nodes) (ha' : a' ∈ z'.nodes) {P Q : Vec ℚ}
    (hP : a.p.Is P) (hQ : a'.p.Is Q) (hf : ¬ P.Near (21 / 10 ^ 7) Q) :
    ∃ n ∈ g'.nodes, ∃ m ∈ g'.nodes, n ≠ m ∧
      (∀ N, (g'.nP n).Is N → N.Near (11 / 10 ^ 7) P) ∧ ∀ M, (g'.nP m).Is M → M.Near (11 / 10 ^ 7) Q := by
  rw [C121_export_partial true g zs hn] at h
  have key : ∀ {z a}, z ∈ zs → a ∈ z.nodes → ∀ {P : Vec ℚ}, a.p.Is P → ∃ n ∈ g'.nodes, ∃ S : Vec ℚ, S.Near (1 / 10 ^ 6) P ∧
      (∀ N, (g'.nP n).Is N → N.Near (1 / 10 ^ 10) S) ∧
      Vec.Is ⟨Double.round 6 a.p.x, Double.round 6 a.p.y, Double.round 6 a.p.z⟩ S ∧
      Double.roundedCoords (g'.nP n) = Double.roundedCoords ⟨Double.round 6 a.p.x, Double.round 6 a.p.y, Double.round 6 a.p.z⟩ := by
    intro z a hz ha P hP
    obtain ⟨s1, e1, d1⟩ := Double.round_val (k := 6) hP.1
    obtain ⟨s2, e2, d2⟩ := Double.round_val (k := 6) hP.2.1
    obtain ⟨s3, e3, d3⟩ := Double.round_val (k := 6) hP.2.2
    have hI : Vec.Is ⟨Double.round 6 a.p.x, Double.round 6 a.p.y, Double.round 6 a.p.z⟩ ⟨s1, s2, s3⟩ := ⟨e1, e2, e3⟩
    obtain ⟨n, hn, hk, hm⟩ := C120_moved_partial g g' _ h (List.mem_map.2 ⟨z, hz, rfl⟩)
      (show (⟨Double.round 6 a.p.x, Double.round 6 a.p.y, Double.round 6 a.p.z⟩ : Vec Double) ∈ (ansysBlock (Double.round 6) z).pts from
        List.mem_map.2 ⟨a, ha, rfl⟩) hI
    exact ⟨n, hn, ⟨s1, s2, s3⟩, ⟨d1, d2, d3⟩, hm, hI, hk⟩
  obtain ⟨n, hn, S, hS, hN, hI, hk⟩ := key hz ha hP
  obtain ⟨m, hm, T, hT, hM, hJ, hk'⟩ := key hz' ha' hQ
  have tri : ∀ {u v w : ℚ} {a b c : ℚ}, |u - v| ≤ a → |v - w| ≤ b → a + b ≤ c → |u - w| ≤ c := by
    intro u v w a b c h1 h2 h3
    have := abs_sub_le u v w
    linarith
  have trans : ∀ {U V W : Vec ℚ} {a b c : ℚ}, U.Near a V → V.Near b W → a + b ≤ c → U.Near c W := by
    intro U V W a b c h1 h2 h3
    exact ⟨tri h1.1 h2.1 h3, tri h1.2.1 h2.2.1 h3, tri h1.2.2 h2.2.2 h3⟩
  refine ⟨n, hn, m, hm, ?_, fun N h => trans (hN N h) hS (by norm_num), fun M h => trans (hM M h) hT (by norm_num)⟩
  rintro rfl
  obtain ⟨s1, s2, s3⟩ := (same_key_iff hI hJ).1 (hk.symm.trans hk')
  have hST : S.Near (1 / 10 ^ 10) T := ⟨Double.same_near s1, Double.same_near s2, Double.same_near s3⟩
  have hPS : P.Near (1 / 10 ^ 6) S := ⟨by rw [abs_sub_comm]; exact hS.1, by rw [abs_sub_comm]; exact hS.2.1, by rw [abs_sub_comm]; exact hS.2.2⟩
  exact hf (trans hPS (trans hST hT (le_refl _)) (by norm_num))

/-- The float `2 ^ -30`. -/
def fSmall : Double := .num false ⟨993 * 2 ^ 52, by decide⟩

/-- A node with the given point. -/
def fNode (x y : Double) : Ansys.CNode Double := ⟨⟨x, y, fZero⟩, fZero, fZero, ⟨fZero, fZero, fZero⟩, fZero⟩

/-- Two triangles with a common side; their other corners are `2 ^ -30` from each other. -/
def smallZone : Ansys.CZone Double :=
  ⟨"a".toList, [fNode fZero fZero, fNode fSmall fZero, fNode fZero fOne, fNode fOne fZero],
    [⟨0, 3, 2, fSmall, fZero, ⟨fZero, fZero, fZero⟩, fZero⟩, ⟨1, 2, 3, fSmall, fZero, ⟨fZero, fZero, fZero⟩, fZero⟩]⟩

/-- The four nodes of the zone, which are at different places for the grid, are three nodes in the file written by `Export`, and the data that are not zero
become zero. -/
theorem C121_lost_violation : fSmall.val? = some (1 / 2 ^ 30) ∧ (smallZone.nodes.map (fun n => Double.roundedCoords n.p)).Nodup ∧
    ∃ g' : Grid Double (Double × Double × Double),
      Grid.loadText Double.roundedCoords floatCodec true Grid.empty (Ansys.exportText (Double.fixed 6) [smallZone]) = .ok g' ∧
      g'.nodes.length = 3 ∧ ∀ f ∈ g'.faces, ∀ p ∈ g'.fData f, p.2 = fZero := by
  refine ⟨by decide +kernel, by decide +kernel, ?_⟩
  rw [C121_export_partial true _ _ (by decide +kernel)]
  have : ((Grid.loadBlocks Double.roundedCoords true Grid.empty ([smallZone].map (ansysBlock (Double.round 6)))).map
      (fun g => (g.nodes.length, g.faces.flatMap (fun f => (g.fData f).map Prod.snd)))) = .ok (3, List.replicate 12 fZero) := by decide +kernel
  cases h : Grid.loadBlocks Double.roundedCoords true Grid.empty ([smallZone].map (ansysBlock (Double.round 6))) with
  | error e => rw [h] at this; cases this
  | ok g =>
    rw [h] at this
    injection this with this
    injection this with h1 h2
    refine ⟨g, rfl, h1, fun f hf p hp => ?_⟩
    have : p.2 ∈ g.faces.flatMap (fun f => (g.fData f).map Prod.snd) := List.mem_flatMap.2 ⟨f, hf, List.mem_map.2 ⟨p, hp, rfl⟩⟩
    rw [h2] at this
    exact List.eq_of_mem_replicate this

end Verif.Props
