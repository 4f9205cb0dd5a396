import Verif.Props.EdgesLine
import Verif.Props.Border
import Verif.Props.Arrays
import Verif.Proofs.PrintInfo
import Verif.Proofs.Root
import Verif.Proofs.History

/-! Property C124: what `print_info` prints. -/

namespace Verif.Props
open Verif Grid
variable {F R : Type}

/-- `m` thousandths as a text with three digits behind the point. -/
def Thousandths (m : Nat) (s : Str) : Prop :=
  s = Py.natStr (m / 1000) ++ ['.', Char.ofNat (48 + m % 1000 / 100), Char.ofNat (48 + m % 100 / 10), Char.ofNat (48 + m % 10)]

/-- The text of the quality factor of a zone with `n` faces and `k` outer edges: the root of `n` divided by `k` with three digits behind the point. -/
def QualityText (n k : Nat) (s : Str) : Prop :=
  if k = 0 then s = (if n = 0 then "nan" else "inf").toList
  else ∃ m, Thousandths m s ∧ |(m : ℝ) / 1000 - √(n : ℝ) / k| ≤ 1 / 2000 + 1 / 10 ^ 9

/-! ## Texts -/

theorem pad_three : ∀ f : Fin 1000, Py.natStrPad 3 f.val =
    [Char.ofNat (48 + f.val / 100), Char.ofNat (48 + f.val % 100 / 10), Char.ofNat (48 + f.val % 10)] := by decide +kernel

theorem fixed_three (b : Fin (2047 * 2 ^ 52)) :
    ∃ m : Nat, Thousandths m ((Double.num false b).fixed 3) ∧ |(m : ℚ) / 1000 - Double.mag b| ≤ 1 / 2000 := by
  rw [Double.fixed]
  have hm := Double.rne_near (mul_nonneg (Double.mag_nonneg b) (show (0 : ℚ) ≤ 10 ^ 3 by positivity))
  refine ⟨Double.rne (Double.mag b * 10 ^ 3), ?_, ?_⟩
  · have := pad_three ⟨Double.rne (Double.mag b * 10 ^ 3) % 1000, Nat.mod_lt _ (by norm_num)⟩
    simp only at this
    rw [Thousandths, Double.sign, show 10 ^ 3 = 1000 from rfl, this, Nat.mod_mod_of_dvd _ (by norm_num), Nat.mod_mod_of_dvd _ (by norm_num)]
    simp
  · have e : (Double.rne (Double.mag b * 10 ^ 3) : ℚ) / 1000 - Double.mag b = (Double.rne (Double.mag b * 10 ^ 3) - Double.mag b * 10 ^ 3) / 1000 := by ring
    rw [e, abs_div, abs_of_pos (show (0 : ℚ) < 1000 by norm_num), div_le_iff₀ (by norm_num)]
    linarith

theorem fixed_two (b : Fin (2047 * 2 ^ 52)) :
    ∃ m : Nat, Hundredths m ((Double.num false b).fixed 2) ∧ |(m : ℚ) / 100 - Double.mag b| ≤ 1 / 200 := by
  rw [Double.fixed]
  have hm := Double.rne_near (mul_nonneg (Double.mag_nonneg b) (show (0 : ℚ) ≤ 10 ^ 2 by positivity))
  refine ⟨Double.rne (Double.mag b * 10 ^ 2), ?_, ?_⟩
  · have := Double.pad_two_digits ⟨Double.rne (Double.mag b * 10 ^ 2) % 100, Nat.mod_lt _ (by norm_num)⟩
    simp only at this
    rw [Hundredths, Double.sign, show 10 ^ 2 = 100 from rfl, this, Nat.mod_mod_of_dvd _ (by norm_num)]
    simp
  · have e : (Double.rne (Double.mag b * 10 ^ 2) : ℚ) / 100 - Double.mag b = (Double.rne (Double.mag b * 10 ^ 2) - Double.mag b * 10 ^ 2) / 100 := by ring
    rw [e, abs_div, abs_of_pos (show (0 : ℚ) < 100 by norm_num), div_le_iff₀ (by norm_num)]
    linarith

/-- What is known of the float of a quality factor. -/
def QualityIs (n k : Nat) (x : Double) : Prop :=
  if k = 0 then x = .inf false else ∃ b, x = .num false b ∧ |((Double.mag b : ℚ) : ℝ) - √(n : ℝ) / k| ≤ 1 / 10 ^ 9

theorem quality_is {n k : Nat} (h0 : 0 < n) (hn : n < 2 ^ 40) (hk : k < 2 ^ 53) : QualityIs n k (Double.sqrtNat n / (k : Double)) := by
  unfold QualityIs
  split
  · rename_i hz
    subst hz
    exact Double.quality_zero h0 hn
  · exact Double.quality_near hn (by omega) hk

theorem quality_text {n k : Nat} (h0 : 0 < n) {x : Double} (h : QualityIs n k x) : QualityText n k (x.fixed 3) := by
  unfold QualityIs at h
  unfold QualityText
  split
  · rename_i hz
    rw [if_pos hz] at h
    rw [h, if_neg h0.ne']
    rfl
  · rename_i hz
    rw [if_neg hz] at h
    obtain ⟨b, rfl, h2⟩ := h
    obtain ⟨m, h3, h4⟩ := fixed_three b
    refine ⟨m, h3, ?_⟩
    have h5 : |(m : ℝ) / 1000 - ((Double.mag b : ℚ) : ℝ)| ≤ 1 / 2000 := by
      have := Double.abs_real h4
      push_cast at this
      exact this
    have e : (m : ℝ) / 1000 - √(n : ℝ) / k = ((m : ℝ) / 1000 - ((Double.mag b : ℚ) : ℝ)) + (((Double.mag b : ℚ) : ℝ) - √(n : ℝ) / k) := by ring
    rw [e]
    exact (abs_add_le _ _).trans (add_le_add h5 h2)

/-- The choice in a list of zones, of which those with `P` have a factor that is a number. -/
theorem best_zone (r : Double → Double → Bool) (hi : ∀ x, r x x = false) (hn : ∀ x, r x .nan = false) (hn' : ∀ x, r .nan x = false)
    (ht : ∀ {x y z : Double}, x ≠ .nan → y ≠ .nan → z ≠ .nan → r x y = false → r y z = false → r x z = false) (ha : ∀ x y, r x y = true → r y x = false)
    {x : Nat → Double} {P : Nat → Prop} (z0 : Nat) (l : List Nat) (hx : ∀ z ∈ z0 :: l, x z ≠ .nan ↔ P z) :
    ∃ zb ∈ z0 :: l, (l.map x).foldl (fun a b => if r a b then b else a) (x z0) = x zb ∧ (¬ P z0 → zb = z0) ∧
      (P z0 → P zb ∧ ∀ z ∈ z0 :: l, P z → r (x zb) (x z) = false) := by
  by_cases h : P z0
  · obtain ⟨h1, h2, h3⟩ := Double.foldl_best r hi hn ht ha (l.map x) (x z0) ((hx z0 (by simp)).2 h)
    rw [← List.map_cons] at h1 h2
    obtain ⟨zb, hb, e⟩ := List.mem_map.1 h1
    rw [← e] at h2 h3 ⊢
    exact ⟨zb, hb, rfl, fun h' => absurd h h', fun _ => ⟨(hx zb hb).1 h3, fun z hz hp => h2 _ (List.mem_map.2 ⟨z, hz, rfl⟩) ((hx z hz).2 hp)⟩⟩
  · refine ⟨z0, by simp, ?_, fun _ => rfl, fun h' => absurd h' h⟩
    rw [show x z0 = .nan from not_not.1 (fun h' => h ((hx z0 (by simp)).1 h')), Double.foldl_nan r hn']

theorem minOf_spec {x : Nat → Double} {P : Nat → Prop} (z0 : Nat) (l : List Nat) (hx : ∀ z ∈ z0 :: l, x z ≠ .nan ↔ P z) :
    ∃ zb ∈ z0 :: l, Double.minOf ((z0 :: l).map x) = .ok (x zb) ∧ (¬ P z0 → zb = z0) ∧
      (P z0 → P zb ∧ ∀ z ∈ z0 :: l, P z → Double.lt (x z) (x zb) = false) := by
  obtain ⟨zb, h1, h2, h3⟩ := best_zone (fun a b => Double.lt b a) (fun _ => Double.lt_irrefl _) (fun _ => rfl) Double.lt_nan_right
    (fun h1 h2 h3 a b => Double.lt_trans' h3 h2 h1 b a) (fun _ _ h => Double.lt_asymm _ _ h) z0 l hx
  exact ⟨zb, h1, congrArg _ h2, h3⟩

theorem maxOf_spec {x : Nat → Double} {P : Nat → Prop} (z0 : Nat) (l : List Nat) (hx : ∀ z ∈ z0 :: l, x z ≠ .nan ↔ P z) :
    ∃ zb ∈ z0 :: l, Double.maxOf ((z0 :: l).map x) = .ok (x zb) ∧ (¬ P z0 → zb = z0) ∧
      (P z0 → P zb ∧ ∀ z ∈ z0 :: l, P z → Double.lt (x zb) (x z) = false) := by
  obtain ⟨zb, h1, h2, h3⟩ := best_zone (fun a b => Double.lt a b) (fun _ => Double.lt_irrefl _) Double.lt_nan_right (fun _ => rfl)
    (fun h1 h2 h3 a b => Double.lt_trans' h1 h2 h3 a b) (fun _ _ h => Double.lt_asymm _ _ h) z0 l hx
  exact ⟨zb, h1, congrArg _ h2, h3⟩

theorem printAll_ok (ls : List (List Str)) (t : List (Res (List Str))) :
    printAll (ls.map .ok ++ t) = (ls.flatten ++ (printAll t).1, (printAll t).2) := by
  induction ls with
  | nil => rfl
  | cons l ls ih =>
    rw [List.map_cons, List.cons_append, printAll, ih]
    simp

theorem print_steps (stat dist mat : Bool) (A B S D U V X Y : List Str) (Z : List (List Str)) :
    printAll ([.ok A, .ok B] ++ ((if stat then [.ok S] else []) ++ (if dist then [.ok D] ++ Z.map .ok ++ [.ok U, .ok V] else []) ++
      (if mat then [.ok X, .ok Y] else []))) =
    (A ++ B ++ (if stat then S else []) ++ (if dist then D ++ Z.flatten ++ U ++ V else []) ++ (if mat then X ++ Y else []), none) := by
  have h := printAll_ok ([A, B] ++ ((if stat then [S] else []) ++ (if dist then [D] ++ Z ++ [U, V] else []) ++ (if mat then [X, Y] else []))) []
  have e : printAll [] = ([], none) := rfl
  rw [List.append_nil, e] at h
  dsimp only at h
  rw [List.append_nil] at h
  cases stat <;> cases dist <;> cases mat <;> simpa using h

/-- A row of the matrix: the numbers can be read back. -/
theorem row_words (r : List Nat) : Py.splitWs (Py.join [' '] (r.map pad5)) = r.map Py.natStr := by
  have h1 : ∀ (k : Nat) (s : Str), Py.splitWsAux (List.replicate k ' ' ++ s) [] = Py.splitWsAux s [] := by
    intro k s
    induction k with
    | zero => rfl
    | succ k ih => rw [List.replicate_succ, List.cons_append, Py.splitWsAux, if_pos (by decide), if_pos rfl, ih]
  have h2 : ∀ n s, Py.splitWsAux (pad5 n ++ s) [] = Py.splitWsAux s (Py.natStr n) := by
    intro n s
    unfold pad5
    rw [List.append_assoc, h1, Py.splitWsAux_word (Py.natStr_facts n).1, List.nil_append]
  unfold Py.splitWs
  induction r with
  | nil => rfl
  | cons n r ih =>
    cases r with
    | nil =>
      rw [List.map_cons, List.map_nil, Py.join, ← List.append_nil (pad5 n), h2, Py.splitWsAux, if_neg (Py.natStr_ne_nil n)]
      rfl
    | cons m r =>
      have e : Py.join [' '] ((n :: m :: r).map pad5) = pad5 n ++ (' ' :: Py.join [' '] ((m :: r).map pad5)) := by simp [Py.join]
      rw [e, h2, Py.splitWsAux, if_pos (by decide), if_neg (Py.natStr_ne_nil n), ih]
      rfl

theorem foldl_max_pair (l : List Nat) (h : l ≠ []) : (∀ x ∈ l, x ≤ l.foldl max 0) ∧ l.foldl max 0 ∈ l := by
  refine ⟨(foldl_max_ge l 0).2, ?_⟩
  rcases foldl_max_mem l 0 with h1 | h1
  · cases l with
    | nil => exact absurd rfl h
    | cons a l =>
      have := (foldl_max_ge (a :: l) 0).2 a (by simp)
      rw [h1] at this ⊢
      have : a = 0 := by omega
      simp [this]
  · exact h1

theorem sum_le_mul (l : List Nat) (m : Nat) (h : ∀ x ∈ l, x ≤ m) : l.sum ≤ m * l.length := by
  induction l with
  | nil => simp
  | cons a l ih =>
    rw [List.sum_cons, List.length_cons, Nat.mul_succ]
    have := h a (by simp)
    have := ih (fun x hx => h x (by simp [hx]))
    omega

theorem le_sum {l : List Nat} {x : Nat} (h : x ∈ l) : x ≤ l.sum := by
  induction l with
  | nil => cases h
  | cons a l ih =>
    rw [List.sum_cons]
    rcases List.mem_cons.1 h with rfl | h
    · omega
    · have := ih h; omega

theorem summary_of {g : Grid F R} {q : Nat → Double} {big : Nat} {d lo hi : Double} (hq : ∀ z ∈ g.zones, g.quality z = .ok (q z))
    (hd : g.deviation = .ok (big, d)) (h1 : Double.minOf (g.zones.map q) = .ok lo) (h2 : Double.maxOf (g.zones.map q) = .ok hi) :
    g.summary = [.ok ["  ~ max zone faces ".toList ++ Py.natStr big ++ ", faces distribution deviation : ".toList ++ d.fixed 2 ++ "%".toList],
      .ok ["  ~ min/max quality factor : ".toList ++ lo.fixed 3 ++ ", ".toList ++ hi.fixed 3]] := by
  unfold summary
  rw [mapM_ok _ q _ hq, hd]
  simp only [res_bind_ok, h1, h2]
  rfl

theorem deviation_of {g : Grid F R} {b1 : Fin (2047 * 2 ^ 52)} (hz : g.zones.length ≠ 0)
    (h : Double.ofMag false ((g.faces.length : ℚ) / g.zones.length) = .num false b1) (h0 : Double.mag b1 ≠ 0) :
    g.deviation = .ok ((g.zones.map (fun z => (g.zFaces z).length)).foldl max 0,
      100 * ((((g.zones.map (fun z => (g.zFaces z).length)).foldl max 0 : Nat) : Double) - .num false b1) / .num false b1) := by
  unfold deviation Double.trueDiv
  rw [if_neg hz, res_bind_ok, h]
  have hv : (Double.num false b1).val? = some (Double.mag b1) := rfl
  simp only [hv, Option.some.injEq]
  rw [if_neg h0]

/-- What a finite or infinite float says about the quality factors compared. -/
theorem quality_le {n k n' k' : Nat} {x y : Double} (hx : QualityIs n k x) (hy : QualityIs n' k' y) (h : Double.lt y x = false) (h0 : k' ≠ 0) :
    k ≠ 0 ∧ √(n : ℝ) / k ≤ √(n' : ℝ) / k' + 2 / 10 ^ 9 := by
  unfold QualityIs at hx hy
  rw [if_neg h0] at hy
  obtain ⟨b, rfl, hb⟩ := hy
  split at hx
  · subst hx
    cases h
  · rename_i hk
    obtain ⟨c, rfl, hc⟩ := hx
    refine ⟨hk, ?_⟩
    simp only [Double.lt, Bool.false_eq_true, if_false, decide_eq_false_iff_not, not_lt] at h
    have h' : ((Double.mag c : ℚ) : ℝ) ≤ ((Double.mag b : ℚ) : ℝ) := by exact_mod_cast h
    rw [abs_le] at hb hc
    linarith [hb.1, hb.2, hc.1, hc.2]

/-- What `print_info` prints for a grid with faces: the lines in their order and the numbers in them. The line of edges statistics is
that of C123, the matrix that of C15 and the longest border that of C118. A zone without
faces has the quality factor `nan`; if it is the first zone, then `nan` is the least and the greatest factor, otherwise such zones do not count. -/
theorem C124_any_zones (stat dist mat : Bool) {g : Grid F R} (hw : Wf g) (hl : ZoneLists g) (hf : g.faces ≠ [])
    (hfs : g.faces.length < 2 ^ 38) (hes : g.edges.length < 2 ^ 38) (hzs : g.zones.length < 2 ^ 38) :
    ∃ (a : Zam) (line dev : Str) (q : Nat → Str) (big dm border zl zh : Nat) (rows : List Str),
      printInfo stat dist mat g = (
        ["GSU: ".toList ++ g.name,
         "  ".toList ++ Py.natStr g.nodes.length ++ " nodes, ".toList ++ Py.natStr g.edges.length ++ " edges, ".toList ++
           Py.natStr g.faces.length ++ " faces, ".toList ++ Py.natStr g.zones.length ++ " zones".toList] ++
        (if stat then ["  ".toList ++ line] else []) ++
        (if dist then
          ["  distribution faces between zones:".toList] ++
          g.zones.map (fun z => "    ".toList ++ g.zName z ++ " : ".toList ++ Py.natStr (g.zFaces z).length ++ " faces, ".toList ++
            Py.natStr (rim g z).length ++ " outer edges, QF = ".toList ++ q z) ++
          ["  ~ max zone faces ".toList ++ Py.natStr big ++ ", faces distribution deviation : ".toList ++ dev ++ "%".toList,
           "  ~ min/max quality factor : ".toList ++ q zl ++ ", ".toList ++ q zh] else []) ++
        (if mat then rows ++ ["  ~ max cross-zones border length : ".toList ++ Py.natStr border] else []), none) ∧
      Zam.make g g.edges g.zones = .ok a ∧ a.statisticsString = .ok line ∧ a.maxBorderAll = .ok border ∧
      rows.map Py.splitWs = a.m.map (fun r => r.map Py.natStr) ∧
      (∀ z ∈ g.zones, QualityText (g.zFaces z).length (rim g z).length (q z)) ∧
      (∀ z ∈ g.zones, (g.zFaces z).length ≤ big) ∧ (∃ z ∈ g.zones, (g.zFaces z).length = big) ∧
      Hundredths dm dev ∧ |(dm : ℚ) / 100 - 100 * (big - g.faces.length / g.zones.length) / (g.faces.length / g.zones.length)| ≤
        1 / 200 + g.zones.length / 2 ^ 42 ∧
      zl ∈ g.zones ∧ zh ∈ g.zones ∧
      (∀ z ∈ g.zones, g.zFaces z = [] → q z = "nan".toList) ∧
      (∀ z0, g.zones.head? = some z0 → g.zFaces z0 = [] → zl = z0 ∧ zh = z0) ∧
      (∀ z0, g.zones.head? = some z0 → g.zFaces z0 ≠ [] → g.zFaces zl ≠ [] ∧ g.zFaces zh ≠ [] ∧ ∀ z ∈ g.zones, g.zFaces z ≠ [] →
        (rim g z ≠ [] → rim g zl ≠ [] ∧
          √((g.zFaces zl).length : ℝ) / (rim g zl).length ≤ √((g.zFaces z).length : ℝ) / (rim g z).length + 2 / 10 ^ 9) ∧
        (rim g zh ≠ [] → rim g z ≠ [] ∧
          √((g.zFaces z).length : ℝ) / (rim g z).length ≤ √((g.zFaces zh).length : ℝ) / (rim g zh).length + 2 / 10 ^ 9)) := by
  have hsum : (g.zones.map (fun z => (g.zFaces z).length)).sum = g.faces.length := by
    rw [← hw.zones.partition.length_eq, List.length_flatMap]
  have hzn : g.zones ≠ [] := by
    intro h
    rw [h] at hsum
    exact hf (List.length_eq_zero_iff.1 hsum.symm)
  have hlen0 : 0 < g.zones.length := List.length_pos_iff.2 hzn
  have hf0 : 0 < g.faces.length := List.length_pos_iff.2 hf
  have hzle : ∀ z ∈ g.zones, (g.zFaces z).length ≤ g.faces.length := fun z h => hsum ▸ le_sum (List.mem_map.2 ⟨z, h, rfl⟩)
  have hene : g.edges ≠ [] := by
    obtain ⟨f, hff⟩ := List.exists_mem_of_ne_nil _ hf
    intro h
    obtain ⟨e, he⟩ : ∃ e, e ∈ g.fEdges f := by
      have h3 := (hw.mesh.face_edges f hff).1
      cases he : g.fEdges f with
      | nil => rw [he] at h3; simp at h3
      | cons e t => exact ⟨e, by simp⟩
    have := (hw.mesh.face_edges f hff).2.2 e he
    rw [h] at this
    cases this
  have hrim : ∀ z ∈ g.zones, (rim g z).length < 2 ^ 53 := by
    intro z h
    unfold rim
    rw [hl.edges z h]
    have h1 := List.length_filter_le (fun e => decide (((g.eFaces e).filter (fun f => (g.zFaces z).contains f)).length = 1))
      (g.edges.filter (fun e => (g.zFaces z).any (fun f => (g.fEdges f).contains e)))
    have h2 := List.length_filter_le (fun e => (g.zFaces z).any (fun f => (g.fEdges f).contains e)) g.edges
    omega
  obtain ⟨a, border, ha, hb, -⟩ := C118_longest_border g hw hzn
  obtain ⟨bec, iec, cec, b, i, c, sb, si, sc, hline, -⟩ := C123_line g g.edges g.zones a ha hene hes
  -- quality factors
  obtain ⟨x, hx⟩ : ∃ x : Nat → Double, ∀ z, x z = Double.sqrtNat (g.zFaces z).length / ((rim g z).length : Double) := ⟨_, fun _ => rfl⟩
  have hxq : ∀ z ∈ g.zones, g.quality z = .ok (x z) := by
    intro z h
    unfold quality
    rw [outerCount_rim hw hl h, res_bind_ok, hx z]
    rfl
  have hxi : ∀ z ∈ g.zones, g.zFaces z ≠ [] → QualityIs (g.zFaces z).length (rim g z).length (x z) := by
    intro z h hne
    rw [hx z]
    exact quality_is (List.length_pos_iff.2 hne) (by have := hzle z h; omega) (hrim z h)
  have hr0 : ∀ z, g.zFaces z = [] → rim g z = [] := by
    intro z h
    unfold rim
    rw [h]
    exact List.filter_eq_nil_iff.2 (fun e _ => by simp)
  have hx0 : ∀ z, g.zFaces z = [] → x z = .nan := by
    intro z h
    rw [hx z, hr0 z h, h]
    exact Double.quality_empty
  have hnan : ∀ z ∈ g.zones, x z ≠ .nan ↔ g.zFaces z ≠ [] := by
    intro z h
    refine ⟨fun h1 h2 => h1 (hx0 z h2), fun h2 => ?_⟩
    have h1 := hxi z h h2
    unfold QualityIs at h1
    split at h1
    · rw [h1]; simp
    · obtain ⟨b, e, -⟩ := h1
      rw [e]; simp
  obtain ⟨z0, lz, hzz⟩ := List.exists_cons_of_ne_nil hzn
  obtain ⟨zl, hzl, hlo2, hlo3, hlo4⟩ := minOf_spec z0 lz (hzz ▸ hnan)
  obtain ⟨zh, hzh, hhi2, hhi3, hhi4⟩ := maxOf_spec z0 lz (hzz ▸ hnan)
  rw [← hzz] at hzl hlo2 hlo4 hzh hhi2 hhi4
  -- deviation
  obtain ⟨hm1, hm2⟩ := foldl_max_pair (g.zones.map (fun z => (g.zFaces z).length)) (by simpa using hzn)
  obtain ⟨zm, hzm, hzm2⟩ := List.mem_map.1 hm2
  obtain ⟨b1, b5, d1, d2, d3, d4⟩ := Double.deviation_near (n := g.faces.length) (z := g.zones.length)
    (M := (g.zones.map (fun z => (g.zFaces z).length)).foldl max 0) hlen0 hf0 hfs hzs (by rw [← hzm2]; exact hzle zm hzm) (by
      rw [← hsum]
      have := sum_le_mul _ _ hm1
      rwa [List.length_map] at this)
  have hdev := deviation_of hlen0.ne' d1 d2
  rw [d3] at hdev
  obtain ⟨dm, dm1, dm2⟩ := fixed_two b5
  generalize (g.zones.map (fun z => (g.zFaces z).length)).foldl max 0 = big at *
  refine ⟨a, _, (Double.num false b5).fixed 2, fun z => (x z).fixed 3, big, dm, border, zl, zh, a.m.map (fun r => Py.join [' '] (r.map pad5)), ?_, ha, hline,
    hb, ?_, ?_, fun z h => hm1 _ (List.mem_map.2 ⟨z, h, rfl⟩), ⟨zm, hzm, hzm2⟩, dm1, ?_, hzl, hzh, ?_, ?_, ?_⟩
  · have hzl' : ∀ l : List Nat, (∀ z ∈ l, z ∈ g.zones) → l.map g.zoneLine = (l.map (fun z => ["    ".toList ++ g.zName z ++ " : ".toList ++
        Py.natStr (g.zFaces z).length ++ " faces, ".toList ++ Py.natStr (rim g z).length ++ " outer edges, QF = ".toList ++ (x z).fixed 3])).map .ok := by
      intro l h
      rw [List.map_map]
      refine List.map_congr_left (fun z hzz => ?_)
      unfold zoneLine
      rw [outerCount_rim hw hl (h z hzz), hxq z (h z hzz)]
      rfl
    unfold printInfo
    rw [ha]
    dsimp only
    rw [summary_of hxq hdev hlo2 hhi2, hline, hzl' g.zones (fun z h => h)]
    unfold matrixLines
    rw [hb]
    have hflat : ∀ (f : Nat → Str) (l : List Nat), (l.map (fun z => [f z])).flatten = l.map f := by
      intro f l
      induction l with
      | nil => rfl
      | cons b l ih => simp [ih]
    refine (print_steps stat dist mat _ _ ["  ".toList ++ _] _ _ _ _ ["  ~ max cross-zones border length : ".toList ++ Py.natStr border] _).trans ?_
    rw [hflat]
    cases stat <;> cases dist <;> cases mat <;> simp
  · rw [List.map_map]
    exact List.map_congr_left (fun r _ => row_words r)
  · intro z h
    by_cases he : g.zFaces z = []
    · show QualityText _ _ ((x z).fixed 3)
      rw [hx0 z he, hr0 z he, he]
      rfl
    · exact quality_text (List.length_pos_iff.2 he) (hxi z h he)
  · have e : (dm : ℚ) / 100 - 100 * (big - g.faces.length / g.zones.length) / (g.faces.length / g.zones.length) =
      ((dm : ℚ) / 100 - Double.mag b5) + (Double.mag b5 - 100 * (big - g.faces.length / g.zones.length) / (g.faces.length / g.zones.length)) := by ring
    rw [e]
    exact (abs_add_le _ _).trans (add_le_add dm2 d4)
  · intro z _ he
    show (x z).fixed 3 = _
    rw [hx0 z he]
    rfl
  · intro z1 h1 he
    rw [hzz, List.head?_cons, Option.some.injEq] at h1
    subst h1
    exact ⟨hlo3 (fun h => h he), hhi3 (fun h => h he)⟩
  · intro z1 h1 he
    rw [hzz, List.head?_cons, Option.some.injEq] at h1
    subst h1
    obtain ⟨l1, l2⟩ := hlo4 he
    obtain ⟨u1, u2⟩ := hhi4 he
    refine ⟨l1, u1, fun z h hne => ⟨fun hr => ?_, fun hr => ?_⟩⟩
    · have := quality_le (hxi zl hzl l1) (hxi z h hne) (l2 z h hne) (fun h => hr (List.length_eq_zero_iff.1 h))
      exact ⟨fun h => this.1 (by rw [h]; rfl), this.2⟩
    · have := quality_le (hxi z h hne) (hxi zh hzh u1) (u2 z h hne) (fun h => hr (List.length_eq_zero_iff.1 h))
      exact ⟨fun h => this.1 (by rw [h]; rfl), this.2⟩

/-- What `print_info` prints for a grid with faces, with no empty zones. The line of edges statistics is
that of C123, the matrix that of C15 and the longest border that of C118. -/
theorem C124_info (stat dist mat : Bool) {g : Grid F R} (hw : Wf g) (hl : ZoneLists g) (hf : g.faces ≠ []) (hz : ∀ z ∈ g.zones, g.zFaces z ≠ [])
    (hfs : g.faces.length < 2 ^ 38) (hes : g.edges.length < 2 ^ 38) :
    ∃ (a : Zam) (line dev : Str) (q : Nat → Str) (big dm border zl zh : Nat) (rows : List Str),
      printInfo stat dist mat g = (
        ["GSU: ".toList ++ g.name,
         "  ".toList ++ Py.natStr g.nodes.length ++ " nodes, ".toList ++ Py.natStr g.edges.length ++ " edges, ".toList ++
           Py.natStr g.faces.length ++ " faces, ".toList ++ Py.natStr g.zones.length ++ " zones".toList] ++
        (if stat then ["  ".toList ++ line] else []) ++
        (if dist then
          ["  distribution faces between zones:".toList] ++
          g.zones.map (fun z => "    ".toList ++ g.zName z ++ " : ".toList ++ Py.natStr (g.zFaces z).length ++ " faces, ".toList ++
            Py.natStr (rim g z).length ++ " outer edges, QF = ".toList ++ q z) ++
          ["  ~ max zone faces ".toList ++ Py.natStr big ++ ", faces distribution deviation : ".toList ++ dev ++ "%".toList,
           "  ~ min/max quality factor : ".toList ++ q zl ++ ", ".toList ++ q zh] else []) ++
        (if mat then rows ++ ["  ~ max cross-zones border length : ".toList ++ Py.natStr border] else []), none) ∧
      Zam.make g g.edges g.zones = .ok a ∧ a.statisticsString = .ok line ∧ a.maxBorderAll = .ok border ∧
      rows.map Py.splitWs = a.m.map (fun r => r.map Py.natStr) ∧
      (∀ z ∈ g.zones, QualityText (g.zFaces z).length (rim g z).length (q z)) ∧
      (∀ z ∈ g.zones, (g.zFaces z).length ≤ big) ∧ (∃ z ∈ g.zones, (g.zFaces z).length = big) ∧
      Hundredths dm dev ∧ |(dm : ℚ) / 100 - 100 * (big - g.faces.length / g.zones.length) / (g.faces.length / g.zones.length)| ≤
        1 / 200 + g.zones.length / 2 ^ 42 ∧
      zl ∈ g.zones ∧ zh ∈ g.zones ∧
      (∀ z ∈ g.zones, rim g z ≠ [] → rim g zl ≠ [] ∧
        √((g.zFaces zl).length : ℝ) / (rim g zl).length ≤ √((g.zFaces z).length : ℝ) / (rim g z).length + 2 / 10 ^ 9) ∧
      (∀ z ∈ g.zones, rim g zh ≠ [] → rim g z ≠ [] ∧
        √((g.zFaces z).length : ℝ) / (rim g z).length ≤ √((g.zFaces zh).length : ℝ) / (rim g zh).length + 2 / 10 ^ 9) := by
  have hsum : (g.zones.map (fun z => (g.zFaces z).length)).sum = g.faces.length := by
    rw [← hw.zones.partition.length_eq, List.length_flatMap]
  have hzn : g.zones ≠ [] := by
    intro h
    rw [h] at hsum
    exact hf (List.length_eq_zero_iff.1 hsum.symm)
  have hzpos : ∀ z ∈ g.zones, 0 < (g.zFaces z).length := fun z h => List.length_pos_iff.2 (hz z h)
  have hzlen : g.zones.length ≤ g.faces.length := by
    rw [← hsum]
    have : ∀ l : List Nat, (∀ z ∈ l, 0 < (g.zFaces z).length) → l.length ≤ (l.map (fun z => (g.zFaces z).length)).sum := by
      intro l
      induction l with
      | nil => simp
      | cons b l ih =>
        intro h
        rw [List.map_cons, List.sum_cons, List.length_cons]
        have := h b (by simp)
        have := ih (fun z hz => h z (by simp [hz]))
        omega
    exact this _ hzpos
  obtain ⟨a, line, dev, q, big, dm, border, zl, zh, rows, h1, h2, h3, h4, h5, h6, h7, h8, h9, h10, h11, h12, -, -, h13⟩ :=
    C124_any_zones stat dist mat hw hl hf hfs hes (by omega)
  obtain ⟨z0, lz, hzz⟩ := List.exists_cons_of_ne_nil hzn
  obtain ⟨-, -, h⟩ := h13 z0 (by rw [hzz]; rfl) (hz z0 (by rw [hzz]; simp))
  exact ⟨a, line, dev, q, big, dm, border, zl, zh, rows, h1, h2, h3, h4, h5, h6, h7, h8, h9, h10, h11, h12,
    fun z hm => (h z hm (hz z hm)).1, fun z hm => (h z hm (hz z hm)).2⟩

/-- The root in the quality factor is correctly rounded: of all floats it is the one nearest to the root, and no other float is as near. -/
theorem C124_root {n : Nat} (h0 : 0 < n) (hn : n < 2 ^ 100) : ∃ b, Double.sqrtNat n = .num false b ∧
    ∀ (y : Double) (w : ℚ), y.val? = some w → w ≠ Double.mag b → |((Double.mag b : ℚ) : ℝ) - √(n : ℝ)| < |(w : ℝ) - √(n : ℝ)| := by
  obtain ⟨b, h1, h2⟩ := Double.sqrt_nearest h0 hn
  refine ⟨b, h1, fun y w hw hne => ?_⟩
  have hr1 : (1 : ℝ) ≤ √(n : ℝ) := by
    rw [Real.one_le_sqrt]
    exact_mod_cast h0
  cases y with
  | nan => cases hw
  | inf _ => cases hw
  | num neg m =>
    injection hw with hw
    cases neg with
    | false =>
      rw [if_neg (by simp)] at hw
      rw [← hw]
      exact h2 m (by rw [hw]; exact hne)
    | true =>
      rw [if_pos rfl] at hw
      obtain ⟨o, ho⟩ := Double.mag_ex (n := 1) (i := 0) (by norm_num) (by norm_num)
      rw [pow_zero, div_one, Nat.cast_one] at ho
      have hb : Double.mag 0 ≠ Double.mag b := by
        intro h
        have := h2 o (by rw [ho, ← h, Double.mag_zero]; norm_num)
        rw [ho, ← h, Double.mag_zero, Rat.cast_zero, Rat.cast_one, abs_of_nonpos (by linarith), abs_of_nonpos (by linarith)] at this
        linarith
      refine (h2 0 hb).trans_le ?_
      have hm : (0 : ℝ) ≤ ((Double.mag m : ℚ) : ℝ) := by exact_mod_cast Double.mag_nonneg m
      rw [Double.mag_zero, ← hw, Rat.cast_zero, Rat.cast_neg, abs_of_nonpos (by linarith), abs_of_nonpos (by linarith)]
      linarith

/-- The two lines of the head are always printed. -/
theorem C124_head (stat dist mat : Bool) (g : Grid F R) : (printInfo stat dist mat g).1.take 2 = ["GSU: ".toList ++ g.name,
    "  ".toList ++ Py.natStr g.nodes.length ++ " nodes, ".toList ++ Py.natStr g.edges.length ++ " edges, ".toList ++
      Py.natStr g.faces.length ++ " faces, ".toList ++ Py.natStr g.zones.length ++ " zones".toList] := by
  unfold printInfo
  simp only [List.cons_append, List.nil_append, printAll]
  rfl

/-- An edge with no faces or more than two of them, or a face outside of all zones, stops `print_info` after the head. -/
theorem C124_stops (stat dist mat : Bool) (g : Grid F R) (h : ¬ EdgesIn g g.edges g.zones) :
    (printInfo stat dist mat g).1.length = 2 ∧ ∃ e, (printInfo stat dist mat g).2 = some e := by
  unfold printInfo
  cases hz : Zam.make g g.edges g.zones with
  | ok a => exact absurd ((C15_built_iff g g.edges g.zones).1 ⟨a, hz⟩) h
  | error e => exact ⟨rfl, e, rfl⟩

/-- A grid without edges and zones: with any of the flags `print_info` stops with an exception, and the lines before it are printed. -/
theorem C124_no_zones (g : Grid F R) (he : g.edges = []) (hz : g.zones = []) :
    (∀ dist mat, (printInfo true dist mat g).1.length = 2 ∧ (printInfo true dist mat g).2 = some .zeroDiv) ∧
    (∀ mat, (printInfo false true mat g).1.length = 3 ∧ (printInfo false true mat g).2 = some .zeroDiv) ∧
    (printInfo false false true g).1.length = 3 ∧ (printInfo false false true g).2 = some .value := by
  have ha : Zam.make g g.edges g.zones = .ok ⟨0, [[0]]⟩ := by rw [he, hz]; rfl
  have hs : Zam.statisticsString ⟨0, [[0]]⟩ = .error .zeroDiv := rfl
  have hd : g.deviation = .error .zeroDiv := by
    unfold deviation Double.trueDiv
    rw [hz]
    rfl
  unfold printInfo
  rw [ha]
  dsimp only
  rw [hs]
  refine ⟨fun dist mat => ⟨rfl, rfl⟩, fun mat => ?_, rfl, rfl⟩
  unfold summary
  rw [hz, hd]
  exact ⟨rfl, rfl⟩

example : Sample.new.edges = [] ∧ Sample.new.zones = [] := ⟨rfl, rfl⟩

example : Wf Sample.grid ∧ ZoneLists Sample.grid ∧ Sample.grid.faces ≠ [] ∧ (∀ z ∈ Sample.grid.zones, Sample.grid.zFaces z ≠ []) ∧
    Sample.grid.faces.length < 2 ^ 38 ∧ Sample.grid.edges.length < 2 ^ 38 :=
  ⟨Sample.wf, Sample.loaded.2.lists, by decide +kernel, by decide +kernel, by decide +kernel, by decide +kernel⟩

/-- What is printed for the sample grid. -/
example : printInfo true true true Sample.grid = (["GSU: ", "  5 nodes, 7 edges, 3 faces, 2 zones",
    "  edges stats: 5 border (71.43%), 1 inner (14.29%), 1 cross (14.29%)", "  distribution faces between zones:",
    "    a : 2 faces, 4 outer edges, QF = 0.354", "    b : 1 faces, 3 outer edges, QF = 0.333",
    "  ~ max zone faces 2, faces distribution deviation : 33.33%", "  ~ min/max quality factor : 0.333, 0.354",
    "    1     1     3", "    1     0     2", "    3     2     0", "  ~ max cross-zones border length : 1"].map String.toList, none) := by decide +kernel

theorem getD_of_ok {r : Res (Grid F R)} {d : Grid F R} (h : r.isOk = true) : r = .ok (r.toOption.getD d) := by
  cases r with
  | ok g => rfl
  | error e => cases h

/-- The sample grid with its faces dealt to two zones, the first of which gets none. -/
def firstEmpty : Grid Int (Int × Int × Int) := (Sample.grid.decomposeRandom (fun _ => 1) 2).toOption.getD Sample.grid

/-- The sample grid with its three faces dealt to five zones in turn. -/
def lastEmpty : Grid Int (Int × Int × Int) := (Sample.grid.decomposeLinear 5).toOption.getD Sample.grid

example : Wf firstEmpty ∧ ZoneLists firstEmpty ∧ firstEmpty.faces ≠ [] ∧ firstEmpty.faces.length < 2 ^ 38 ∧ firstEmpty.edges.length < 2 ^ 38 ∧
    firstEmpty.zones.length < 2 ^ 38 ∧ (firstEmpty.zones.map (fun z => (firstEmpty.zFaces z).length)) = [0, 3] := by
  have h : (DecompCall.random (S := Int) (fun _ => 1) 2 none).run Sample.grid = .ok firstEmpty := getD_of_ok (by decide +kernel)
  have := calls_ok [DecompCall.random (S := Int) (fun _ => 1) 2 none] (by simp [DecompCall.Possible]) _ _ Sample.wf Sample.loaded.2.lists (by
    rw [List.foldlM_cons, h]; rfl)
  exact ⟨this.2.1, this.2.2, by decide +kernel, by decide +kernel, by decide +kernel, by decide +kernel, by decide +kernel⟩

example : Wf lastEmpty ∧ ZoneLists lastEmpty ∧ lastEmpty.faces ≠ [] ∧ lastEmpty.faces.length < 2 ^ 38 ∧ lastEmpty.edges.length < 2 ^ 38 ∧
    lastEmpty.zones.length < 2 ^ 38 ∧ (lastEmpty.zones.map (fun z => (lastEmpty.zFaces z).length)) = [1, 1, 1, 0, 0] := by
  have h : (DecompCall.linear (S := Int) 5 none).run Sample.grid = .ok lastEmpty := getD_of_ok (by decide +kernel)
  have := calls_ok [DecompCall.linear (S := Int) 5 none] (by simp [DecompCall.Possible]) _ _ Sample.wf Sample.loaded.2.lists (by
    rw [List.foldlM_cons, h]; rfl)
  exact ⟨this.2.1, this.2.2, by decide +kernel, by decide +kernel, by decide +kernel, by decide +kernel, by decide +kernel⟩

/-- The least and the greatest quality factor depend on the order of the zones: with an empty zone in front both are printed as `nan`, although the other
zone has a quality factor; with the empty zones behind they are left out. -/
theorem C124_order_violation :
    (printInfo false true false firstEmpty).1 = ["GSU: ", "  5 nodes, 7 edges, 3 faces, 2 zones", "  distribution faces between zones:",
      "    random 0 : 0 faces, 0 outer edges, QF = nan", "    random 1 : 3 faces, 5 outer edges, QF = 0.346",
      "  ~ max zone faces 3, faces distribution deviation : 100.00%", "  ~ min/max quality factor : nan, nan"].map String.toList ∧
    (printInfo false true false lastEmpty).1 = ["GSU: ", "  5 nodes, 7 edges, 3 faces, 5 zones", "  distribution faces between zones:",
      "    linear 0 : 1 faces, 3 outer edges, QF = 0.333", "    linear 1 : 1 faces, 3 outer edges, QF = 0.333",
      "    linear 2 : 1 faces, 3 outer edges, QF = 0.333", "    linear 3 : 0 faces, 0 outer edges, QF = nan",
      "    linear 4 : 0 faces, 0 outer edges, QF = nan",
      "  ~ max zone faces 1, faces distribution deviation : 66.67%", "  ~ min/max quality factor : 0.333, 0.333"].map String.toList := by
  constructor <;> decide +kernel

end Verif.Props
