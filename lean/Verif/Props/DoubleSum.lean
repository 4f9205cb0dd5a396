import Verif.Props.Csv
import Verif.Props.Double
import Verif.Proofs.DoubleAdd

/-! Property C122: totals of floats. -/

namespace Verif.Props
open Verif Csv

theorem digits_sep {s : Str} {v k : Nat} (h : Digits s v k) : ';' ∉ s ∧ '#' ∉ s :=
  ⟨fun hc => Py.digits_avoid h (by decide) (by decide) _ hc rfl, fun hc => Py.digits_avoid h (by decide) (by decide) _ hc rfl⟩

theorem floatCodec_noSep : floatCodec.NoSep := by
  intro x
  cases x with
  | num neg b =>
    obtain ⟨t, h1, c, u, m, e, h2, h3, -, -⟩ := C119_text neg b rfl
    have hs := digits_sep h3
    have hn := digits_sep (Py.digits_of_parse (Py.parse_natStr e.natAbs)).choose_spec
    show ';' ∉ Double.sci 18 (.num neg b) ∧ '#' ∉ Double.sci 18 (.num neg b)
    rw [h1, h2]
    simp only [List.mem_cons, not_or] at hs
    cases neg <;> constructor <;> split <;> split <;> simp [hs.1.1, hs.1.2, hs.2.1, hs.2.2, hn.1, hn.2]
  | inf neg => cases neg <;> decide
  | nan => decide

/-- The sum of two finite floats is their exact sum rounded; if this is zero, it is -0.0 for two negative zeros only. -/
theorem C122_add (a b : Bool) (m n : Fin (2047 * 2 ^ 52)) {r s : ℚ} (hr : (Double.num a m).val? = some r) (hs : (Double.num b n).val? = some s) :
    (r + s ≠ 0 → RoundsTo (decide (r + s < 0)) |r + s| (.num a m + .num b n)) ∧
    (r + s = 0 → Double.num a m + .num b n = .num (a && b) ⟨0, by decide⟩) := by
  injection hr with hr
  injection hs with hs
  rw [Double.add_num, hr, hs]
  constructor
  · intro h
    rw [if_neg h]
    exact Double.ofMag_rounds (abs_nonneg _)
  · intro h
    rw [if_pos h, h, abs_zero]
    have h0 : Double.bitsOf 0 = 0 := Double.bitsOf_eq (le_refl _) (.inl Double.mag_zero.symm)
    obtain ⟨w, hw, e⟩ := Double.ofMag_finite (neg := a && b) (r := 0) (by rw [h0]; decide)
    rw [e]
    have hz : w = ⟨0, by decide⟩ := Fin.ext (hw.trans h0)
    rw [hz]

/-- Infinities and NaN. -/
theorem C122_infinite (a b : Bool) (m : Fin (2047 * 2 ^ 52)) (x : Double) : Double.inf a + .inf a = .inf a ∧ Double.inf a + .inf (!a) = .nan ∧
    Double.inf a + .num b m = .inf a ∧ Double.nan + x = .nan := by
  refine ⟨?_, ?_, rfl, by cases x <;> rfl⟩
  · cases a <;> rfl
  · cases a <;> rfl

/-- The totals `merge` writes for tables of floats, file by file in the order in which the system lists them: a total that is finite is a total of finite
values, and differs from their sum by no more than `(1 + 2 ^ -53) ^ k - 1` times the sum of the absolute values, where `k` files are added to the first.
(The full claim, that the order does not matter, is false: `C122_order_violation`.) -/
theorem C122_near_partial (na : Double) (dst nm : Str) {n m : Nat} (hn : 0 < n) (hm : 2 ≤ m)
    {dir : List (Str × Str)} {t : Str × Table Double n m} {ts : List (Str × Table Double n m)} (hd : HasTables floatCodec dir (t :: ts)) :
    ∃ T : Table Double n m,
      mergeCsv floatCodec na dst nm dir = .ok (some (dst ++ "/../".toList ++ nm ++ ".csv".toList,
        T.text floatCodec "time;M_imp;M_es;M_stall;M_ini_water;M_water;M_ini_ice;M_ice;Q_conv;Q_es".toList)) ∧
      ∀ i j, j.1 ≠ 0 → ∀ v, (T i j).val? = some v → ∃ w : Str × Table Double n m → ℚ, (∀ a ∈ t :: ts, (a.2 i j).val? = some (w a)) ∧
        |v - ((t :: ts).map w).sum| ≤ ((1 + 1 / 2 ^ 53) ^ ts.length - 1) * ((t :: ts).map (fun a => |w a|)).sum := by
  obtain ⟨T, h1, h2⟩ := C102_sum_partial Double.floatCodec_lawful floatCodec_noSep na dst nm hn hm hd
  refine ⟨T, h1, fun i j hj v hv => ?_⟩
  rw [h2, if_neg hj] at hv
  obtain ⟨r, g, hr, hg, hb⟩ := Double.foldl_add (fun t : Str × Table Double n m => t.2 i j) ts (t.2 i j) hv
  refine ⟨fun a => ((a.2 i j).val?).getD 0, ?_, ?_⟩
  · intro a ha
    rcases List.mem_cons.1 ha with rfl | h
    · simp [hr]
    · simp [hg a h]
  · have e1 : ts.map (fun a => ((a.2 i j).val?).getD 0) = ts.map g := List.map_congr_left (fun b hb => by simp [hg b hb])
    have e2 : ts.map (fun a => |((a.2 i j).val?).getD 0|) = ts.map (fun a => |g a|) := List.map_congr_left (fun b hb => by simp [hg b hb])
    simp only [List.map_cons, List.sum_cons, e1, e2, hr, Option.getD_some]
    exact hb

/-- Two files give the same totals in both orders, whatever the values are. -/
theorem C122_two (na : Double) (dst nm : Str) {n m : Nat} (hn : 0 < n) (hm : 2 ≤ m) {dir dir' : List (Str × Str)} (hp : dir.Perm dir')
    {a b : Str × Table Double n m} (hd : HasTables floatCodec dir [a, b]) (ht : ∀ i j, j.1 = 0 → a.2 i j = b.2 i j) :
    mergeCsv floatCodec na dst nm dir = mergeCsv floatCodec na dst nm dir' := by
  obtain ⟨ts', hd', h1⟩ := List.perm_comp_forall₂ (hp.filter _).symm hd
  have hc : ts' = [a, b] ∨ ts' = [b, a] := by
    obtain ⟨x, y, rfl⟩ := List.length_eq_two.1 h1.length_eq
    rcases List.mem_cons.1 (h1.mem_iff.1 (List.mem_cons_self : x ∈ [x, y])) with rfl | hx
    · left
      rw [List.perm_singleton.1 (List.Perm.cons_inv h1)]
    · obtain rfl := List.mem_singleton.1 hx
      right
      rw [List.perm_singleton.1 (List.Perm.cons_inv (h1.trans (.swap _ _ _)))]
  rcases hc with rfl | rfl
  · rw [hasTables_ok Double.floatCodec_lawful floatCodec_noSep na dst nm hn hm hd, hasTables_ok Double.floatCodec_lawful floatCodec_noSep na dst nm hn hm (hd' : HasTables _ dir' _)]
  · rw [hasTables_ok Double.floatCodec_lawful floatCodec_noSep na dst nm hn hm hd, hasTables_ok Double.floatCodec_lawful floatCodec_noSep na dst nm hn hm (hd' : HasTables _ dir' _)]
    have : totals a.2 ([b].map Prod.snd) = totals b.2 ([a].map Prod.snd) := by
      funext i j
      unfold totals
      split
      · next h => exact ht i j h
      · exact Double.add_comm _ _
    rw [this]

/-- A table with one row: the time 0 and a value. -/
def oneRow (x : Double) : Table Double 1 2 := fun _ j => if j.1 = 0 then fZero else x

/-- The floats nearest to 0.1, 0.2 and 0.3. -/
def fTenth : Double := .num false ⟨4591870180066957722, by decide⟩
def fFifth : Double := .num false ⟨4596373779694328218, by decide⟩
def fThreeTenths : Double := .num false ⟨4599075939470750515, by decide⟩

/-- A directory with the tables, in this order. -/
def rowDir (l : List (Str × Double)) : List (Str × Str) := l.map (fun p => (p.1, (oneRow p.2).text floatCodec "time;a".toList))

/-- The order in which the system lists three files changes the total that is written: 0.1 + 0.2 + 0.3. -/
theorem C122_order_violation : ∃ dir dir' : List (Str × Str), dir.Perm dir' ∧
    (∃ ts : List (Str × Table Double 1 2), HasTables floatCodec dir ts ∧ ∀ a ∈ ts, ∀ b ∈ ts, ∀ i, a.2 i 0 = b.2 i 0) ∧
    mergeCsv floatCodec .nan "out".toList "b".toList dir =
      .ok (some ("out/../b.csv".toList, Csv.head ++ "\n0.000000000000000000e+00;6.000000000000000888e-01\n".toList)) ∧
    mergeCsv floatCodec .nan "out".toList "b".toList dir' =
      .ok (some ("out/../b.csv".toList, Csv.head ++ "\n0.000000000000000000e+00;5.999999999999999778e-01\n".toList)) := by
  refine ⟨rowDir [("0.csv".toList, fTenth), ("1.csv".toList, fFifth), ("2.csv".toList, fThreeTenths)],
    rowDir [("1.csv".toList, fFifth), ("2.csv".toList, fThreeTenths), ("0.csv".toList, fTenth)], ?_, ?_, by decide +kernel, by decide +kernel⟩
  · exact List.Perm.map _ ((List.Perm.swap _ _ _).trans (.cons _ (.swap _ _ _)))
  · refine ⟨[("time;a".toList, oneRow fTenth), ("time;a".toList, oneRow fFifth), ("time;a".toList, oneRow fThreeTenths)], ?_, ?_⟩
    · unfold HasTables rowDir
      simp only [List.map_cons, List.map_nil]
      rw [List.filter_cons_of_pos (by decide), List.filter_cons_of_pos (by decide), List.filter_cons_of_pos (by decide), List.filter_nil]
      exact .cons ⟨rfl, by constructor <;> decide⟩ (.cons ⟨rfl, by constructor <;> decide⟩ (.cons ⟨rfl, by constructor <;> decide⟩ .nil))
    · intro a ha b hb i
      simp at ha hb
      rcases ha with rfl | rfl | rfl <;> rcases hb with rfl | rfl | rfl <;> rfl

end Verif.Props
