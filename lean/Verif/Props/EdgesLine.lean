import Verif.Props.Zam
import Verif.Proofs.DoubleMul

/-! Property C123: the line of edges statistics. -/

namespace Verif.Props
open Verif Grid
variable {F R : Type}

/-- `m` hundredths as a text with two digits behind the point. -/
def Hundredths (m : Nat) (s : Str) : Prop :=
  s = Py.natStr (m / 100) ++ ['.', Char.ofNat (48 + m % 100 / 10), Char.ofNat (48 + m % 10)]

theorem percent_text {n e : Nat} (hn : n ≤ e) (h0 : 0 < e) (he : e < 2 ^ 38) :
    ∃ m : Nat, Hundredths m ((100 * (n : Double) / (e : Double)).fixed 2) ∧ |(m : ℚ) / 100 - 100 * n / e| ≤ 1 / 200 := by
  obtain ⟨b, h1, h2⟩ := Double.percent_val hn h0 he
  rw [h1, Double.fixed]
  have hm := Double.rne_near (mul_nonneg (Double.mag_nonneg b) (show (0 : ℚ) ≤ 10 ^ 2 by positivity))
  refine ⟨Double.rne (Double.mag b * 10 ^ 2), ?_, Double.near_aux h0 he h2 hm⟩
  have := Double.pad_two_digits ⟨Double.rne (Double.mag b * 10 ^ 2) % 100, Nat.mod_lt _ (by norm_num)⟩
  simp only at this
  rw [Hundredths, Double.sign, show 10 ^ 2 = 100 from rfl, this, Nat.mod_mod_of_dvd _ (by norm_num)]
  simp

theorem statistics_of {K : Type} [NatCast K] [Mul K] [Div K] [OfNat K 100] {a : Zam} {b i c e : Nat} (h : a.counts = (b, i, c)) (hs : b + i + c = e)
    (h0 : 0 < e) : a.edgesStatistics (K := K) = .ok (e, b, i, c, 100 * (b : K) / (e : K), 100 * (i : K) / (e : K), 100 * (c : K) / (e : K)) := by
  unfold Zam.edgesStatistics
  simp only [h, hs]
  rw [if_neg h0.ne']

theorem line_of {a : Zam} {e b i c : Nat} {bp ip cp : Double} (h : a.edgesStatistics (K := Double) = .ok (e, b, i, c, bp, ip, cp)) :
    a.statisticsString = .ok ("edges stats: ".toList ++ Py.natStr b ++ " border (".toList ++ bp.fixed 2 ++ "%), ".toList ++
        Py.natStr i ++ " inner (".toList ++ ip.fixed 2 ++ "%), ".toList ++ Py.natStr c ++ " cross (".toList ++ cp.fixed 2 ++ "%)".toList) := by
  unfold Zam.statisticsString
  rw [h]
  rfl

/-- The line: the numbers of edges of the three kinds, and their percentages, each the nearest with two digits behind the point; the three percentages
add up to 100.00, 99.99 or 100.01. -/
theorem C123_line (g : Grid F R) (es zs : List Nat) (a : Zam) (h : Zam.make g es zs = .ok a) (hne : es ≠ []) (hl : es.length < 2 ^ 38) :
    ∃ (bec iec cec b i c : Nat) (sb si sc : Str),
      a.statisticsString = .ok ("edges stats: ".toList ++ Py.natStr bec ++ " border (".toList ++ sb ++ "%), ".toList ++
        Py.natStr iec ++ " inner (".toList ++ si ++ "%), ".toList ++ Py.natStr cec ++ " cross (".toList ++ sc ++ "%)".toList) ∧
      bec = howMany (fun e => g.isBorder e = true) es ∧ iec = howMany (fun e => g.isInner e = .ok true) es ∧
      cec = howMany (fun e => g.isCross e = .ok true) es ∧
      Hundredths b sb ∧ Hundredths i si ∧ Hundredths c sc ∧
      |(b : ℚ) / 100 - 100 * bec / es.length| ≤ 1 / 200 ∧ |(i : ℚ) / 100 - 100 * iec / es.length| ≤ 1 / 200 ∧
      |(c : ℚ) / 100 - 100 * cec / es.length| ≤ 1 / 200 ∧ (b + i + c = 9999 ∨ b + i + c = 10000 ∨ b + i + c = 10001) := by
  obtain ⟨bec, iec, cec, bp, ip, cp, h1, hb, hi, hc, hs, -⟩ := C16_statistics (K := ℚ) g es zs a h hne
  have h0 : 0 < es.length := List.length_pos_iff.2 hne
  have he := make_edgesIn g es zs a h
  have hcnt : a.counts = (bec, iec, cec) := by
    unfold Zam.edgesStatistics at h1
    simp only at h1
    split at h1
    · cases h1
    · simp only [Except.ok.injEq, Prod.mk.injEq] at h1
      obtain ⟨-, h2, h3, h4, -⟩ := h1
      exact Prod.ext h2 (Prod.ext h3 h4)
  obtain ⟨b, b1, b2⟩ := percent_text (n := bec) (e := es.length) (by omega) h0 hl
  obtain ⟨i, i1, i2⟩ := percent_text (n := iec) (e := es.length) (by omega) h0 hl
  obtain ⟨c, c1, c2⟩ := percent_text (n := cec) (e := es.length) (by omega) h0 hl
  refine ⟨bec, iec, cec, b, i, c, _, _, _, ?_, hb, hi, hc, b1, i1, c1, b2, i2, c2, ?_⟩
  · exact line_of (statistics_of hcnt hs h0)
  · have hq : (100 : ℚ) * bec / es.length + 100 * iec / es.length + 100 * cec / es.length = 100 := by
      have hsq : (bec : ℚ) + iec + cec = es.length := by exact_mod_cast hs
      rw [← add_div, ← add_div, ← mul_add, ← mul_add, hsq, mul_div_assoc, div_self (by exact_mod_cast h0.ne'), mul_one]
    rw [abs_le] at b2 i2 c2
    have u : ((b + i + c : Nat) : ℚ) < 10002 := by push_cast; linarith [b2.2, i2.2, c2.2]
    have l : ((9998 : Nat) : ℚ) < ((b + i + c : Nat) : ℚ) := by push_cast; linarith [b2.1, i2.1, c2.1]
    have u' : b + i + c < 10002 := by exact_mod_cast u
    have l' : 9998 < b + i + c := by exact_mod_cast l
    omega

/-- Without edges there is no line: the percentages are divisions by zero. -/
theorem C123_no_edges (g : Grid F R) (zs : List Nat) (a : Zam) (h : Zam.make g [] zs = .ok a) : a.statisticsString = .error .zeroDiv := by
  have he := make_edgesIn g [] zs a h
  rw [make_spec g [] zs he] at h
  obtain rfl := Except.ok.inj h
  unfold Zam.statisticsString Zam.edgesStatistics
  simp only [counts_spec g [] zs he]
  rfl

/-- The line of the sample grid: the percentages add up to 100.01. -/
example : Zam.statisticsString ⟨2, [[1, 1, 3], [1, 0, 2], [3, 2, 0]]⟩ =
    .ok "edges stats: 5 border (71.43%), 1 inner (14.29%), 1 cross (14.29%)".toList := by decide +kernel

example : Zam.make Sample.grid Sample.grid.edges Sample.grid.zones = .ok ⟨2, [[1, 1, 3], [1, 0, 2], [3, 2, 0]]⟩ ∧ Sample.grid.edges.length < 2 ^ 38 := by
  refine ⟨?_, by decide +kernel⟩
  rw [make_spec _ _ _ Sample.wf.edgesIn]
  have : tab Sample.grid.zones.length (fun i j => (Sample.grid.edges.map
    (zonePair Sample.grid Sample.grid.zones)).countP (cell i j)) = [[1, 1, 3], [1, 0, 2], [3, 2, 0]] := by decide +kernel
  rw [this, Sample.zones]; rfl

end Verif.Props
