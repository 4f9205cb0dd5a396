import Verif.Proofs.Tec
import Mathlib.Tactic.FieldSimp
import Mathlib.Tactic.Ring

/-! Merging files and the heat transfer coefficient. -/

namespace Verif
variable {F R : Type}

/-! ### `merge_fensap_drop3d_adiabatic` -/

theorem mergedFields_ok {fl dl al : Str} (hf : 8 ≤ (Py.splitWs fl).length) (hd : 4 ≤ (Py.splitWs dl).length)
    (ha : 4 ≤ (Py.splitWs al).length) :
    Ansys.mergedFields (Py.splitWs fl) (Py.splitWs dl) (Py.splitWs al) =
      .ok (pick [0, 1, 2, 7] fl ++ pick [3] dl ++ pick [4, 5, 6, 3] fl ++ pick [3] al) := by
  unfold pick
  match Py.splitWs fl, hf, Py.splitWs dl, hd, Py.splitWs al, ha with
  | a0 :: a1 :: a2 :: a3 :: a4 :: a5 :: a6 :: a7 :: ar, _, b0 :: b1 :: b2 :: b3 :: br, _, c0 :: c1 :: c2 :: c3 :: cr, _ => rfl

theorem mergeLoop_nodes (e : Nat) (out : List Str) (nf nd na rf rd ra : List Str) (h1 : nd.length = nf.length) (h2 : na.length = nf.length)
    (hp : ∀ l ∈ nf, PlainLine l) (cf : ∀ l ∈ nf, 8 ≤ (Py.splitWs l).length) (cd : ∀ l ∈ nd, 4 ≤ (Py.splitWs l).length)
    (ca : ∀ l ∈ na, 4 ≤ (Py.splitWs l).length) :
    Ansys.mergeLoop ⟨nf.length, e, out⟩ (nf ++ rf) (nd ++ rd) (na ++ ra) =
      Ansys.mergeLoop ⟨0, e, out ++ (nf.zip (nd.zip na)).map (fun p => mergedNode p.1 p.2.1 p.2.2)⟩ rf rd ra := by
  induction nf generalizing nd na out with
  | nil =>
    simp at h1 h2
    subst h1 h2
    simp
  | cons x nf ih =>
    match nd, na, h1, h2 with
    | y :: nd, w :: na, h1, h2 =>
      have hx : Ansys.mergeLine ⟨(x :: nf).length, e, out⟩ x y w = .ok ⟨nf.length, e, out ++ [mergedNode x y w]⟩ := by
        unfold Ansys.mergeLine
        rw [(hp x (by simp)).notMeta]
        simp only [Bool.false_eq_true, if_false]
        rw [if_pos (by simp), mergedFields_ok (cf x (by simp)) (cd y (by simp)) (ca w (by simp)), res_bind_ok]
        simp [mergedNode, wordsLine]
      rw [List.cons_append, Ansys.mergeLoop]
      simp only [List.cons_append, List.headD_cons, List.tail_cons]
      rw [hx, res_bind_ok, ih _ nd na (by simpa using h1) (by simpa using h2) (fun l hl => hp l (by simp [hl]))
        (fun l hl => cf l (by simp [hl])) (fun l hl => cd l (by simp [hl])) (fun l hl => ca l (by simp [hl]))]
      simp

theorem mergeLoop_elems (out : List Str) (nf nd na rf rd ra : List Str) (h1 : nd.length = nf.length) (h2 : na.length = nf.length)
    (hp : ∀ l ∈ nf, PlainLine l) :
    Ansys.mergeLoop ⟨0, nf.length, out⟩ (nf ++ rf) (nd ++ rd) (na ++ ra) = Ansys.mergeLoop ⟨0, 0, out ++ nf⟩ rf rd ra := by
  induction nf generalizing nd na out with
  | nil =>
    simp at h1 h2
    subst h1 h2
    simp
  | cons x nf ih =>
    match nd, na, h1, h2 with
    | y :: nd, w :: na, h1, h2 =>
      have hx : Ansys.mergeLine ⟨0, (x :: nf).length, out⟩ x y w = .ok ⟨0, nf.length, out ++ [x]⟩ := by
        simp [Ansys.mergeLine, (hp x (by simp)).notMeta]
      rw [List.cons_append, Ansys.mergeLoop]
      simp only [List.cons_append, List.headD_cons, List.tail_cons]
      rw [hx, res_bind_ok, ih _ nd na (by simpa using h1) (by simpa using h2) (fun l hl => hp l (by simp [hl]))]
      simp

theorem mergeLoop_zone {zs : TecZone × TecZone × TecZone} (h : zs.1.Ok) (hm : Mergeable zs) (out rf rd ra : List Str) :
    Ansys.mergeLoop ⟨0, 0, out⟩ (zs.1.lines ++ rf) (zs.2.1.lines ++ rd) (zs.2.2.lines ++ ra) =
      Ansys.mergeLoop ⟨0, 0, out ++ (mergedZone zs).lines⟩ rf rd ra := by
  obtain ⟨h1, h2, h3, -⟩ := h.head_facts
  have hx : ∀ d a, Ansys.mergeLine ⟨0, 0, out⟩ zs.1.head d a = .ok ⟨zs.1.nodes.length, zs.1.elems.length, out ++ [zs.1.head]⟩ := by
    intro d a
    simp [Ansys.mergeLine, h1, h2, h3, counts_ok h.counts]
  unfold TecZone.lines
  rw [List.cons_append, Ansys.mergeLoop, hx, res_bind_ok]
  simp only [List.cons_append, List.tail_cons, List.append_assoc]
  rw [mergeLoop_nodes _ _ _ _ _ _ _ _ hm.nodes1 hm.nodes2 h.nodes hm.cols hm.cols1 hm.cols2,
    mergeLoop_elems _ _ _ _ _ _ _ hm.elems1 hm.elems2 h.elems]
  simp [mergedZone]

/-- The line of variables of the merged file. -/
def mergedVars : Str :=
  "VARIABLES = \"X\", \"Y\", \"Z\", \"Flux\", \"Beta\", \"TauX\", \"TauY\", \"TauZ\", \"Ts\", \"StatT\"\n".toList

theorem mergeFiles_ok {f d a : TecFile} (hf : f.Ok) (hd : d.Ok) (ha : a.Ok) (zs : List (TecZone × TecZone × TecZone))
    (ef : f.zones = zs.map (·.1)) (ed : d.zones = zs.map (·.2.1)) (ea : a.zones = zs.map (·.2.2)) (hm : ∀ z ∈ zs, Mergeable z) :
    Ansys.mergeFiles f.text d.text a.text = .ok
      { title := f.title, vars := mergedVars, zones := zs.map mergedZone : TecFile }.text := by
  have hz : ∀ (zs : List (TecZone × TecZone × TecZone)) (out : List Str), (∀ z ∈ zs, z.1.Ok) → (∀ z ∈ zs, Mergeable z) →
      Ansys.mergeLoop ⟨0, 0, out⟩ ((zs.map (·.1)).flatMap TecZone.lines) ((zs.map (·.2.1)).flatMap TecZone.lines)
        ((zs.map (·.2.2)).flatMap TecZone.lines) = .ok ⟨0, 0, out ++ (zs.map mergedZone).flatMap TecZone.lines⟩ := by
    intro zs
    induction zs with
    | nil => intro out _ _; simp [Ansys.mergeLoop]
    | cons z zs ih =>
      intro out h1 h2
      simp only [List.map_cons, List.flatMap_cons]
      rw [mergeLoop_zone (h1 z (by simp)) (h2 z (by simp)), ih _ (fun x hx => h1 x (by simp [hx])) (fun x hx => h2 x (by simp [hx]))]
      simp
  unfold Ansys.mergeFiles
  rw [hf.readlines, hd.readlines, ha.readlines]
  unfold TecFile.lines
  have h1 : ∀ x y, Ansys.mergeLine ⟨0, 0, []⟩ f.title x y = .ok ⟨0, 0, [f.title]⟩ := by
    intro x y
    simp [Ansys.mergeLine, hf.title_facts]
  have h2 : ∀ x y, Ansys.mergeLine ⟨0, 0, [f.title]⟩ f.vars x y = .ok ⟨0, 0, [f.title, mergedVars]⟩ := by
    intro x y
    simp only [Ansys.mergeLine, hf.vars_facts, if_true]
    rfl
  rw [Ansys.mergeLoop, h1, res_bind_ok]
  simp only [List.tail_cons]
  rw [Ansys.mergeLoop, h2, res_bind_ok]
  simp only [List.tail_cons]
  rw [ef, ed, ea, hz zs _ (fun z hz' => hf.zones _ (by rw [ef]; exact List.mem_map.mpr ⟨z, hz', rfl⟩)) hm, res_bind_ok]
  simp [TecFile.text, TecFile.lines]

/-! ### `calculate_htc_recovery_factor` -/

variable [Field F] [DecidableEq F]

theorem htcFields_ok {c : Codec F} {airT airV cp : F} (h2 : (2 : F) ≠ 0) (hv : airV ≠ 0) (hc : cp ≠ 0)
    {x y z q b tx ty tz ts st : Str} {Q Ts Ta : F} (hq : c.parse q = .ok Q) (hts : c.parse ts = .ok Ts) (hst : c.parse st = .ok Ta)
    (hne : Ts ≠ Ta) :
    Ansys.htcFields c airT airV cp [x, y, z, q, b, tx, ty, tz, ts, st] =
      .ok [x, y, z, c.fmt (-Q / (Ts - Ta)), b, tx, ty, tz, c.fmt ((Ta - airT) * (2 * cp / (airV * airV)))] := by
  have hvv : airV * airV ≠ 0 := mul_ne_zero hv hv
  have hk : 2 * cp / (airV * airV) ≠ 0 := div_ne_zero (mul_ne_zero h2 hc) hvv
  have hd : airT + (Ta - airT) * (2 * cp / (airV * airV)) / (2 * cp / (airV * airV)) = Ta := by
    rw [mul_div_assoc, div_self hk]; ring
  unfold Ansys.htcFields
  rw [show Py.get [x, y, z, q, b, tx, ty, tz, ts, st] 3 = .ok q from rfl, res_bind_ok, hq, res_bind_ok]
  show (Py.get [x, y, z, q, b, tx, ty, tz, ts, st] 8 >>= _) = _
  rw [show Py.get [x, y, z, q, b, tx, ty, tz, ts, st] 8 = .ok ts from rfl, res_bind_ok, hts, res_bind_ok,
    show Py.get [x, y, z, q, b, tx, ty, tz, ts, st] 9 = .ok st from rfl, res_bind_ok, hst, res_bind_ok, if_neg hvv]
  simp only
  rw [if_neg hk, hd, if_neg (sub_ne_zero.mpr hne)]
  rfl

theorem foldlM_lines₂ {σ : Type} (step : σ → Str → Res σ) (st : Nat → List Str → σ) (r : Str → Str → Prop) {ls ls' : List Str}
    (hr : List.Forall₂ r ls ls') (out : List Str)
    (h : ∀ l ∈ ls, ∀ l', r l l' → ∀ k out, step (st (k + 1) out) l = .ok (st k (out ++ [l']))) :
    ls.foldlM step (st ls.length out) = .ok (st 0 (out ++ ls')) := by
  induction hr generalizing out with
  | nil => simp
  | @cons l l' ls ls' hl _ ih =>
    rw [List.foldlM_cons, List.length_cons, h l (by simp) l' hl, res_bind_ok, ih _ (fun x hx => h x (by simp [hx]))]
    simp

theorem htc_zone {c : Codec F} {airT airV cp : F} (h2 : (2 : F) ≠ 0) (hv : airV ≠ 0) (hc : cp ≠ 0) {z z' : TecZone} (h : z.Ok)
    (hz : ZoneRel (HtcNode c airT airV cp) z z') (out : List Str) :
    z.lines.foldlM (Ansys.htcLine c airT airV cp) ⟨0, 0, out⟩ = .ok ⟨0, 0, out ++ z'.lines⟩ := by
  obtain ⟨h1, h2', h3, -⟩ := h.head_facts
  unfold TecZone.lines
  rw [List.foldlM_cons]
  have : Ansys.htcLine c airT airV cp ⟨0, 0, out⟩ z.head = .ok ⟨z.nodes.length, z.elems.length, out ++ [z.head]⟩ := by
    simp [Ansys.htcLine, h1, h2', h3, counts_ok h.counts]
  rw [this, res_bind_ok, List.foldlM_append,
    foldlM_lines₂ (Ansys.htcLine c airT airV cp) (fun k o => ⟨k, z.elems.length, o⟩) _ hz.nodes, res_bind_ok,
    foldlM_lines (Ansys.htcLine c airT airV cp) (fun k o => ⟨0, k, o⟩) id z.elems]
  · simp [hz.head, hz.elems]
  · intro l hl k o
    simp [Ansys.htcLine, (h.elems l hl).notMeta]
  · intro l hl l' hll k o
    obtain ⟨x, y, w, q, b, tx, ty, tz, ts, st, Q, Ts, Ta, e, hq, hts, hst, hne, rfl⟩ := hll
    unfold Ansys.htcLine
    rw [(h.nodes l hl).notMeta]
    simp only [Bool.false_eq_true, if_false]
    rw [if_pos (by omega), e, htcFields_ok h2 hv hc hq hts hst hne, res_bind_ok]
    rfl

/-- The line of variables after the heat transfer coefficient is computed. -/
def htcVars : Str :=
  "VARIABLES = \"X\", \"Y\", \"Z\", \"HTC\", \"Beta\", \"TauX\", \"TauY\", \"TauZ\", \"RecoveryFactor\"\n".toList

theorem calcHtc_ok {c : Codec F} {airT airV cp : F} (h2 : (2 : F) ≠ 0) (hv : airV ≠ 0) (hc : cp ≠ 0) {f : TecFile} (hf : f.Ok)
    {zs' : List TecZone} (hz : List.Forall₂ (ZoneRel (HtcNode c airT airV cp)) f.zones zs') :
    Ansys.calcHtc c airT airV cp f.text = .ok { title := f.title, vars := htcVars, zones := zs' : TecFile }.text := by
  have key : ∀ (zs zs' : List TecZone) (out : List Str), (∀ z ∈ zs, z.Ok) → List.Forall₂ (ZoneRel (HtcNode c airT airV cp)) zs zs' →
      (zs.flatMap TecZone.lines).foldlM (Ansys.htcLine c airT airV cp) ⟨0, 0, out⟩ = .ok ⟨0, 0, out ++ zs'.flatMap TecZone.lines⟩ := by
    intro zs zs' out hok hr
    induction hr generalizing out with
    | nil => simp
    | @cons z z' zs zs' h1 _ ih =>
      rw [List.flatMap_cons, List.foldlM_append, htc_zone h2 hv hc (hok z (by simp)) h1, res_bind_ok,
        ih _ (fun x hx => hok x (by simp [hx]))]
      simp
  unfold Ansys.calcHtc
  rw [hf.readlines]
  unfold TecFile.lines
  have h1 : Ansys.htcLine c airT airV cp ⟨0, 0, []⟩ f.title = .ok ⟨0, 0, [f.title]⟩ := by
    simp [Ansys.htcLine, hf.title_facts]
  have h2 : Ansys.htcLine c airT airV cp ⟨0, 0, [f.title]⟩ f.vars = .ok ⟨0, 0, [f.title, htcVars]⟩ := by
    simp only [Ansys.htcLine, hf.vars_facts, if_true]
    rfl
  rw [List.foldlM_cons, h1, res_bind_ok, List.foldlM_cons, h2, res_bind_ok, key _ _ _ hf.zones hz, res_bind_ok]
  simp [TecFile.text, TecFile.lines]

theorem foldlM_back {σ : Type} (step : σ → Str → Res σ) (st : Nat → List Str → σ) (p : Str → Prop) {ls : List Str} {out : List Str} {s' : σ}
    (h : ∀ l ∈ ls, ∀ k out s1, step (st (k + 1) out) l = .ok s1 → p l ∧ ∃ out', s1 = st k out')
    (hr : ls.foldlM step (st ls.length out) = .ok s') : (∀ l ∈ ls, p l) ∧ ∃ out', s' = st 0 out' := by
  induction ls generalizing out with
  | nil => cases hr; exact ⟨by simp, out, rfl⟩
  | cons l ls ih =>
    rw [List.foldlM_cons, List.length_cons, res_bind_eq_ok] at hr
    obtain ⟨s1, h1, h2⟩ := hr
    obtain ⟨hp, out', rfl⟩ := h l (by simp) _ _ _ h1
    obtain ⟨h3, h4⟩ := ih (fun x hx => h x (by simp [hx])) h2
    refine ⟨?_, h4⟩
    intro x hx
    rcases List.mem_cons.1 hx with rfl | hx
    · exact hp
    · exact h3 x hx

/-- When the computation succeeds it has succeeded in every node. -/
theorem htc_nodes {c : Codec F} {airT airV cp : F} {f : TecFile} (hf : f.Ok) {t : Str} (h : Ansys.calcHtc c airT airV cp f.text = .ok t) :
    ∀ z ∈ f.zones, ∀ l ∈ z.nodes, ∃ fs, Ansys.htcFields c airT airV cp (Py.splitWs l) = .ok fs := by
  have key : ∀ (zs : List TecZone) (out : List Str) s', (∀ z ∈ zs, z.Ok) →
      (zs.flatMap TecZone.lines).foldlM (Ansys.htcLine c airT airV cp) ⟨0, 0, out⟩ = .ok s' →
      ∀ z ∈ zs, ∀ l ∈ z.nodes, ∃ fs, Ansys.htcFields c airT airV cp (Py.splitWs l) = .ok fs := by
    intro zs
    induction zs with
    | nil => intro _ _ _ _ z hz; simp at hz
    | cons z zs ih =>
      intro out s' hok hr
      have hz := hok z (by simp)
      obtain ⟨h1, h2', h3, -⟩ := hz.head_facts
      rw [List.flatMap_cons] at hr
      unfold TecZone.lines at hr
      rw [List.cons_append, List.foldlM_cons] at hr
      have : Ansys.htcLine c airT airV cp ⟨0, 0, out⟩ z.head = .ok ⟨z.nodes.length, z.elems.length, out ++ [z.head]⟩ := by
        simp [Ansys.htcLine, h1, h2', h3, counts_ok hz.counts]
      rw [this, res_bind_ok, List.foldlM_append, List.foldlM_append, res_bind_eq_ok] at hr
      obtain ⟨s1, ha, hb⟩ := hr
      rw [res_bind_eq_ok] at ha
      obtain ⟨s0, ha0, ha1⟩ := ha
      obtain ⟨k1, o1, rfl⟩ := foldlM_back (Ansys.htcLine c airT airV cp) (fun k o => ⟨k, z.elems.length, o⟩)
        (fun l => ∃ fs, Ansys.htcFields c airT airV cp (Py.splitWs l) = .ok fs) (fun l hl k o s1 hs => by
          unfold Ansys.htcLine at hs
          rw [(hz.nodes l hl).notMeta] at hs
          simp only [Bool.false_eq_true, if_false] at hs
          rw [if_pos (by omega), res_bind_eq_ok] at hs
          obtain ⟨fs, hfs, he⟩ := hs
          cases he
          exact ⟨⟨fs, hfs⟩, _, rfl⟩) ha0
      obtain ⟨-, o2, rfl⟩ := foldlM_back (Ansys.htcLine c airT airV cp) (fun k o => ⟨0, k, o⟩) (fun _ => True) (fun l hl k o s1 hs => by
          simp [Ansys.htcLine, (hz.elems l hl).notMeta] at hs
          exact ⟨trivial, _, hs.symm⟩) ha1
      intro x hx
      rcases List.mem_cons.1 hx with rfl | hx
      · exact k1
      · exact ih o2 s' (fun y hy => hok y (by simp [hy])) hb x hx
  unfold Ansys.calcHtc at h
  rw [hf.readlines, res_bind_eq_ok] at h
  obtain ⟨s', h, -⟩ := h
  unfold TecFile.lines at h
  have h1 : Ansys.htcLine c airT airV cp ⟨0, 0, []⟩ f.title = .ok ⟨0, 0, [f.title]⟩ := by
    simp [Ansys.htcLine, hf.title_facts]
  have h2 : Ansys.htcLine c airT airV cp ⟨0, 0, [f.title]⟩ f.vars = .ok ⟨0, 0, [f.title, htcVars]⟩ := by
    simp only [Ansys.htcLine, hf.vars_facts, if_true]
    rfl
  rw [List.foldlM_cons, h1, res_bind_ok, List.foldlM_cons, h2, res_bind_ok] at h
  exact key _ _ _ hf.zones h

end Verif
