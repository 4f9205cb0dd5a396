import Verif.Spec.Convert
import Verif.Model.Ansys
import Verif.Proofs.Text

/-! Reading the lines of ANSYS files. -/

namespace Verif
variable {F R : Type}

theorem contains_iff_infix (p s : Str) : Py.contains p s = true ↔ p <:+: s := by
  rw [Py.contains_iff]
  constructor
  · rintro ⟨a, b, h⟩; exact ⟨a, b, h.symm⟩
  · rintro ⟨a, b, h⟩; exact ⟨a, b, h.symm⟩

theorem contains_false_iff (p s : Str) : Py.contains p s = false ↔ ¬ p <:+: s := by
  rw [← contains_iff_infix, Bool.not_eq_true]

/-! ### The numbers of nodes and elements -/

/-- No separator `N=` begins in `a` when `a` is followed by `s`. -/
theorem splitStrAux_skip (a s acc : Str) (h : ¬ "N=".toList <:+: a) (hs : s.head? ≠ some '=') :
    Py.splitStrAux "N=".toList 0 (a ++ s) acc = Py.splitStrAux "N=".toList 0 s (acc ++ a) := by
  induction a generalizing acc with
  | nil => simp
  | cons c a ih =>
    have h' : ¬ "N=".toList <:+: a := fun hh => h (hh.trans (List.suffix_cons c a).isInfix)
    have hp : ¬ ("N=".toList.isPrefixOf (c :: (a ++ s)) = true) := by
      intro hp
      rw [List.isPrefixOf_iff_prefix] at hp
      obtain ⟨t, ht⟩ := hp
      cases a with
      | nil =>
        cases s with
        | nil => simp at ht
        | cons d s =>
          simp at ht hs
          exact hs ht.2.1.symm
      | cons d a =>
        simp at ht
        obtain ⟨rfl, rfl, -⟩ := ht
        exact h ⟨[], a, by simp⟩
    rw [List.cons_append, Py.splitStrAux, if_neg hp, ih _ h']
    simp

theorem splitStr_first (a s : Str) (h : ¬ "N=".toList <:+: a) :
    Py.splitStr "N=".toList (a ++ "N=".toList ++ s) = a :: Py.splitStr "N=".toList s := by
  unfold Py.splitStr
  rw [List.append_assoc, splitStrAux_skip a _ [] h (by simp)]
  show Py.splitStrAux "N=".toList 0 ('N' :: '=' :: s) _ = _
  rw [Py.splitStrAux, if_pos (by rfl)]
  rfl

theorem digitRunsAux_digits (d s acc : Str) (h : ∀ c ∈ d, Py.isDecimal c = true) :
    Py.digitRunsAux (d ++ s) acc = Py.digitRunsAux s (acc ++ d) := by
  induction d generalizing acc with
  | nil => simp
  | cons c d ih =>
    rw [List.cons_append, Py.digitRunsAux, if_pos (h c (by simp)), ih _ (fun x hx => h x (by simp [hx]))]
    simp

theorem digitRunsAux_skip (m s : Str) (h : ∀ c ∈ m, Py.isDecimal c = false) :
    Py.digitRunsAux (m ++ s) [] = Py.digitRunsAux s [] := by
  induction m with
  | nil => simp
  | cons c m ih =>
    rw [List.cons_append, Py.digitRunsAux, if_neg (by simp [h c (by simp)]), if_pos rfl, ih (fun x hx => h x (by simp [hx]))]

theorem digitRunsAux_end (c : Char) (s acc : Str) (h : Py.isDecimal c = false) (ha : acc ≠ []) :
    Py.digitRunsAux (c :: s) acc = acc :: Py.digitRunsAux s [] := by
  rw [Py.digitRunsAux, if_neg (by simp [h]), if_neg ha]

theorem natStr_isDecimal (n : Nat) : ∀ c ∈ Py.natStr n, Py.isDecimal c = true := by
  have := Py.allDec_iff.mp (Py.natStr_allDec n)
  simpa using this

theorem isDecimal_ne {c : Char} (h : Py.isDecimal c = true) : c ≠ 'N' := by
  rintro rfl
  revert h; decide

theorem splitStrAux_prefix (sep : Str) (s acc : Str) : ∃ p ps, Py.splitStrAux sep 0 s acc = (acc ++ p) :: ps ∧ p <+: s := by
  induction s generalizing acc with
  | nil => exact ⟨[], [], by simp [Py.splitStrAux], List.nil_prefix⟩
  | cons c s ih =>
    rw [Py.splitStrAux]
    split
    · exact ⟨[], _, by rw [List.append_nil], List.nil_prefix⟩
    · obtain ⟨p, ps, h1, h2⟩ := ih (acc ++ [c])
      exact ⟨c :: p, ps, by simpa using h1, List.cons_prefix_cons.mpr ⟨rfl, h2⟩⟩

theorem counts_ok {head : Str} {n e : Nat} (h : HasCounts head n e) : Ansys.counts head = .ok (n, e) := by
  obtain ⟨pre, mid, post, rfl, hpre, hm, hmid, hpost⟩ := h
  have hno : 'N' ∉ Py.natStr n ++ mid ++ Py.natStr e := by
    intro hN
    simp only [List.mem_append] at hN
    rcases hN with (hN | hN) | hN
    · exact isDecimal_ne (natStr_isDecimal n _ hN) rfl
    · exact (hmid _ hN).2 rfl
    · exact isDecimal_ne (natStr_isDecimal e _ hN) rfl
  have hno' : ¬ "N=".toList <:+: Py.natStr n ++ mid ++ Py.natStr e := by
    intro hh
    exact hno (hh.subset (by simp))
  obtain ⟨p, ps, hsplit, hp⟩ : ∃ p ps, Py.splitStr "N=".toList (Py.natStr n ++ mid ++ Py.natStr e ++ post) =
      (Py.natStr n ++ mid ++ Py.natStr e ++ p) :: ps ∧ p <+: post := by
    unfold Py.splitStr
    rw [splitStrAux_skip _ post [] hno' (fun h => (hpost '=' (by rw [h]; rfl)).2 rfl)]
    rw [List.nil_append]
    exact splitStrAux_prefix "N=".toList post (Py.natStr n ++ mid ++ Py.natStr e)
  have hpp : ∀ c ∈ p.head?, Py.isDecimal c = false := by
    intro c hc
    refine (hpost c ?_).1
    obtain ⟨q, rfl⟩ := hp
    cases p with
    | nil => simp at hc
    | cons a p => simpa using hc
  have hruns : ∃ l, Py.digitRuns (Py.natStr n ++ mid ++ Py.natStr e ++ p) = Py.natStr n :: Py.natStr e :: l := by
    unfold Py.digitRuns
    rw [List.append_assoc, List.append_assoc, digitRunsAux_digits _ _ _ (natStr_isDecimal n)]
    cases mid with
    | nil => exact absurd rfl hm
    | cons c mid =>
      rw [List.cons_append, digitRunsAux_end c _ _ (hmid c (by simp)).1 (by simp [Py.natStr_ne_nil]),
        digitRunsAux_skip _ _ (fun x hx => (hmid x (by simp [hx])).1), digitRunsAux_digits _ _ _ (natStr_isDecimal e)]
      cases p with
      | nil =>
        refine ⟨[], ?_⟩
        rw [Py.digitRunsAux, if_neg (by simp [Py.natStr_ne_nil])]
        simp
      | cons d p =>
        refine ⟨Py.digitRunsAux p [], ?_⟩
        rw [digitRunsAux_end d _ _ (hpp d (by simp)) (by simp [Py.natStr_ne_nil])]
        simp
  obtain ⟨l, hl⟩ := hruns
  unfold Ansys.counts
  rw [splitStr_first _ _ hpre, hsplit]
  rw [show Py.get (pre :: (Py.natStr n ++ mid ++ Py.natStr e ++ p) :: ps) 1 = .ok (Py.natStr n ++ mid ++ Py.natStr e ++ p) from rfl,
    res_bind_ok, hl]
  show (Py.get (Py.natStr n :: Py.natStr e :: l) 0 >>= _) = _
  rw [show Py.get (Py.natStr n :: Py.natStr e :: l) 0 = .ok (Py.natStr n) from rfl, res_bind_ok, Py.int_natStr, res_bind_ok,
    show Py.get (Py.natStr n :: Py.natStr e :: l) 1 = .ok (Py.natStr e) from rfl, res_bind_ok, Py.int_natStr, res_bind_ok]
  rfl

/-! ### Lines -/

theorem PlainLine.notMeta {l : Str} (h : PlainLine l) : Ansys.isMeta l = false := by
  unfold Ansys.isMeta Ansys.isTitle Ansys.isVariables Ansys.isZone
  rw [(contains_false_iff _ _).mpr h.2.1, (contains_false_iff _ _).mpr h.2.2.1, (contains_false_iff _ _).mpr h.2.2.2]
  rfl

theorem TecZone.Ok.head_facts {z : TecZone} (h : z.Ok) :
    Ansys.isMeta z.head = true ∧ Ansys.isTitle z.head = false ∧ Ansys.isVariables z.head = false ∧ Ansys.isZone z.head = true := by
  refine ⟨?_, (contains_false_iff _ _).mpr h.title, (contains_false_iff _ _).mpr h.vars, (contains_iff_infix _ _).mpr h.zone⟩
  have : Ansys.isZone z.head = true := (contains_iff_infix _ _).mpr h.zone
  simp [Ansys.isMeta, this]

theorem TecFile.Ok.title_facts {f : TecFile} (h : f.Ok) : Ansys.isMeta f.title = true ∧ Ansys.isTitle f.title = true := by
  have : Ansys.isTitle f.title = true := (contains_iff_infix _ _).mpr h.title.2
  exact ⟨by simp [Ansys.isMeta, this], this⟩

theorem TecFile.Ok.vars_facts {f : TecFile} (h : f.Ok) :
    Ansys.isMeta f.vars = true ∧ Ansys.isTitle f.vars = false ∧ Ansys.isVariables f.vars = true := by
  have : Ansys.isVariables f.vars = true := (contains_iff_infix _ _).mpr h.vars.2.1
  exact ⟨by simp [Ansys.isMeta, this], (contains_false_iff _ _).mpr h.vars.2.2, this⟩

theorem TecFile.Ok.isLine {f : TecFile} (h : f.Ok) : ∀ l ∈ f.lines, Py.IsLine l := by
  intro l hl
  simp only [TecFile.lines, TecZone.lines, List.mem_cons, List.mem_flatMap, List.mem_append] at hl
  rcases hl with rfl | rfl | ⟨z, hz, rfl | hl | hl⟩
  · exact h.title.1
  · exact h.vars.1
  · exact (h.zones z hz).line
  · exact ((h.zones z hz).nodes l hl).1
  · exact ((h.zones z hz).elems l hl).1

theorem TecFile.Ok.readlines {f : TecFile} (h : f.Ok) : Py.readlines f.text = f.lines := Py.readlines_flatten h.isLine

/-- A run of lines, each of which is counted down and written in a changed form. -/
theorem foldlM_lines {σ : Type} (step : σ → Str → Res σ) (st : Nat → List Str → σ) (g : Str → Str) (ls : List Str) (out : List Str)
    (h : ∀ l ∈ ls, ∀ k out, step (st (k + 1) out) l = .ok (st k (out ++ [g l]))) :
    ls.foldlM step (st ls.length out) = .ok (st 0 (out ++ ls.map g)) := by
  induction ls generalizing out with
  | nil => simp
  | cons l ls ih =>
    rw [List.foldlM_cons, List.length_cons, h l (by simp), res_bind_ok, ih _ (fun x hx => h x (by simp [hx]))]
    simp

theorem foldlM_same {σ α : Type} (step : σ → α → Res σ) (s : σ) (ls : List α) (h : ∀ l ∈ ls, step s l = .ok s) :
    ls.foldlM step s = .ok s := by
  induction ls with
  | nil => rfl
  | cons l ls ih => rw [List.foldlM_cons, h l (by simp), res_bind_ok, ih (fun x hx => h x (by simp [hx]))]

/-! ### `filter_zones` -/

theorem isZoneToExtract_iff {z : TecZone} (h : z.Ok) (zs : List Str) : Ansys.isZoneToExtract zs z.head = true ↔ z.Named zs := by
  simp [Ansys.isZoneToExtract, h.head_facts.2.2.2, TecZone.Named, contains_iff_infix]

theorem filterZones_zone (zs : List Str) {z : TecZone} (h : z.Ok) (hn : z.Named zs) (out : List Str) :
    z.lines.foldlM (Ansys.filterZonesLine zs) ⟨0, 0, out⟩ = .ok ⟨0, 0, out ++ z.lines⟩ := by
  obtain ⟨h1, h2, h3, h4⟩ := h.head_facts
  have hn' := (isZoneToExtract_iff h zs).mpr hn
  unfold TecZone.lines
  rw [List.foldlM_cons]
  have : Ansys.filterZonesLine zs ⟨0, 0, out⟩ z.head = .ok ⟨z.nodes.length, z.elems.length, out ++ [z.head]⟩ := by
    simp [Ansys.filterZonesLine, h1, h2, h3, counts_ok h.counts, hn']
  rw [this, res_bind_ok, List.foldlM_append,
    foldlM_lines (Ansys.filterZonesLine zs) (fun k o => ⟨k, z.elems.length, o⟩) id z.nodes, res_bind_ok,
    foldlM_lines (Ansys.filterZonesLine zs) (fun k o => ⟨0, k, o⟩) id z.elems]
  · simp
  · intro l hl k o
    simp [Ansys.filterZonesLine, (h.elems l hl).notMeta]
  · intro l hl k o
    simp [Ansys.filterZonesLine, (h.nodes l hl).notMeta]

theorem filterZones_skip (zs : List Str) {z : TecZone} (h : z.Ok) (hn : ¬ z.Named zs) (out : List Str) :
    z.lines.foldlM (Ansys.filterZonesLine zs) ⟨0, 0, out⟩ = .ok ⟨0, 0, out⟩ := by
  obtain ⟨h1, h2, h3, h4⟩ := h.head_facts
  have hn' : Ansys.isZoneToExtract zs z.head = false := by
    rw [← Bool.not_eq_true, isZoneToExtract_iff h]; exact hn
  apply foldlM_same
  intro l hl
  simp only [TecZone.lines, List.mem_cons, List.mem_append] at hl
  rcases hl with rfl | hl | hl
  · simp [Ansys.filterZonesLine, h1, h2, h3, counts_ok h.counts, hn']
  · simp [Ansys.filterZonesLine, (h.nodes l hl).notMeta]
  · simp [Ansys.filterZonesLine, (h.elems l hl).notMeta]

open Classical in
theorem filterZones_zones (names : List Str) (zs : List TecZone) (h : ∀ z ∈ zs, z.Ok) (out : List Str) :
    (zs.flatMap TecZone.lines).foldlM (Ansys.filterZonesLine names) ⟨0, 0, out⟩ =
      .ok ⟨0, 0, out ++ (zs.filter (fun z => z.Named names)).flatMap TecZone.lines⟩ := by
  induction zs generalizing out with
  | nil => simp
  | cons z zs ih =>
    rw [List.flatMap_cons, List.foldlM_append]
    by_cases hn : z.Named names
    · rw [filterZones_zone names (h z (by simp)) hn, res_bind_ok, ih (fun x hx => h x (by simp [hx]))]
      simp [hn]
    · rw [filterZones_skip names (h z (by simp)) hn, res_bind_ok, ih (fun x hx => h x (by simp [hx]))]
      simp [hn]

open Classical in
theorem filterZones_ok (names : List Str) {f : TecFile} (h : f.Ok) :
    Ansys.filterZones names f.text = .ok { f with zones := f.zones.filter (fun z => z.Named names) : TecFile }.text := by
  unfold Ansys.filterZones
  rw [h.readlines]
  unfold TecFile.lines
  have h1 : Ansys.filterZonesLine names ⟨0, 0, []⟩ f.title = .ok ⟨0, 0, [f.title]⟩ := by
    simp [Ansys.filterZonesLine, h.title_facts]
  have h2 : Ansys.filterZonesLine names ⟨0, 0, [f.title]⟩ f.vars = .ok ⟨0, 0, [f.title, f.vars]⟩ := by
    simp [Ansys.filterZonesLine, h.vars_facts]
  rw [List.foldlM_cons, h1, res_bind_ok, List.foldlM_cons, h2, res_bind_ok, filterZones_zones names _ h.zones, res_bind_ok]
  simp [TecFile.text, TecFile.lines]

/-! ### `filter_variables` -/

theorem nameMatch_iff (fn sn : Str) : Ansys.nameMatch fn sn = true ↔ Fits fn sn := by
  unfold Ansys.nameMatch Fits
  split
  · rename_i h
    rw [beq_iff_eq]
    exact ⟨fun e => ⟨fun _ => e.symm, fun h' => absurd h h'⟩, fun hh => (hh.1 h).symm⟩
  · rename_i h
    rw [contains_iff_infix]
    exact ⟨fun e => ⟨fun h' => absurd h' h, fun _ => e⟩, fun hh => hh.2 h⟩

theorem getLast?_filter {α : Type} (p : α → Bool) (l : List α) (x : α) :
    (l.filter p).getLast? = some x ↔ ∃ a b, l = a ++ x :: b ∧ p x = true ∧ ∀ y ∈ b, p y = false := by
  induction l with
  | nil => simp
  | cons c l ih =>
    by_cases hl : l.filter p = []
    · have hno : ∀ y ∈ l, p y = false := by
        intro y hy
        by_contra hc
        have : y ∈ l.filter p := List.mem_filter.mpr ⟨hy, by simpa using hc⟩
        rw [hl] at this
        simp at this
      constructor
      · intro h
        by_cases hc : p c = true
        · rw [List.filter_cons_of_pos hc, hl] at h
          simp at h
          subst h
          exact ⟨[], l, rfl, hc, hno⟩
        · rw [List.filter_cons_of_neg hc, hl] at h
          simp at h
      · rintro ⟨a, b, hab, hx, hb⟩
        cases a with
        | nil =>
          simp at hab
          obtain ⟨rfl, rfl⟩ := hab
          rw [List.filter_cons_of_pos hx, hl]
          rfl
        | cons d a =>
          simp at hab
          have := hno x (by simp [hab.2])
          rw [hx] at this
          simp at this
    · have hgl : ((c :: l).filter p).getLast? = (l.filter p).getLast? := by
        by_cases hc : p c = true
        · rw [List.filter_cons_of_pos hc, List.getLast?_cons_of_ne_nil hl]
        · rw [List.filter_cons_of_neg hc]
      rw [hgl, ih]
      constructor
      · rintro ⟨a, b, hab, hx, hb⟩
        exact ⟨c :: a, b, by simp [hab], hx, hb⟩
      · rintro ⟨a, b, hab, hx, hb⟩
        cases a with
        | nil =>
          simp at hab
          obtain ⟨rfl, rfl⟩ := hab
          exfalso
          apply hl
          rw [List.filter_eq_nil_iff]
          intro y hy
          simp [hb y hy]
        | cons d a =>
          simp at hab
          exact ⟨a, b, hab.2, hx, hb⟩

theorem takenFor_iff (wanted : List Str) (fn w : Str) :
    (wanted.filter (Ansys.nameMatch fn)).getLast? = some w ↔ TakenFor wanted fn w := by
  rw [getLast?_filter]
  unfold TakenFor
  simp only [nameMatch_iff]
  constructor
  · rintro ⟨a, b, h1, h2, h3⟩
    exact ⟨a, b, h1, h2, fun v hv => by rw [← nameMatch_iff]; simp [h3 v hv]⟩
  · rintro ⟨a, b, h1, h2, h3⟩
    exact ⟨a, b, h1, h2, fun v hv => by have := h3 v hv; rw [← nameMatch_iff] at this; simpa using this⟩

/-- The columns that are kept. -/
def keptColumns (wanted : List Str) (names : List Str) (base : Nat) : List (Nat × Str) :=
  match names with
  | [] => []
  | fn :: ns =>
    match (wanted.filter (Ansys.nameMatch fn)).getLast? with
    | some w => (base, w) :: keptColumns wanted ns (base + 1)
    | none => keptColumns wanted ns (base + 1)

theorem keptColumns_mem (wanted names : List Str) (base i : Nat) (w : Str) :
    (i, w) ∈ keptColumns wanted names base ↔ ∃ k fn, i = base + k ∧ names[k]? = some fn ∧ TakenFor wanted fn w := by
  induction names generalizing base with
  | nil => simp [keptColumns]
  | cons fn ns ih =>
    have hsplit : (∃ k f, i = base + k ∧ (fn :: ns)[k]? = some f ∧ TakenFor wanted f w) ↔
        (i = base ∧ TakenFor wanted fn w) ∨ ∃ k f, i = (base + 1) + k ∧ ns[k]? = some f ∧ TakenFor wanted f w := by
      constructor
      · rintro ⟨k, f, h1, h2, h3⟩
        cases k with
        | zero => simp at h2; subst h2; exact .inl ⟨by simpa using h1, h3⟩
        | succ k => exact .inr ⟨k, f, by omega, by simpa using h2, h3⟩
      · rintro (⟨h1, h2⟩ | ⟨k, f, h1, h2, h3⟩)
        · exact ⟨0, fn, by simpa using h1, rfl, h2⟩
        · exact ⟨k + 1, f, by omega, by simpa using h2, h3⟩
    rw [hsplit]
    unfold keptColumns
    cases hc : (wanted.filter (Ansys.nameMatch fn)).getLast? with
    | none =>
      simp only
      rw [ih]
      constructor
      · exact .inr
      · rintro (⟨h1, h2⟩ | h)
        · rw [← takenFor_iff, hc] at h2; simp at h2
        · exact h
    | some v =>
      simp only [List.mem_cons, Prod.mk.injEq]
      rw [ih]
      constructor
      · rintro (⟨rfl, rfl⟩ | h)
        · exact .inl ⟨rfl, (takenFor_iff _ _ _).mp hc⟩
        · exact .inr h
      · rintro (⟨h1, h2⟩ | h)
        · rw [← takenFor_iff, hc] at h2; simp at h2; exact .inl ⟨h1, h2.symm⟩
        · exact .inr h

theorem keptColumns_sorted (wanted names : List Str) (base : Nat) :
    ((keptColumns wanted names base).map Prod.fst).Pairwise (· < ·) := by
  induction names generalizing base with
  | nil => simp [keptColumns]
  | cons fn ns ih =>
    unfold keptColumns
    split
    · rw [List.map_cons, List.pairwise_cons]
      refine ⟨?_, ih _⟩
      intro i hi
      obtain ⟨⟨j, w⟩, hm, rfl⟩ := List.mem_map.mp hi
      obtain ⟨k, _, h, _⟩ := (keptColumns_mem _ _ _ _ _).mp hm
      simp only
      omega
    · exact ih _

theorem keptColumns_wanted (wanted names : List Str) : WantedColumns wanted names (keptColumns wanted names 0) := by
  refine ⟨keptColumns_sorted _ _ _, ?_⟩
  intro i w
  rw [keptColumns_mem]
  constructor
  · rintro ⟨k, fn, rfl, h⟩; exact ⟨fn, by simpa using h⟩
  · rintro ⟨fn, h⟩; exact ⟨i, fn, by omega, h⟩

/-- Sorted lists with the same members are equal. -/
theorem wantedColumns_unique {wanted names : List Str} {a b : List (Nat × Str)} (ha : WantedColumns wanted names a)
    (hb : WantedColumns wanted names b) : a = b := by
  have key : ∀ a b : List (Nat × Str), (a.map Prod.fst).Pairwise (· < ·) → (b.map Prod.fst).Pairwise (· < ·) →
      (∀ x, x ∈ a ↔ x ∈ b) → a = b := by
    intro a
    induction a with
    | nil =>
      intro b _ _ h
      cases b with
      | nil => rfl
      | cons y b => exact absurd ((h y).mpr (by simp)) (by simp)
    | cons x a ih =>
      intro b hpa hpb h
      cases b with
      | nil => exact absurd ((h x).mp (by simp)) (by simp)
      | cons y b =>
        rw [List.map_cons, List.pairwise_cons] at hpa hpb
        have hxy : x = y := by
          have h1 := (h x).mp (by simp)
          have h2 := (h y).mpr (by simp)
          rcases List.mem_cons.mp h1 with h1 | h1
          · exact h1
          · rcases List.mem_cons.mp h2 with h2 | h2
            · exact h2.symm
            · have l1 := hpb.1 x.1 (List.mem_map.mpr ⟨x, h1, rfl⟩)
              have l2 := hpa.1 y.1 (List.mem_map.mpr ⟨y, h2, rfl⟩)
              omega
        subst hxy
        congr 1
        apply ih b hpa.2 hpb.2
        intro z
        constructor
        · intro hz
          rcases List.mem_cons.mp ((h z).mp (by simp [hz])) with e | e
          · subst e
            have := hpa.1 z.1 (List.mem_map.mpr ⟨z, hz, rfl⟩)
            omega
          · exact e
        · intro hz
          rcases List.mem_cons.mp ((h z).mpr (by simp [hz])) with e | e
          · subst e
            have := hpb.1 z.1 (List.mem_map.mpr ⟨z, hz, rfl⟩)
            omega
          · exact e
  exact key a b ha.sorted hb.sorted (fun ⟨i, w⟩ => by rw [ha.mem, hb.mem])

theorem filterMask_names (wanted names : List Str) (base : Nat) :
    Ansys.filterMask ((Ansys.namesAndMask names wanted).map Prod.fst) ((Ansys.namesAndMask names wanted).map Prod.snd) =
      (keptColumns wanted names base).map Prod.snd := by
  induction names generalizing base with
  | nil => simp [Ansys.namesAndMask, Ansys.filterMask, keptColumns]
  | cons fn ns ih =>
    have := ih (base + 1)
    unfold Ansys.namesAndMask Ansys.filterMask at this ⊢
    unfold keptColumns
    rw [List.map_cons, List.map_cons, List.map_cons]
    cases hc : (wanted.filter (Ansys.nameMatch fn)).getLast? with
    | none => simpa using this
    | some w => simpa using this

theorem filterMask_values (wanted names : List Str) (base : Nat) (toks pre : List Str) (hp : pre.length = base) :
    Ansys.filterMask toks ((Ansys.namesAndMask names wanted).map Prod.snd) =
      ((keptColumns wanted names base).map Prod.fst).filterMap (fun i => (pre ++ toks)[i]?) := by
  induction names generalizing base toks pre with
  | nil => simp [Ansys.namesAndMask, Ansys.filterMask, keptColumns]
  | cons fn ns ih =>
    cases toks with
    | nil =>
      have : ∀ l : List (Nat × Str), (∀ x ∈ l, base ≤ x.1) → (l.map Prod.fst).filterMap (fun i => (pre ++ [])[i]?) = [] := by
        intro l hl
        rw [List.filterMap_eq_nil_iff]
        intro i hi
        obtain ⟨x, hx, rfl⟩ := List.mem_map.mp hi
        have := hl x hx
        rw [List.append_nil, List.getElem?_eq_none_iff]
        omega
      rw [this]
      · simp [Ansys.filterMask]
      · rintro ⟨i, w⟩ hx
        obtain ⟨k, _, h, _⟩ := (keptColumns_mem _ _ _ _ _).mp hx
        simp only
        omega
    | cons t toks =>
      have := ih (base + 1) toks (pre ++ [t]) (by simp [hp])
      rw [List.append_assoc, List.singleton_append] at this
      unfold Ansys.namesAndMask Ansys.filterMask at this ⊢
      unfold keptColumns
      rw [List.map_cons, List.map_cons]
      have ht : (pre ++ t :: toks)[base]? = some t := by
        rw [← hp, List.getElem?_append_right (by omega)]; simp
      cases hc : (wanted.filter (Ansys.nameMatch fn)).getLast? with
      | none => simpa using this
      | some w => simpa [ht] using this

theorem filterMask_pick (wanted names : List Str) (l : Str) :
    Ansys.filterMask (Py.splitWs l) ((Ansys.namesAndMask names wanted).map Prod.snd) =
      pick ((keptColumns wanted names 0).map Prod.fst) l := by
  simpa [pick] using filterMask_values wanted names 0 (Py.splitWs l) [] rfl

theorem splitCh_join (c : Char) (qs : List Str) (h0 : qs ≠ []) (h : ∀ q ∈ qs, c ∉ q) : Py.splitCh c (Py.join [c] qs) = qs := by
  induction qs with
  | nil => exact absurd rfl h0
  | cons q qs ih =>
    cases qs with
    | nil => simp [Py.join, Py.splitCh_none (h q (by simp))]
    | cons r qs =>
      rw [show Py.join [c] (q :: r :: qs) = q ++ c :: Py.join [c] (r :: qs) from by simp [Py.join],
        Py.splitCh_cons _ (h q (by simp)), ih (by simp) (fun x hx => h x (by simp [hx]))]

theorem names_of_line {line : Str} {names : List Str} (h : HasNames line names) :
    ∃ p, Py.get (Py.splitCh '=' line) 1 = .ok p ∧ Py.splitCh ',' (Py.delCh '"' p) = names := by
  obtain ⟨pre, quoted, rfl, hpre, h0, hq, rfl⟩ := h
  have hj : '=' ∉ Py.join [','] quoted := by
    intro hh
    rcases Py.mem_join hh with hh | ⟨t, ht, hh⟩
    · revert hh; decide
    · exact (hq t ht).1 hh
  refine ⟨Py.join [','] quoted, ?_, ?_⟩
  · rw [Py.splitCh_one hpre hj]; rfl
  · rw [Py.delCh_join, show Py.delCh '"' [','] = [','] from by decide, splitCh_join]
    · rfl
    · simpa using h0
    · intro q hqm
      obtain ⟨r, hr, rfl⟩ := List.mem_map.mp hqm
      intro hc
      exact (hq r hr).2 (List.mem_of_mem_filter hc)

theorem filterVars_zone (wanted : List Str) (m : List Bool) (g : Str → Str)
    (hg : ∀ l, g l = Py.join [' '] (Ansys.filterMask (Py.splitWs l) m) ++ ['\n']) {z : TecZone} (h : z.Ok) (out : List Str) :
    z.lines.foldlM (Ansys.filterVarsLine wanted) ⟨0, 0, some m, out⟩ = .ok ⟨0, 0, some m, out ++ (z.mapNodes g).lines⟩ := by
  obtain ⟨h1, h2, h3, h4⟩ := h.head_facts
  unfold TecZone.lines
  rw [List.foldlM_cons]
  have : Ansys.filterVarsLine wanted ⟨0, 0, some m, out⟩ z.head = .ok ⟨z.nodes.length, z.elems.length, some m, out ++ [z.head]⟩ := by
    simp [Ansys.filterVarsLine, h1, h2, h3, counts_ok h.counts]
  rw [this, res_bind_ok, List.foldlM_append,
    foldlM_lines (Ansys.filterVarsLine wanted) (fun k o => ⟨k, z.elems.length, some m, o⟩) g z.nodes, res_bind_ok,
    foldlM_lines (Ansys.filterVarsLine wanted) (fun k o => ⟨0, k, some m, o⟩) id z.elems]
  · simp [TecZone.mapNodes]
  · intro l hl k o
    simp [Ansys.filterVarsLine, (h.elems l hl).notMeta]
  · intro l hl k o
    simp [Ansys.filterVarsLine, (h.nodes l hl).notMeta, hg]

theorem filterVars_ok (wanted : List Str) {f : TecFile} (h : f.Ok) {names : List Str} (hn : HasNames f.vars names)
    {cols : List (Nat × Str)} (hc : WantedColumns wanted names cols) :
    Ansys.filterVars wanted f.text = .ok
      { title := f.title, vars := Ansys.varsLine (cols.map Prod.snd),
        zones := f.zones.map (TecZone.mapNodes (fun l => wordsLine (pick (cols.map Prod.fst) l))) : TecFile }.text := by
  obtain rfl := wantedColumns_unique hc (keptColumns_wanted wanted names)
  obtain ⟨p, hp1, hp2⟩ := names_of_line hn
  unfold Ansys.filterVars
  rw [h.readlines]
  unfold TecFile.lines
  obtain ⟨m, hm⟩ : ∃ m, m = (Ansys.namesAndMask names wanted).map Prod.snd := ⟨_, rfl⟩
  have h1 : Ansys.filterVarsLine wanted ⟨0, 0, none, []⟩ f.title = .ok ⟨0, 0, none, [f.title]⟩ := by
    simp [Ansys.filterVarsLine, h.title_facts]
  have h2 : Ansys.filterVarsLine wanted ⟨0, 0, none, [f.title]⟩ f.vars =
      .ok ⟨0, 0, some m, [f.title, Ansys.varsLine ((keptColumns wanted names 0).map Prod.snd)]⟩ := by
    simp only [Ansys.filterVarsLine, h.vars_facts, if_true, hp1, res_bind_ok, hp2]
    rw [filterMask_names wanted names 0, hm]
    simp
  rw [List.foldlM_cons, h1, res_bind_ok, List.foldlM_cons, h2, res_bind_ok]
  have hz : ∀ (zs : List TecZone) (out : List Str), (∀ z ∈ zs, z.Ok) →
      (zs.flatMap TecZone.lines).foldlM (Ansys.filterVarsLine wanted) ⟨0, 0, some m, out⟩ = .ok ⟨0, 0, some m, out ++
        (zs.map (TecZone.mapNodes (fun l => wordsLine (pick ((keptColumns wanted names 0).map Prod.fst) l)))).flatMap TecZone.lines⟩ := by
    intro zs
    induction zs with
    | nil => intro out _; simp
    | cons z zs ih =>
      intro out hz
      rw [List.flatMap_cons, List.foldlM_append, filterVars_zone wanted m
        (fun l => wordsLine (pick ((keptColumns wanted names 0).map Prod.fst) l)) (fun l => by rw [hm, filterMask_pick]; rfl)
        (hz z (by simp)), res_bind_ok, ih _ (fun x hx => hz x (by simp [hx]))]
      simp
  rw [hz _ _ h.zones, res_bind_ok]
  simp [TecFile.text, TecFile.lines]

end Verif
