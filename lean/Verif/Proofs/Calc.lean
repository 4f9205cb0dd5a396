import Verif.Spec.Calc
import Verif.Proofs.Reload

/-! Calculation data. -/

namespace Verif
open Grid
variable {F R : Type}

/-- What a line does, in terms of what it says. -/
def stepRec (vars : List Str) (g : Grid F R) (r : Int × List F) : Res (Grid F R) := do
  let f ← Py.get g.faces r.1
  pure { g with fData := upd g.fData f (Py.dictOf (vars.zip r.2)) }

theorem loadCalcLine_says {c : Codec F} {line : Str} {r : Int × List F} (h : Says c line r) (vars : List Str) (g : Grid F R) :
    loadCalcLine c vars g line = stepRec vars g r := by
  obtain ⟨w, ws, h1, h2, h3⟩ := h
  unfold loadCalcLine stepRec
  rw [h1]
  show (Py.get (w :: ws) 0 >>= _) = _
  rw [show Py.get (w :: ws) 0 = .ok w from rfl, res_bind_ok, h2, res_bind_ok, List.drop_one, List.tail_cons, h3, res_bind_ok]

theorem foldlM_says {c : Codec F} {ls : List Str} {recs : List (Int × List F)} (h : List.Forall₂ (Says c) ls recs) (vars : List Str)
    (g : Grid F R) : ls.foldlM (loadCalcLine c vars) g = recs.foldlM (stepRec vars) g := by
  induction h generalizing g with
  | nil => rfl
  | cons a _ ih =>
    rw [List.foldlM_cons, List.foldlM_cons, loadCalcLine_says a]
    cases stepRec vars g _ with
    | error e => rfl
    | ok g' => rw [res_bind_ok, res_bind_ok, ih]

theorem get_names {α : Type} (l : List α) (k : Int) :
    (∃ i a, Names l.length k i ∧ l[i]? = some a ∧ Py.get l k = .ok a) ∨
    ((∀ i, i < l.length → ¬ Names l.length k i) ∧ Py.get l k = .error .index) := by
  by_cases h : k < 0
  · by_cases h2 : k + l.length < 0
    · right
      refine ⟨fun i hi hn => by unfold Names at hn; omega, ?_⟩
      unfold Py.get
      simp only [h, if_true, h2]
    · left
      obtain ⟨i, hi⟩ : ∃ i : Nat, k + l.length = i := ⟨(k + l.length).toNat, by omega⟩
      have hl : i < l.length := by omega
      refine ⟨i, l[i], Or.inr (by omega), List.getElem?_eq_getElem hl, ?_⟩
      unfold Py.get
      simp only [h, if_true, h2, if_false, hi, Int.toNat_natCast, List.getElem?_eq_getElem hl]
      rfl
  · obtain ⟨i, rfl⟩ : ∃ i : Nat, k = i := ⟨k.toNat, by omega⟩
    rw [get_ofNat]
    by_cases hl : i < l.length
    · left
      exact ⟨i, l[i], Or.inl rfl, List.getElem?_eq_getElem hl, by rw [List.getElem?_eq_getElem hl]⟩
    · right
      refine ⟨fun j hj hn => by unfold Names at hn; omega, ?_⟩
      rw [List.getElem?_eq_none (by omega)]

theorem names_inj {n : Nat} {k : Int} {i j : Nat} (hi : i < n) (hj : j < n) (h1 : Names n k i) (h2 : Names n k j) : i = j := by
  unfold Names at *; omega

theorem lastFor_snoc (n : Nat) (recs : List (Int × List F)) (r : Int × List F) (i : Nat) :
    lastFor n (recs ++ [r]) i = if Names n r.1 i then some r.2 else lastFor n recs i := by
  unfold lastFor
  rw [List.reverse_append, List.reverse_singleton, List.singleton_append, List.find?_cons]
  by_cases h : Names n r.1 i <;> simp [h]

/-- All lines name faces. -/
theorem recs_ok (vars : List Str) (g : Grid F R) (hn : g.faces.Nodup) (recs : List (Int × List F))
    (hr : ∀ r ∈ recs, ∃ i < g.faces.length, Names g.faces.length r.1 i) :
    ∃ d, recs.foldlM (stepRec vars) g = .ok { g with fData := d } ∧ (∀ f, f ∉ g.faces → d f = g.fData f) ∧
      ∀ (i f : Nat), g.faces[i]? = some f → d f = match lastFor g.faces.length recs i with
        | some v => Py.dictOf (vars.zip v)
        | none => g.fData f := by
  obtain ⟨s, h1, d, rfl, h2, h3⟩ := foldlM_total (stepRec vars) recs
    (fun pre s => ∃ d, s = { g with fData := d } ∧ (∀ f, f ∉ g.faces → d f = g.fData f) ∧
      ∀ (i f : Nat), g.faces[i]? = some f → d f = match lastFor g.faces.length pre i with
        | some v => Py.dictOf (vars.zip v)
        | none => g.fData f) g ⟨g.fData, rfl, fun _ _ => rfl, fun i f _ => rfl⟩ (by
    rintro pre r post _ hl ⟨d, rfl, a1, a2⟩
    obtain ⟨i, hi, hin⟩ := hr r (by rw [hl]; simp)
    rcases get_names g.faces r.1 with ⟨j, fj, b1, b2, b3⟩ | ⟨b1, _⟩
    · refine ⟨{ g with fData := upd d fj (Py.dictOf (vars.zip r.2)) }, ?_, _, rfl, ?_, ?_⟩
      · unfold stepRec
        show (Py.get g.faces r.1 >>= _) = _
        rw [b3, res_bind_ok]
        rfl
      · intro f hf
        have : f ≠ fj := fun e => hf (e ▸ List.mem_of_getElem? b2)
        rw [upd_ne _ _ this, a1 f hf]
      · intro k f hk
        rw [lastFor_snoc]
        have hj := (List.getElem?_eq_some_iff.1 b2).1
        have hk' := (List.getElem?_eq_some_iff.1 hk).1
        by_cases e : Names g.faces.length r.1 k
        · obtain rfl := names_inj hk' hj e b1
          rw [hk] at b2
          obtain rfl := Option.some.inj b2
          simp [e]
        · have : f ≠ fj := by
            rintro rfl
            have : k = j := (List.getElem?_inj hk' hn).1 (hk.trans b2.symm)
            exact e (this ▸ b1)
          rw [if_neg e, upd_ne _ _ this, a2 k f hk]
    · exact absurd hin (b1 i hi))
  exact ⟨d, h1, h2, h3⟩

/-- Some line names no face. -/
theorem recs_error (vars : List Str) (g : Grid F R) (recs : List (Int × List F))
    (hr : ∃ r ∈ recs, ∀ i < g.faces.length, ¬ Names g.faces.length r.1 i) :
    recs.foldlM (stepRec vars) g = .error .index := by
  induction recs generalizing g with
  | nil => obtain ⟨r, h, _⟩ := hr; simp at h
  | cons r recs ih =>
    rw [List.foldlM_cons]
    rcases get_names g.faces r.1 with ⟨j, fj, b1, b2, b3⟩ | ⟨b1, b2⟩
    · have : stepRec vars g r = .ok { g with fData := upd g.fData fj (Py.dictOf (vars.zip r.2)) } := by
        unfold stepRec; rw [b3, res_bind_ok]; rfl
      rw [this, res_bind_ok]
      obtain ⟨r', h1, h2⟩ := hr
      rcases List.mem_cons.1 h1 with rfl | h1
      · exact absurd b1 (h2 j (List.getElem?_eq_some_iff.1 b2).1)
      · exact ih _ ⟨r', h1, h2⟩
    · have : stepRec vars g r = .error .index := by unfold stepRec; rw [b2]; rfl
      rw [this]
      rfl

/-! ### The text written -/

theorem calcVars_ok (vars : List Str) (hv : ∀ v ∈ vars, PlainVar v) : calcVars (calcHead vars) = .ok vars := by
  obtain ⟨all, ha⟩ : ∃ all, all = "GloId".toList :: vars := ⟨_, rfl⟩
  have hall : ∀ v ∈ all, PlainVar v := by
    rw [ha]
    intro v hm
    rcases List.mem_cons.1 hm with rfl | hm
    · exact ⟨by decide, by decide, by decide, by decide, by decide⟩
    · exact hv v hm
  obtain ⟨J, hJ⟩ : ∃ J, J = Py.join ", ".toList (all.map (fun v => ['"'] ++ v ++ ['"'])) := ⟨_, rfl⟩
  have hJe : '=' ∉ J := by
    intro h
    rw [hJ] at h
    rcases Py.mem_join h with h | ⟨t, ht, h⟩
    · revert h; decide
    · obtain ⟨v, hm, rfl⟩ := List.mem_map.mp ht
      have := (hall v hm).2.2.1
      simp [this] at h
  unfold calcVars calcHead
  rw [← ha, ← hJ, show "VARIABLES=".toList ++ J ++ ['\n'] = "VARIABLES".toList ++ '=' :: (J ++ ['\n']) from by simp,
    lastField_one (by decide) (by simp [hJe]), res_bind_ok, hJ, Py.delCh_append, Py.delCh_append, Py.delCh_join, Py.delCh_join]
  have h1 : Py.delCh ',' (Py.delCh '"' ", ".toList) = [' '] := by decide
  rw [h1, List.map_map, List.map_map]
  have h2 : (all.map (Py.delCh ',' ∘ Py.delCh '"' ∘ fun v => ['"'] ++ v ++ ['"'])) = all := by
    conv_rhs => rw [← List.map_id all]
    apply List.map_congr_left
    intro v hm
    obtain ⟨-, -, -, hq, hc⟩ := hall v hm
    have hq' : Py.delCh '"' ['"'] = [] := by decide
    simp only [Function.comp, Py.delCh_append, Py.delCh_id hq, Py.delCh_id hc, hq', List.nil_append, List.append_nil, id]
  rw [Function.comp_assoc, h2, show Py.delCh ',' (Py.delCh '"' ['\n']) = ['\n'] by decide,
    Py.splitWs_join (ts := all) (fun t ht => (hall t ht).1) (fun t ht => (hall t ht).2.1) (w := ['\n']) (by decide), ha]
  rfl

theorem calcWords {c : Codec F} (hc : c.Lawful) (p : Nat × List F) :
    (∀ t ∈ Py.natStr p.1 :: p.2.map c.fmt, t ≠ []) ∧ ∀ t ∈ Py.natStr p.1 :: p.2.map c.fmt, ∀ ch ∈ t, Py.isWs ch = false := by
  constructor
  · intro t ht
    rcases List.mem_cons.1 ht with rfl | ht
    · have := (Py.intStr_facts (p.1 : Int)).1
      exact this
    · obtain ⟨x, _, rfl⟩ := List.mem_map.1 ht; exact hc.nonempty x
  · intro t ht
    rcases List.mem_cons.1 ht with rfl | ht
    · exact (Py.natStr_facts p.1).1
    · obtain ⟨x, _, rfl⟩ := List.mem_map.1 ht; exact hc.word x

theorem calcLine_says {c : Codec F} (hc : c.Lawful) (p : Nat × List F) : Says c (calcLine c p) ((p.1 : Int), p.2) := by
  refine ⟨Py.natStr p.1, p.2.map c.fmt, ?_, ?_, ?_⟩
  · exact Py.splitWs_join (calcWords hc p).1 (calcWords hc p).2 (w := ['\n']) (by decide)
  · exact Py.int_intStr (p.1 : Int)
  · rw [List.mapM_map]
    have := mapM_ok (c.parse ∘ c.fmt) id p.2 (fun x _ => hc.roundtrip x)
    rw [List.map_id] at this
    exact this

theorem calcLine_isLine {c : Codec F} (hc : c.Lawful) (p : Nat × List F) : Py.IsLine (calcLine c p) := by
  unfold calcLine
  have key : ∀ ch, ch ∈ Py.join [' '] (Py.natStr p.1 :: p.2.map c.fmt) → ch = ' ' ∨ Py.isWs ch = false := by
    intro ch h
    rcases Py.mem_join h with h | ⟨t, ht, h⟩
    · left; simpa using h
    · right; exact (calcWords hc p).2 t ht ch h
  refine isLine_mk ?_ ?_
  · intro h; rcases key _ h with h | h <;> revert h <;> decide
  · intro h; rcases key _ h with h | h <;> revert h <;> decide

theorem calcHead_isLine (vars : List Str) (hv : ∀ v ∈ vars, PlainVar v) : Py.IsLine (calcHead vars) := by
  unfold calcHead
  have hall : ∀ v ∈ "GloId".toList :: vars, ∀ ch ∈ v, Py.isWs ch = false := by
    intro v hm
    rcases List.mem_cons.1 hm with rfl | hm
    · decide
    · exact (hv v hm).2.1
  have key : ∀ ch, ch ∈ "VARIABLES=".toList ++ Py.join ", ".toList (("GloId".toList :: vars).map (fun v => ['"'] ++ v ++ ['"'])) →
      ch = ' ' ∨ Py.isWs ch = false := by
    intro ch h
    rcases List.mem_append.1 h with h | h
    · right; exact (by decide : ∀ ch ∈ "VARIABLES=".toList, Py.isWs ch = false) ch h
    rcases Py.mem_join h with h | ⟨t, ht, h⟩
    · exact (by decide : ∀ ch ∈ ", ".toList, ch = ' ' ∨ Py.isWs ch = false) ch h
    · obtain ⟨v, hm, rfl⟩ := List.mem_map.1 ht
      right
      simp only [List.mem_append, List.mem_singleton] at h
      rcases h with (rfl | h) | rfl
      · decide
      · exact hall v hm ch h
      · decide
  refine isLine_mk ?_ ?_
  · intro h; rcases key _ h with h | h <;> revert h <;> decide
  · intro h; rcases key _ h with h | h <;> revert h <;> decide

theorem readlines_calcText {c : Codec F} (hc : c.Lawful) (vars : List Str) (hv : ∀ v ∈ vars, PlainVar v) (rows : List (Nat × List F)) :
    Py.readlines (calcText c vars rows) = calcHead vars :: rows.map (calcLine c) := by
  unfold calcText
  apply Py.readlines_flatten
  intro l hl
  rcases List.mem_cons.1 hl with rfl | hl
  · exact calcHead_isLine vars hv
  · obtain ⟨p, _, rfl⟩ := List.mem_map.1 hl; exact calcLine_isLine hc p

theorem loadCalc_calcText {c : Codec F} (hc : c.Lawful) (vars : List Str) (hv : ∀ v ∈ vars, PlainVar v) (rows : List (Nat × List F))
    (g : Grid F R) : g.loadCalc c (calcText c vars rows) =
      (rows.map (fun p => ((p.1 : Int), p.2))).foldlM (stepRec vars) g := by
  unfold loadCalc
  rw [readlines_calcText hc vars hv]
  show (calcVars (calcHead vars) >>= _) = _
  rw [calcVars_ok vars hv, res_bind_ok]
  apply foldlM_says
  show List.Forall₂ _ (rows.map (calcLine c)) _
  rw [List.forall₂_map_left_iff, List.forall₂_map_right_iff]
  exact List.forall₂_same.2 (fun p _ => calcLine_says hc p)

/-! ### Several files -/

theorem lastFor_rows {n : Nat} (res : Nat → List F) (ids : List Nat) (h : ∀ k ∈ ids, k < n) {i : Nat} (hi : i < n) :
    lastFor n (ids.map (fun k : Nat => ((k : Int), res k))) i = if i ∈ ids then some (res i) else none := by
  induction ids using List.reverseRecOn with
  | nil => rfl
  | append_singleton ids k ih =>
    have hk := h k (by simp)
    rw [List.map_append, List.map_singleton, lastFor_snoc, ih (fun j hj => h j (by simp [hj]))]
    by_cases e : i = k
    · subst e
      rw [if_pos (show Names n (i : Int) i from Or.inl rfl)]
      simp
    · have : ¬ Names n (k : Int) i := by unfold Names; omega
      rw [if_neg (show ¬ Names n ((k : Int), res k).1 i from this)]
      simp [e]

theorem zip_keys_nodup {α β : Type _} {l : List α} (h : l.Nodup) (m : List β) : ((l.zip m).map Prod.fst).Nodup := by
  induction l generalizing m with
  | nil => simp
  | cons a l ih =>
    cases m with
    | nil => simp
    | cons b m =>
      rw [List.nodup_cons] at h
      rw [List.zip_cons_cons, List.map_cons, List.nodup_cons]
      refine ⟨?_, ih h.2 m⟩
      intro hm
      obtain ⟨⟨x, y⟩, hp, rfl⟩ := List.mem_map.1 hm
      exact h.1 (List.of_mem_zip hp).1

theorem calc_fold {α : Type} {c : Codec F} (hc : c.Lawful) (vars : List Str) (hv : ∀ v ∈ vars, PlainVar v) (hnd : vars.Nodup)
    (res : Nat → List F) (g : Grid F R) (hn : g.faces.Nodup) (l : List α) (step : Grid F R → α → Res (Grid F R)) (ids : α → List Nat)
    (hids : ∀ a ∈ l, ∀ k ∈ ids a, k < g.faces.length)
    (hstep : ∀ a ∈ l, ∀ g : Grid F R, step g a = g.loadCalc c (calcText c vars ((ids a).map (fun k => (k, res k))))) :
    ∃ d, l.foldlM step g = .ok { g with fData := d } ∧ (∀ f, f ∉ g.faces → d f = g.fData f) ∧
      ∀ (i f : Nat), g.faces[i]? = some f → d f = if i ∈ l.flatMap ids then vars.zip (res i) else g.fData f := by
  obtain ⟨s, h1, d, rfl, h2, h3⟩ := foldlM_total step l
    (fun pre s => ∃ d, s = { g with fData := d } ∧ (∀ f, f ∉ g.faces → d f = g.fData f) ∧
      ∀ (i f : Nat), g.faces[i]? = some f → d f = if i ∈ pre.flatMap ids then vars.zip (res i) else g.fData f) g
    ⟨g.fData, rfl, fun _ _ => rfl, fun i f _ => by simp⟩ (by
    rintro pre a post _ hl ⟨d, rfl, a1, a2⟩
    have ha : a ∈ l := by rw [hl]; simp
    rw [hstep a ha, loadCalc_calcText hc vars hv, List.map_map]
    obtain ⟨d', b1, b2, b3⟩ := recs_ok vars { g with fData := d } hn
      ((ids a).map (fun k : Nat => ((k : Int), res k))) (by
        intro r hr
        obtain ⟨k, hk, rfl⟩ := List.mem_map.1 hr
        exact ⟨k, hids a ha k hk, Or.inl rfl⟩)
    refine ⟨_, b1, d', rfl, fun f hf => by rw [b2 f hf]; exact a1 f hf, ?_⟩
    intro i f hi
    have hi' := (List.getElem?_eq_some_iff.1 hi).1
    rw [b3 i f hi]
    simp only
    rw [lastFor_rows res (ids a) (hids a ha) hi']
    by_cases e : i ∈ ids a
    · rw [if_pos e]
      simp only
      rw [if_pos (by simp [e])]
      apply Py.dictOf_nodup
      exact zip_keys_nodup hnd _
    · rw [if_neg e]
      simp only
      rw [a2 i f hi]
      simp [e])
  exact ⟨d, h1, h2, h3⟩

/-! ### Two loads of the same file -/

theorem forall₂_both {α β γ : Type _} {p : α → β → Prop} {q : α → γ → Prop} {l : List α} {m : List β} {k : List γ}
    (h1 : List.Forall₂ p l m) (h2 : List.Forall₂ q l k) : List.Forall₂ (fun b c => ∃ a ∈ l, p a b ∧ q a c) m k := by
  induction h1 generalizing k with
  | nil => cases h2; exact .nil
  | cons a _ ih =>
    cases h2 with
    | cons b t => exact .cons ⟨_, by simp, a, b⟩ ((ih t).imp (fun _ _ ⟨x, hx, h⟩ => ⟨x, by simp [hx], h⟩))

theorem forall₂_trans {α β γ : Type _} {p : α → β → Prop} {q : β → γ → Prop} {l : List α} {m : List β} {k : List γ}
    (h1 : List.Forall₂ p l m) (h2 : List.Forall₂ q m k) : List.Forall₂ (fun a c => ∃ b, p a b ∧ q b c) l k := by
  induction h1 generalizing k with
  | nil => cases h2; exact .nil
  | cons a _ ih =>
    cases h2 with
    | cons b t => exact .cons ⟨_, a, b⟩ (ih t)

theorem forall₂_flatMap {α β γ δ : Type _} {r : γ → δ → Prop} {f : α → List γ} {k : β → List δ} {l : List α} {m : List β}
    (h : List.Forall₂ (fun a b => List.Forall₂ r (f a) (k b)) l m) : List.Forall₂ r (l.flatMap f) (m.flatMap k) := by
  induction h with
  | nil => exact .nil
  | cons a _ ih => rw [List.flatMap_cons, List.flatMap_cons]; exact List.rel_append a ih

theorem two_loads [DecidableEq R] {rc : Vec F → R} {blocks : List (ZoneBlock F)} {a b g1 g2 : Grid F R} (h1 : Loaded rc true blocks a g1)
    (h2 : Loaded rc true blocks b g2) :
    List.Forall₂ (fun f1 f2 => (g1.fNodes f1).map g1.nP = (g2.fNodes f2).map g2.nP) g1.faces g2.faces := by
  rw [h1.order, h2.order]
  apply forall₂_flatMap
  refine (forall₂_both h1.rep h2.rep).imp ?_
  rintro z1 z2 ⟨blk, _, r1, r2⟩
  refine (forall₂_both r1.faces r2.faces).imp ?_
  rintro f1 f2 ⟨fc, _, ⟨_, q1⟩, ⟨_, q2⟩⟩
  symm
  apply forall₂_eq_map
  refine (forall₂_both q1 q2).imp ?_
  rintro n1 n2 ⟨s, _, ⟨m1, p, e1, k1, _⟩, ⟨m2, p', e2, k2, _⟩⟩
  rw [e1] at e2
  obtain rfl := Option.some.inj e2
  have hm : g1.nP n1 ∈ g2.nodes.map g2.nP := by
    rw [h2.registered, ← h1.registered]
    exact List.mem_map_of_mem m1
  obtain ⟨m, hm1, hm2⟩ := List.mem_map.1 hm
  have : m = n2 := h2.merged rfl m hm1 n2 m2 (by rw [h2.keys m hm1, hm2, ← h1.keys n1 m1, k1, k2])
  rw [← this, hm2]

end Verif
