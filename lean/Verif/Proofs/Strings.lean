import Verif.Proofs.PyLemmas

/-! Lemmas about splitting, joining, searching and cutting text into lines. -/

namespace Verif.Py

/-! ### Search -/

theorem contains_iff (p s : Str) : contains p s = true ↔ ∃ a b, s = a ++ p ++ b := by
  induction s with
  | nil =>
    cases p with
    | nil => simp [contains]
    | cons c cs => simp [contains]
  | cons c cs ih =>
    rw [contains, Bool.or_eq_true, ih]
    constructor
    · rintro (h | ⟨a, b, h⟩)
      · obtain ⟨t, ht⟩ := List.isPrefixOf_iff_prefix.mp h
        exact ⟨[], t, by simp [ht]⟩
      · exact ⟨c :: a, b, by simp [h]⟩
    · rintro ⟨a, b, h⟩
      cases a with
      | nil => left; exact List.isPrefixOf_iff_prefix.mpr ⟨b, by simpa using h.symm⟩
      | cons d a =>
        right
        simp only [List.cons_append, List.cons.injEq] at h
        exact ⟨a, b, by simp [h.2]⟩

theorem contains_prefix (p t : Str) : contains p (p ++ t) = true := (contains_iff _ _).mpr ⟨[], t, by simp⟩

/-- Two ways to cut a text at its only `c`. -/
theorem cut_unique {c : Char} {a b a' b' : Str} (ha : c ∉ a) (ha' : c ∉ a') (h : a ++ c :: b = a' ++ c :: b') :
    a = a' ∧ b = b' := by
  induction a generalizing a' with
  | nil =>
    cases a' with
    | nil => simpa using h
    | cons d t => simp at h; exact absurd (by simp [h.1]) ha'
  | cons d t ih =>
    cases a' with
    | nil => simp at h; exact absurd (by simp [h.1]) ha
    | cons e u =>
      simp only [List.cons_append, List.cons.injEq] at h
      obtain ⟨h1, h2⟩ := ih (fun hm => ha (by simp [hm])) (fun hm => ha' (by simp [hm])) h.2
      exact ⟨by rw [h.1, h1], h2⟩

/-- In a text with a single `=`, a word ending with `=` occurs only if it ends the part before the `=`. -/
theorem not_contains_eq {p a b : Str} (ha : '=' ∉ a) (hb : '=' ∉ b) (hp : '=' ∉ p) (hs : ¬ p <:+ a) :
    contains (p ++ ['=']) (a ++ '=' :: b) = false := by
  rw [Bool.eq_false_iff]
  intro h
  obtain ⟨u, v, h⟩ := (contains_iff _ _).mp h
  have hu : '=' ∉ u := by
    intro hu
    have h1 : (a ++ '=' :: b).count '=' = 1 := by
      rw [List.count_append, List.count_cons_self, List.count_eq_zero_of_not_mem ha, List.count_eq_zero_of_not_mem hb]
    have h2 : 2 ≤ (u ++ (p ++ ['=']) ++ v).count '=' := by
      have := List.count_pos_iff.mpr hu
      simp only [List.count_append, List.count_singleton_self]
      omega
    rw [← h] at h2
    omega
  have h' : a ++ '=' :: b = (u ++ p) ++ '=' :: v := by rw [h]; simp
  obtain ⟨h1, -⟩ := cut_unique ha (by simp [hu, hp]) h'
  exact hs ⟨u, h1.symm⟩

/-! ### Splitting at a character -/

theorem splitCh_none {c : Char} {s : Str} (h : c ∉ s) : splitCh c s = [s] := by
  induction s with
  | nil => rfl
  | cons d t ih =>
    simp only [List.mem_cons, not_or] at h
    rw [splitCh, if_neg (fun e => h.1 e.symm), ih h.2]

theorem splitCh_cons {c : Char} {a : Str} (b : Str) (h : c ∉ a) : splitCh c (a ++ c :: b) = a :: splitCh c b := by
  induction a with
  | nil => simp [splitCh]
  | cons d t ih =>
    simp only [List.mem_cons, not_or] at h
    rw [List.cons_append, splitCh, if_neg (fun e => h.1 e.symm), ih h.2]

theorem splitCh_one {c : Char} {a b : Str} (ha : c ∉ a) (hb : c ∉ b) : splitCh c (a ++ c :: b) = [a, b] := by
  rw [splitCh_cons b ha, splitCh_none hb]

/-! ### Splitting at white space -/

theorem splitWsAux_word {t : Str} (ht : ∀ c ∈ t, isWs c = false) (s acc : Str) :
    splitWsAux (t ++ s) acc = splitWsAux s (acc ++ t) := by
  induction t generalizing acc with
  | nil => simp
  | cons c cs ih =>
    rw [List.cons_append, splitWsAux, if_neg (by simp [ht c (by simp)]), ih (fun x hx => ht x (by simp [hx]))]
    simp

theorem splitWsAux_ws {w : Str} (hw : ∀ c ∈ w, isWs c = true) (acc : Str) :
    splitWsAux w acc = if acc = [] then [] else [acc] := by
  induction w generalizing acc with
  | nil => rfl
  | cons c cs ih =>
    rw [splitWsAux, if_pos (hw c (by simp)), ih (fun x hx => hw x (by simp [hx]))]
    simp

theorem splitWs_join {ts : List Str} (hn : ∀ t ∈ ts, t ≠ []) (hw : ∀ t ∈ ts, ∀ c ∈ t, isWs c = false)
    {w : Str} (h : ∀ c ∈ w, isWs c = true) : splitWs (join [' '] ts ++ w) = ts := by
  unfold splitWs
  induction ts with
  | nil => simp [join, splitWsAux_ws h]
  | cons t ts ih =>
    have ht := hn t (by simp)
    cases ts with
    | nil =>
      rw [join, splitWsAux_word (hw t (by simp)), splitWsAux_ws h]
      simp [ht]
    | cons u us =>
      have h1 : join [' '] (t :: u :: us) ++ w = t ++ (' ' :: (join [' '] (u :: us) ++ w)) := by simp [join]
      rw [h1, splitWsAux_word (hw t (by simp)), splitWsAux, if_pos (by decide), if_neg (by simpa using ht),
        ih (fun x hx => hn x (by simp [hx])) (fun x hx => hw x (by simp [hx]))]
      simp

/-! ### Lines -/

theorem universalNewlines_id {s : Str} (h : '\r' ∉ s) : universalNewlines s = s := by
  induction s with
  | nil => rfl
  | cons c cs ih =>
    simp only [List.mem_cons, not_or] at h
    rw [universalNewlines]
    · rw [ih h.2]
    · intro t e _; exact absurd e.symm h.1
    · intro e; exact absurd e.symm h.1

/-- A line as written: no line end inside, one at the end. -/
def IsLine (l : Str) : Prop := ∃ b, l = b ++ ['\n'] ∧ '\n' ∉ b ∧ '\r' ∉ b

theorem linesAux_line {b : Str} (hb : '\n' ∉ b) (s acc : Str) :
    linesAux (b ++ '\n' :: s) acc = (acc ++ b ++ ['\n']) :: linesAux s [] := by
  induction b generalizing acc with
  | nil => simp [linesAux]
  | cons c cs ih =>
    simp only [List.mem_cons, not_or] at hb
    rw [List.cons_append, linesAux, if_neg (fun e => hb.1 e.symm), ih hb.2]
    simp

theorem readlines_flatten {ls : List Str} (h : ∀ l ∈ ls, IsLine l) : readlines ls.flatten = ls := by
  unfold readlines
  rw [universalNewlines_id]
  · induction ls with
    | nil => rfl
    | cons l ls ih =>
      obtain ⟨b, rfl, h1, -⟩ := h l (by simp)
      rw [List.flatten_cons, List.append_assoc, List.singleton_append, linesAux_line h1, ih (fun x hx => h x (by simp [hx]))]
      simp
  · intro hr
    obtain ⟨l, hl, hr⟩ := List.mem_flatten.mp hr
    obtain ⟨b, rfl, -, h2⟩ := h l hl
    simp at hr
    exact h2 hr

theorem mem_join {c : Char} {sep : Str} {ts : List Str} (h : c ∈ join sep ts) : c ∈ sep ∨ ∃ t ∈ ts, c ∈ t := by
  induction ts with
  | nil => simp [join] at h
  | cons t ts ih =>
    cases ts with
    | nil => right; exact ⟨t, by simp, by simpa [join] using h⟩
    | cons u us =>
      simp only [join, List.append_assoc, List.mem_append] at h
      rcases h with h | h | h
      · exact .inr ⟨t, by simp, h⟩
      · exact .inl h
      · rcases ih h with h | ⟨x, hx, h⟩
        · exact .inl h
        · exact .inr ⟨x, by simp [List.mem_cons.mp hx], h⟩

theorem natStr_facts (n : Nat) : (∀ c ∈ natStr n, isWs c = false) ∧ '\n' ∉ natStr n ∧ '\r' ∉ natStr n ∧ '=' ∉ natStr n :=
  ⟨fun c hc => (digit_facts (natStr_allDec n c hc)).1,
   fun hc => (digit_facts (natStr_allDec n _ hc)).2.2.2.2.1 rfl,
   fun hc => (digit_facts (natStr_allDec n _ hc)).2.2.2.2.2.1 rfl,
   fun hc => (digit_facts (natStr_allDec n _ hc)).2.2.2.2.2.2.1 rfl⟩

theorem intStr_facts (i : Int) : intStr i ≠ [] ∧ ∀ c ∈ intStr i, isWs c = false := by
  cases i with
  | ofNat n => exact ⟨natStr_ne_nil n, (natStr_facts n).1⟩
  | negSucc n =>
    refine ⟨by simp [intStr], fun c hc => ?_⟩
    simp only [intStr, List.mem_cons] at hc
    rcases hc with rfl | hc
    · decide
    · exact (natStr_facts _).1 c hc

theorem int_intStr (i : Int) : int (intStr i) = .ok i := by
  cases i with
  | ofNat n => exact int_natStr n
  | negSucc n =>
    unfold int
    rw [strip_of_noWs (intStr_facts _).2]
    simp only [intStr, signed?, parse_natStr, Option.map_some]
    rfl

theorem noWs_noNl {s : Str} (h : ∀ c ∈ s, isWs c = false) : '\n' ∉ s ∧ '\r' ∉ s :=
  ⟨fun hc => by simpa using (h _ hc).symm.trans (show isWs '\n' = true by decide),
   fun hc => by simpa using (h _ hc).symm.trans (show isWs '\r' = true by decide)⟩

theorem delCh_append (c : Char) (a b : Str) : delCh c (a ++ b) = delCh c a ++ delCh c b := by
  simp [delCh]

theorem delCh_id {c : Char} {s : Str} (h : c ∉ s) : delCh c s = s := by
  unfold delCh
  rw [List.filter_eq_self]
  intro x hx
  simp only [ne_eq, decide_eq_true_eq]
  rintro rfl
  exact h hx

theorem delCh_join (c : Char) (sep : Str) (ts : List Str) :
    delCh c (join sep ts) = join (delCh c sep) (ts.map (delCh c)) := by
  induction ts with
  | nil => rfl
  | cons t ts ih =>
    cases ts with
    | nil => rfl
    | cons u us =>
      simp only [join, delCh_append, ih, List.map_cons]

theorem slice_one_neg {α : Type _} (x : α) (s t : List α) (k : Nat) (hk : 0 < k) (ht : t.length = k) :
    slice (x :: s ++ t) (some 1) (some (-(k : Int))) = s := by
  have h1 : bound (s.length + 1 + k) 1 = 1 := by unfold bound; simp; omega
  unfold slice
  simp only [bound_neg _ _ hk, List.length_append, List.length_cons, ht, h1]
  have : s.length + 1 + k - k - 1 = s.length := by omega
  simp [this]

theorem get_last {α : Type _} (l : List α) (x : α) : get (l ++ [x]) (-1) = .ok x := by
  unfold get
  have : (-1 : Int) + ((l.length : Int) + 1) = l.length := by omega
  simp [this]

/-! ### Dictionaries -/

theorem dictSet_new {κ ν : Type} [DecidableEq κ] (d : List (κ × ν)) (k : κ) (v : ν) (h : k ∉ d.map Prod.fst) :
    dictSet d k v = d ++ [(k, v)] := by
  induction d with
  | nil => rfl
  | cons p t ih =>
    obtain ⟨k', v'⟩ := p
    simp only [List.map_cons, List.mem_cons, not_or] at h
    rw [dictSet, if_neg (fun e => h.1 e.symm), ih h.2]
    rfl

theorem dictOf_nodup {κ ν : Type} [DecidableEq κ] (ps : List (κ × ν)) (h : (ps.map Prod.fst).Nodup) : dictOf ps = ps := by
  have key : ∀ (l d : List (κ × ν)), ((d ++ l).map Prod.fst).Nodup →
      l.foldl (fun d p => dictSet d p.1 p.2) d = d ++ l := by
    intro l
    induction l with
    | nil => intro d _; simp
    | cons p l ih =>
      intro d hd
      rw [List.foldl_cons, dictSet_new, ih]
      · simp
      · simpa using hd
      · intro hm
        rw [List.map_append, List.nodup_append] at hd
        exact hd.2.2 p.1 hm p.1 (by simp) rfl
  have := key ps [] (by simpa using h)
  simpa [dictOf] using this

theorem dictGet?_of_nodup {κ ν : Type} [DecidableEq κ] {d : List (κ × ν)} (h : (d.map Prod.fst).Nodup) {k : κ} {v : ν}
    (hm : (k, v) ∈ d) : dictGet? d k = some v := by
  induction d with
  | nil => simp at hm
  | cons p t ih =>
    obtain ⟨k', v'⟩ := p
    simp only [List.map_cons, List.nodup_cons] at h
    rw [dictGet?]
    rcases List.mem_cons.mp hm with e | hm
    · obtain ⟨rfl, rfl⟩ := Prod.mk.inj e; simp
    · rw [if_neg, ih h.2 hm]
      rintro rfl
      exact h.1 (List.mem_map.mpr ⟨_, hm, rfl⟩)

end Verif.Py
