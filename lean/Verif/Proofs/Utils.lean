import Verif.Spec.Utils
import Verif.Proofs.PyLemmas

/-! Lemmas about the model of `utils.py`. -/

namespace Verif.Utils
open Verif Verif.Spec

theorem atoms_append {α : Type} (a b : List (Tok α)) : atoms (a ++ b) = atoms a ++ atoms b := by
  simp [atoms]

theorem flatten_eq {α : Type} (l : List (Nest α)) : flatten l = (atoms (tokens l)).map Nest.leaf := by
  fun_induction flatten l with
  | case1 => simp [tokens, atoms]
  | case2 l t ih1 ih2 =>
    rw [ih1, ih2]
    show _ = (atoms (tokens (Nest.list l :: t))).map Nest.leaf
    rw [tokens]
    rw [show (Tok.opn :: (tokens l ++ Tok.cls :: tokens t) : List (Tok α))
        = [Tok.opn] ++ tokens l ++ [Tok.cls] ++ tokens t by simp]
    simp only [atoms_append]
    simp [atoms]
  | case3 a t ih =>
    rw [ih, tokens]
    simp [atoms]

theorem isDecimal_iff (c : Char) : Py.isDecimal c = true ↔ '0' ≤ c ∧ c ≤ '9' := by
  unfold Py.isDecimal Py.digitVal?
  have h0 : ('0' ≤ c) ↔ 48 ≤ c.toNat := by
    show ('0'.val ≤ c.val) ↔ _
    rw [UInt32.le_iff_toNat_le]; rfl
  have h9 : (c ≤ '9') ↔ c.toNat ≤ 57 := by
    show (c.val ≤ '9'.val) ↔ _
    rw [UInt32.le_iff_toNat_le]; rfl
  rw [h0, h9]
  split <;> simp_all

theorem isStamp_allDec {t : Str} (h : IsStamp t) : Py.AllDec t := by
  rw [Py.allDec_iff, List.all_eq_true]
  intro c hc
  exact (isDecimal_iff c).mpr (h.2 c hc)

theorem matchHere_iff (s : Str) :
    matchHere s = true ↔ ∃ t, IsStamp t ∧ (s = '_' :: t ∨ s = '_' :: (t ++ ['\n'])) := by
  unfold matchHere
  split
  · rename_i t
    constructor
    · intro h
      simp only [Bool.and_eq_true, beq_iff_eq, Bool.or_eq_true, List.all_eq_true] at h
      obtain ⟨⟨h1, h2⟩, h3⟩ := h
      refine ⟨t.take 12, ⟨h1, fun c hc => (isDecimal_iff c).mp (h2 c hc)⟩, ?_⟩
      have := List.take_append_drop 12 t
      rcases h3 with h3 | h3
      · left; rw [h3, List.append_nil] at this; rw [this]
      · right; rw [h3] at this; rw [this]
    · rintro ⟨u, ⟨hu1, hu2⟩, h⟩
      have hd : ∀ c ∈ u, Py.isDecimal c = true := fun c hc => (isDecimal_iff c).mpr (hu2 c hc)
      have hk : u.take 12 = u := List.take_of_length_le (by omega)
      have hdr : u.drop 12 = [] := List.drop_of_length_le (by omega)
      rcases h with h | h
      · injection h with _ h; subst h
        simp only [hk, hu1, hdr]
        simpa using hd
      · injection h with _ h; subst h
        have h1 : (u ++ ['\n']).take 12 = u := by rw [List.take_append_of_le_length (by omega), hk]
        have h2 : (u ++ ['\n']).drop 12 = ['\n'] := by rw [List.drop_append_of_le_length (by omega), hdr]; rfl
        simp only [h1, h2, hu1]
        simpa using hd
  · rename_i h
    constructor
    · intro h; cases h
    · rintro ⟨t, _, h1 | h1⟩
      · exact absurd h1 (h t)
      · exact absurd h1 (h _)

theorem hasTimestamp_iff (s : Str) :
    hasTimestamp s = true ↔ ∃ b t, IsStamp t ∧ (s = b ++ '_' :: t ∨ s = b ++ '_' :: (t ++ ['\n'])) := by
  induction s with
  | nil =>
    simp [hasTimestamp]
  | cons c cs ih =>
    rw [hasTimestamp, Bool.or_eq_true, matchHere_iff, ih]
    constructor
    · rintro (⟨t, ht, h⟩ | ⟨b, t, ht, h⟩)
      · exact ⟨[], t, ht, h⟩
      · refine ⟨c :: b, t, ht, ?_⟩
        rcases h with h | h
        · left; rw [h]; rfl
        · right; rw [h]; rfl
    · rintro ⟨b, t, ht, h⟩
      cases b with
      | nil => exact Or.inl ⟨t, ht, h⟩
      | cons x b =>
        right
        refine ⟨b, t, ht, ?_⟩
        rcases h with h | h
        · left; injection h
        · right; injection h

/-! ### dummy_split_filename -/

theorem dummySplit_parts (st : Str) (c1 c2 c3 : Char) (m t e : Str) (hm : m.length = 5)
    (ht : t.length = 12) (he : e.length = 3) (hmd : Py.AllDec m) (htd : Py.AllDec t)
    {mv tv : Int} (hmv : Py.int m = .ok mv) (htv : Py.int t = .ok tv) :
    dummySplit (st ++ [c1] ++ m ++ [c2] ++ t ++ [c3] ++ e) = .ok (st, some mv, some tv, e) := by
  have hs : ∀ s : Str, s = st ++ [c1] ++ m ++ [c2] ++ t ++ [c3] ++ e →
      Py.slice s none (some (-23)) = st ∧ Py.slice s (some (-22)) (some (-17)) = m ∧
      Py.slice s (some (-16)) (some (-4)) = t ∧ Py.slice s (some (-3)) none = e := by
    intro s hs
    refine ⟨?_, ?_, ?_, ?_⟩
    · rw [hs, show st ++ [c1] ++ m ++ [c2] ++ t ++ [c3] ++ e = st ++ ([c1] ++ m ++ [c2] ++ t ++ [c3] ++ e) by simp]
      exact Py.slice_to_neg _ _ 23 (by omega) (by simp [hm, ht, he])
    · rw [hs, show st ++ [c1] ++ m ++ [c2] ++ t ++ [c3] ++ e = (st ++ [c1]) ++ m ++ ([c2] ++ t ++ [c3] ++ e) by simp]
      exact Py.slice_mid_neg _ _ _ 22 17 (by omega) (by simp [ht, he]) (by omega)
    · rw [hs, show st ++ [c1] ++ m ++ [c2] ++ t ++ [c3] ++ e = (st ++ [c1] ++ m ++ [c2]) ++ t ++ ([c3] ++ e) by simp]
      exact Py.slice_mid_neg _ _ _ 16 4 (by omega) (by simp [he]) (by omega)
    · rw [hs]
      exact Py.slice_from_neg _ _ 3 (by omega) he
  obtain ⟨h1, h2, h3, h4⟩ := hs _ rfl
  have hm0 : m ≠ [] := by intro h; rw [h] at hm; simp at hm
  have ht0 : t ≠ [] := by intro h; rw [h] at ht; simp at ht
  unfold dummySplit
  simp only [h1, h2, h3, h4, Py.isdigit_of_allDec hmd hm0, Py.isdigit_of_allDec htd ht0, if_true, hmv, htv]
  rfl

theorem reject_long (stem zd td ext : Str) (hlen : 5 < zd.length) (hall : Py.AllDec zd)
    (htl : td.length = 12) (htd : Py.AllDec td) {tv : Int} (htv : Py.int td = .ok tv) (he : ext.length = 3) :
    isCorrectFile ext (stem ++ ['_'] ++ zd ++ ['_'] ++ td ++ ['.'] ++ ext) stem = .ok false := by
  obtain ⟨pre, c, last, hzd, hlast⟩ :
      ∃ (pre : Str) (c : Char) (last : Str), zd = pre ++ [c] ++ last ∧ last.length = 5 := by
    refine ⟨zd.take (zd.length - 6), zd[zd.length - 6]'(by omega), zd.drop (zd.length - 5), ?_, ?_⟩
    · have h1 := List.take_append_drop (zd.length - 6) zd
      have h2 : zd.drop (zd.length - 6) = zd[zd.length - 6]'(by omega) :: zd.drop (zd.length - 5) := by
        rw [List.drop_eq_getElem_cons (by omega)]
        congr 2; omega
      rw [h2] at h1
      rw [List.append_assoc]
      exact h1.symm
    · simp; omega
  have hlastdec : Py.AllDec last := fun x hx => hall x (by rw [hzd]; simp [hx])
  have hlast0 : last ≠ [] := by intro h; rw [h] at hlast; simp at hlast
  obtain ⟨v, hv⟩ := Py.parseDigits_some hlastdec hlast0 0 false
  have := dummySplit_parts (stem ++ ['_'] ++ pre) c '_' '.' last td ext
    hlast htl he hlastdec htd (Py.int_of_allDec hlastdec hlast0 hv) htv
  have hn : stem ++ ['_'] ++ zd ++ ['_'] ++ td ++ ['.'] ++ ext =
      stem ++ ['_'] ++ pre ++ [c] ++ last ++ ['_'] ++ td ++ ['.'] ++ ext := by
    rw [hzd]; simp
  rw [hn]
  unfold isCorrectFile
  rw [this]
  show Except.ok _ = _
  have hne : ¬ (stem ++ ['_'] ++ pre = stem) := by
    intro h
    have := congrArg List.length h
    simp at this
  simp only [hne, decide_false, Bool.false_and]

/-! ### Grouping -/

theorem dictGet?_set_self {κ ν : Type} [DecidableEq κ] (d : List (κ × ν)) (k : κ) (v : ν) :
    Py.dictGet? (Py.dictSet d k v) k = some v := by
  induction d with
  | nil => simp [Py.dictSet, Py.dictGet?]
  | cons p d ih =>
    obtain ⟨k', v'⟩ := p
    rw [Py.dictSet]
    split
    · simp [Py.dictGet?, *]
    · simp [Py.dictGet?, *]

theorem dictGet?_set_ne {κ ν : Type} [DecidableEq κ] (d : List (κ × ν)) (k k2 : κ) (v : ν) (h : k ≠ k2) :
    Py.dictGet? (Py.dictSet d k v) k2 = Py.dictGet? d k2 := by
  induction d with
  | nil => simp [Py.dictSet, Py.dictGet?, h]
  | cons p d ih =>
    obtain ⟨k', v'⟩ := p
    rw [Py.dictSet]
    split
    · rename_i hk; subst hk; simp [Py.dictGet?, h]
    · simp [Py.dictGet?, ih]

theorem dictSet_keys {κ ν : Type} [DecidableEq κ] (d : List (κ × ν)) (k : κ) (v : ν) :
    (Py.dictSet d k v).map Prod.fst = if k ∈ d.map Prod.fst then d.map Prod.fst else d.map Prod.fst ++ [k] := by
  induction d with
  | nil => simp [Py.dictSet]
  | cons p d ih =>
    obtain ⟨k', v'⟩ := p
    rw [Py.dictSet]
    split
    · rename_i h; subst h; simp
    · rename_i h
      simp only [List.map_cons, ih, List.mem_cons]
      have : ¬ k = k' := fun e => h e.symm
      simp only [this, false_or]
      split <;> simp

theorem dictGet?_none_iff {κ ν : Type} [DecidableEq κ] (d : List (κ × ν)) (k : κ) :
    Py.dictGet? d k = none ↔ k ∉ d.map Prod.fst := by
  induction d with
  | nil => simp [Py.dictGet?]
  | cons p d ih =>
    obtain ⟨k', v'⟩ := p
    rw [Py.dictGet?]
    split
    · rename_i h; subst h; simp
    · rename_i h
      have : ¬ k = k' := fun e => h e.symm
      simp [ih, this]

theorem dictSet_nodup {κ ν : Type} [DecidableEq κ] (d : List (κ × ν)) (k : κ) (v : ν)
    (h : (d.map Prod.fst).Nodup) : ((Py.dictSet d k v).map Prod.fst).Nodup := by
  rw [dictSet_keys]
  split
  · exact h
  · rename_i hk
    rw [List.nodup_append]
    refine ⟨h, by simp, ?_⟩
    intro a ha b hb
    simp at hb
    subst hb
    intro e; subst e; exact hk ha

theorem group_get (fs : List Str) (d : List (Str × List Str)) (k : Str) :
    (Py.dictGet? (fs.foldl groupStep d) k).getD [] =
      (Py.dictGet? d k).getD [] ++ fs.filter (fun f => stampOf f = k) := by
  induction fs generalizing d with
  | nil => simp
  | cons f fs ih =>
    rw [List.foldl_cons, ih]
    by_cases hk : stampOf f = k
    · subst hk
      unfold groupStep
      split
      · rename_i v hv
        rw [dictGet?_set_self, hv]; simp
      · rename_i hv
        rw [dictGet?_set_self, hv]; simp
    · unfold groupStep
      split <;> rw [dictGet?_set_ne _ _ _ _ hk] <;> simp [hk]

theorem group_keys_nodup (fs : List Str) (d : List (Str × List Str)) (h : (d.map Prod.fst).Nodup) :
    ((fs.foldl groupStep d).map Prod.fst).Nodup := by
  induction fs generalizing d with
  | nil => exact h
  | cons f fs ih =>
    rw [List.foldl_cons]
    apply ih
    unfold groupStep
    split <;> exact dictSet_nodup _ _ _ h

theorem dictSet_mem {κ ν : Type} [DecidableEq κ] (d : List (κ × ν)) (k : κ) (v : ν) (p : κ × ν)
    (h : p ∈ Py.dictSet d k v) : p ∈ d ∨ p.2 = v := by
  induction d with
  | nil => simp [Py.dictSet] at h; exact Or.inr (by rw [h])
  | cons q d ih =>
    obtain ⟨k', v'⟩ := q
    rw [Py.dictSet] at h
    split at h
    · simp at h
      rcases h with h | h
      · right; rw [h]
      · left; simp [h]
    · simp at h
      rcases h with h | h
      · left; simp [h]
      · rcases ih h with h | h
        · left; simp [h]
        · right; exact h

theorem group_nonempty (fs : List Str) (d : List (Str × List Str)) (h : ∀ p ∈ d, p.2 ≠ []) :
    ∀ p ∈ fs.foldl groupStep d, p.2 ≠ [] := by
  induction fs generalizing d with
  | nil => exact h
  | cons f fs ih =>
    rw [List.foldl_cons]
    apply ih
    intro p hp
    unfold groupStep at hp
    split at hp
    · rcases dictSet_mem _ _ _ _ hp with h1 | h1
      · exact h p h1
      · rw [h1]; simp
    · rcases dictSet_mem _ _ _ _ hp with h1 | h1
      · exact h p h1
      · rw [h1]; simp

theorem mem_iff_dictGet? {κ ν : Type} [DecidableEq κ] (d : List (κ × ν)) (h : (d.map Prod.fst).Nodup)
    (k : κ) (v : ν) : (k, v) ∈ d ↔ Py.dictGet? d k = some v := by
  induction d with
  | nil => simp [Py.dictGet?]
  | cons p d ih =>
    obtain ⟨k', v'⟩ := p
    rw [List.map_cons, List.nodup_cons] at h
    rw [Py.dictGet?]
    by_cases hk : k' = k
    · subst hk
      simp only [if_true, List.mem_cons, Prod.mk.injEq, true_and, Option.some.injEq]
      constructor
      · rintro (h1 | h1)
        · exact h1.symm
        · exact absurd (List.mem_map.mpr ⟨_, h1, rfl⟩) h.1
      · intro h1; exact Or.inl h1.symm
    · simp only [hk, if_false, List.mem_cons, Prod.mk.injEq]
      rw [ih h.2]
      constructor
      · rintro (⟨h1, _⟩ | h1)
        · exact absurd h1.symm hk
        · exact h1
      · intro h1; exact Or.inr h1

end Verif.Utils
