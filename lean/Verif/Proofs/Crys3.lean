import Verif.Proofs.Crys2

/-! The invariant of the exchange. -/

namespace Verif
open Crys
variable {F R : Type} {g : Grid F R}

/-- The number of exchanges that the process has started. -/
def sent (V : List Str) (p : Proc F R) : Nat := V.length - p.todo.length

open Classical in
/-- The number of messages received for the row. -/
noncomputable def arrived (V : List Str) (p : Proc F R) (k : Nat) : Nat :=
  if p.cur = none ∨ ∃ l, p.recv[k]? = some (some l) then sent V p else sent V p - 1

/-- The number of exchanges that the process has finished. -/
def finished (V : List Str) (p : Proc F R) : Nat := if p.cur = none then sent V p else sent V p - 1

structure ExInv (g : Grid F R) (data : Nat → Nat → List (Str × F)) (dflt : F) (V : List Str) (w : World F R) : Prop where
  n : w.n = g.zones.length
  fixed : ∀ i < g.zones.length, ∃ d, Fixed g i (w.procs i) d
  todo : ∀ i < g.zones.length, (w.procs i).todo <:+ V
  cur : ∀ i < g.zones.length, ∀ v, (w.procs i).cur = some v →
    V[sent V (w.procs i) - 1]? = some v ∧ 0 < sent V (w.procs i) ∧ (w.procs i).recv.length = (neighbours g i).length
  keep : ∀ i < g.zones.length, ∀ f k, (∀ j, ¬ GhostOf g i j f) ∨ k ∉ V.take (finished V (w.procs i)) →
    Py.dictGet? ((w.procs i).g.fData f) k = Py.dictGet? (data i f) k
  got : ∀ i < g.zones.length, ∀ j f k, GhostOf g i j f → k ∈ V.take (finished V (w.procs i)) →
    Py.dictGet? ((w.procs i).g.fData f) k = some (val data dflt j k f)
  chan : ∀ b < g.zones.length, ∀ k a, (neighbours g b)[k]? = some a →
    (w.chan a b).map (w.read a) = ((V.take (sent V (w.procs a))).drop (arrived V (w.procs b) k)).map (rowOf g data dflt a b) ∧
    arrived V (w.procs b) k ≤ sent V (w.procs a)
  recv : ∀ b < g.zones.length, ∀ (v : Str) (k : Nat) (l : List F) (a : Nat), (w.procs b).cur = some v → (w.procs b).recv[k]? = some (some l) →
    (neighbours g b)[k]? = some a → l = rowOf g data dflt a b v
  safe : V.length ≤ 1 ∨ ∀ a b, ∀ m ∈ w.chan a b, ∃ l, m = .copied l

theorem finished_le (V : List Str) (p : Proc F R) : finished V p ≤ sent V p := by
  unfold finished; split_ifs <;> omega

theorem ExInv.start {data : Nat → Nat → List (Str × F)} {dflt : F} {V : List Str} {w : World F R} (hw : Wf g) (hl : ZoneLists g) (hg : GloPerm g)
    (h : Start g data V w) : ExInv g data dflt V w := by
  obtain ⟨hn, hp, hc⟩ := h
  have key : ∀ i < g.zones.length, w.procs i = ⟨{ g with fData := data i }, marked g (zn g i), zn g i, bordersOf g i, [], [], V, none⟩ := by
    intro i hi
    have h1 := hp i (hn ▸ hi)
    have h2 : startProc ({ g with fData := data i } : Grid F R) V i =
        if bordersOf g i = [] then .error .value else .ok ⟨{ g with fData := data i }, marked g (zn g i), zn g i, bordersOf g i, [], [], V, none⟩ :=
      startProc_ok (g := { g with fData := data i }) ⟨⟨hw.mesh.1, hw.mesh.2, hw.mesh.3, hw.mesh.4, hw.mesh.5, hw.mesh.6, hw.mesh.7, hw.mesh.8,
        hw.mesh.9, hw.mesh.10, hw.mesh.11, hw.mesh.12, hw.mesh.13, hw.mesh.14, hw.mesh.15⟩, ⟨hw.zones.1, hw.zones.2, hw.zones.3⟩, hw.alloc⟩
        ⟨hl.1, hl.2⟩ ⟨hg.1, hg.2, hg.3⟩ (zn_eq hi) V
    rw [h2] at h1
    split_ifs at h1
    exact (Except.ok.inj h1).symm
  have hs : ∀ i < g.zones.length, sent V (w.procs i) = 0 := by
    intro i hi; rw [key i hi]; simp [sent]
  refine ⟨hn, ?_, ?_, ?_, ?_, ?_, ?_, ?_, ?_⟩
  · intro i hi; rw [key i hi]; exact ⟨data i, rfl, rfl, rfl, rfl⟩
  · intro i hi; rw [key i hi]
  · intro i hi v hv; rw [key i hi] at hv; cases hv
  · intro i hi f k _; rw [key i hi]
  · intro i hi j f k _ hk
    have h0 : finished V (w.procs i) = 0 := by
      have := finished_le V (w.procs i)
      have := hs i hi
      omega
    rw [h0] at hk
    simp at hk
  · intro b hb k a ha
    have hal := (neighbours_symm hw hb (List.mem_of_getElem? ha)).2.1
    have : arrived V (w.procs b) k = 0 := by
      unfold arrived; rw [hs b hb]; simp
    rw [hc, hs a hal, this]
    simp
  · intro b hb v k l a hv; rw [key b hb] at hv; cases hv
  · right
    intro a b m hm
    rw [hc] at hm
    cases hm

/-- The messages sent to one process. -/
theorem posted_eq (l : List Nat) (hn : l.Nodup) (ids : Nat → List Int) (row : Nat → List F) (copy : Nat → Bool) (b : Nat) (hb : b ∈ l) :
    posted (l.map (fun j => (j, ids j))) (l.map row) copy b =
      [if copy (l.idxOf b) then .copied (row b) else .row (l.idxOf b)] := by
  have key : ∀ (l' : List Nat) (k : Nat), l'.Nodup → ((l'.map (fun j => (j, ids j))).zipIdx k).filterMap (fun q =>
      if q.1.1 = b then some (if copy q.2 then Msg.copied (((l.map row)[q.2]?).getD []) else .row q.2) else none) =
      if b ∈ l' then [if copy (k + l'.idxOf b) then Msg.copied (((l.map row)[k + l'.idxOf b]?).getD []) else .row (k + l'.idxOf b)] else [] := by
    intro l'
    induction l' with
    | nil => intros; rfl
    | cons x t ih =>
      intro k hnd
      rw [List.nodup_cons] at hnd
      rw [List.map_cons, List.zipIdx_cons, List.filterMap_cons]
      by_cases hx : x = b
      · subst hx
        simp only [if_true, List.mem_cons, true_or, List.idxOf_cons_self, Nat.add_zero]
        rw [ih (k + 1) hnd.2, if_neg hnd.1]
      · simp only [hx, if_false, List.mem_cons, Ne.symm hx, false_or]
        rw [ih (k + 1) hnd.2, List.idxOf_cons_ne _ hx]
        by_cases hb' : b ∈ t
        · simp only [hb', if_true]
          rw [show k + 1 + t.idxOf b = k + (t.idxOf b).succ from by omega]
        · simp [hb']
  unfold posted
  rw [key l 0 hn, if_pos hb]
  simp only [Nat.zero_add]
  have : (l.map row)[l.idxOf b]? = some (row b) := by
    rw [List.getElem?_map, List.getElem?_idxOf hb]; rfl
  rw [this]; rfl

theorem suffix_cons {V : List Str} {v : Str} {vs : List Str} (h : (v :: vs) <:+ V) :
    V.length - (v :: vs).length + 1 = V.length - vs.length ∧ V[V.length - (v :: vs).length]? = some v ∧ vs <:+ V := by
  obtain ⟨pre, rfl⟩ := h
  refine ⟨by simp; omega, ?_, pre ++ [v], by simp⟩
  simp

theorem ExInv.onStart {data : Nat → Nat → List (Str × F)} {dflt : F} {V : List Str} {w : World F R} (hw : Wf g) (hl : ZoneLists g)
    (h : ExInv g data dflt V w) {late : Bool} (hlate : late = true → V.length ≤ 1) {i : Nat} {v : Str} {vs : List Str} {rows : List (List F)} {copy : Nat → Bool}
    (hi : i < w.n) (hc : (w.procs i).cur = none) (ht : (w.procs i).todo = v :: vs) (hp : put (w.procs i) dflt v = .ok rows)
    (hm : ∀ k, copy k = false → late = true) :
    ExInv g data dflt V
        { w with
          procs := upd w.procs i { w.procs i with send := rows, recv := List.replicate (w.procs i).borders.length none, todo := vs, cur := some v }
          chan := fun a b => if a = i then w.chan a b ++ posted (w.procs i).borders rows copy b else w.chan a b } := by
  have hi' := h.n ▸ hi
  obtain ⟨d, hfix⟩ := h.fixed i hi'
  have hsuf := h.todo i hi'
  rw [ht] at hsuf
  obtain ⟨s1, s2, s3⟩ := suffix_cons hsuf
  have hs : sent V (w.procs i) = V.length - (v :: vs).length := by unfold sent; rw [ht]
  have hd : d = (w.procs i).g.fData := by rw [hfix.grid]
  have hrows : rows = (neighbours g i).map (fun j => rowOf g data dflt i j v) := by
    have := put_ok hw hl hi' hfix (data := data) dflt v (fun f hf => by rw [hd]; exact h.keep i hi' f v (.inl hf))
    rw [hp] at this
    exact Except.ok.inj this
  obtain ⟨p', hp'⟩ : ∃ p' : Proc F R, p' = { w.procs i with send := rows, recv := List.replicate (w.procs i).borders.length none, todo := vs, cur := some v } := ⟨_, rfl⟩
  rw [← hp']
  have hs' : sent V p' = sent V (w.procs i) + 1 := by rw [hs, s1, hp']; rfl
  have hfin : finished V p' = finished V (w.procs i) := by
    unfold finished
    rw [hs', hc, hp']; simp
  have harr : ∀ k, arrived V p' k = arrived V (w.procs i) k := by
    intro k
    unfold arrived
    rw [hs', hc, if_neg, if_pos (.inl rfl)]
    · simp
    · rw [hp']
      rintro (h | ⟨l, h⟩)
      · cases h
      · simp only [List.getElem?_replicate] at h
        split_ifs at h
        cases h
  refine ⟨h.n, ?_, ?_, ?_, ?_, ?_, ?_, ?_, ?_⟩
  · intro j hj
    by_cases e : j = i
    · subst e; simp only [upd_self]; exact ⟨d, hp' ▸ ⟨hfix.grid, hfix.zv, hfix.z, hfix.borders⟩⟩
    · simp only [upd_ne _ _ e]; exact h.fixed j hj
  · intro j hj
    by_cases e : j = i
    · subst e; simp only [upd_self]; rw [hp']; exact s3
    · simp only [upd_ne _ _ e]; exact h.todo j hj
  · intro j hj u hu
    by_cases e : j = i
    · subst e
      simp only [upd_self] at hu ⊢
      rw [hs', hs]
      rw [hp'] at hu ⊢
      obtain rfl := Option.some.inj hu
      refine ⟨by simpa using s2, by omega, ?_⟩
      rw [List.length_replicate, hfix.borders]; simp [bordersOf]
    · simp only [upd_ne _ _ e] at hu ⊢; exact h.cur j hj u hu
  · intro j hj f k hk
    by_cases e : j = i
    · subst e
      simp only [upd_self] at hk ⊢
      rw [hfin] at hk
      rw [← h.keep j hj f k hk, hp']
    · simp only [upd_ne _ _ e] at hk ⊢; exact h.keep j hj f k hk
  · intro j hj a f k hf hk
    by_cases e : j = i
    · subst e
      simp only [upd_self] at hk ⊢
      rw [hfin] at hk
      rw [← h.got j hj a f k hf hk, hp']
    · simp only [upd_ne _ _ e] at hk ⊢; exact h.got j hj a f k hf hk
  · intro b hb k a ha
    obtain ⟨hn1, hal, hne⟩ := neighbours_symm hw hb (List.mem_of_getElem? ha)
    obtain ⟨c1, c2⟩ := h.chan b hb k a ha
    have earr : arrived V (upd w.procs i p' b) k = arrived V (w.procs b) k := by
      by_cases e : b = i
      · subst e; rw [upd_self, harr]
      · rw [upd_ne _ _ e]
    simp only
    rw [earr]
    by_cases e : a = i
    · subst e
      simp only [upd_self, if_true]
      have hold : (w.chan a b).map (World.read (F := F) (R := R) ⟨w.n, upd w.procs a p', fun x y => if x = a then w.chan x y ++ posted (w.procs a).borders rows copy y else w.chan x y⟩ a) =
          (w.chan a b).map (w.read a) := by
        rcases h.safe with hv | hcp
        · have h0 : sent V (w.procs a) = 0 := by
            rw [hs]; simp only [List.length_cons]; omega
          have : w.chan a b = [] := by
            rw [h0] at c1
            simpa using c1
          rw [this]; rfl
        · apply List.map_congr_left
          intro m hm
          obtain ⟨l, rfl⟩ := hcp a b m hm
          rfl
      have hpos := posted_eq (neighbours g a) (neighbours_nodup a) (fun j => borderIds g ((g.zones[a]?).getD 0) ((g.zones[j]?).getD 0))
        (fun j => rowOf g data dflt a j v) copy b hn1
      have hnew : (posted (w.procs a).borders rows copy b).map (World.read (F := F) (R := R) ⟨w.n, upd w.procs a p', fun x y => if x = a then w.chan x y ++ posted (w.procs a).borders rows copy y else w.chan x y⟩ a) =
          [rowOf g data dflt a b v] := by
        rw [hfix.borders, hrows]
        unfold bordersOf
        rw [hpos]
        by_cases hcp : copy ((neighbours g a).idxOf b) = true
        · simp [hcp, World.read]
        · simp only [hcp, if_false, Bool.false_eq_true, List.map_cons, List.map_nil, World.read, upd_self]
          rw [hp', hrows]
          simp only
          rw [List.getElem?_map, List.getElem?_idxOf hn1]; rfl
      refine ⟨?_, by rw [hs']; omega⟩
      rw [List.map_append, hold, hnew, c1, hs', List.take_add_one, hs, s2, List.drop_append_of_le_length]
      · simp
      · rw [List.length_take]
        rw [hs] at c2
        simp only [List.length_cons] at c2 ⊢
        omega
    · simp only [upd_ne _ _ e, if_neg e]
      refine ⟨?_, c2⟩
      rw [← c1]
      apply List.map_congr_left
      intro m _
      cases m with
      | copied l => rfl
      | row k => simp only [World.read, upd_ne _ _ e]
  · intro b hb u k l a hu hr ha
    by_cases e : b = i
    · subst e
      simp only [upd_self] at hu hr
      rw [hp'] at hr
      simp only [List.getElem?_replicate] at hr
      split_ifs at hr
      cases hr
    · simp only [upd_ne _ _ e] at hu hr
      exact h.recv b hb u k l a hu hr ha
  · by_cases hv : V.length ≤ 1
    · exact .inl hv
    · right
      intro a b m hm'
      rcases h.safe with hv' | hcp
      · exact absurd hv' hv
      simp only at hm'
      by_cases e : a = i
      · subst e
        rw [if_pos rfl] at hm'
        rcases List.mem_append.1 hm' with h1 | h1
        · exact hcp a b m h1
        · unfold posted at h1
          obtain ⟨q, -, h1⟩ := List.mem_filterMap.1 h1
          split_ifs at h1 with h2 h3
          · exact ⟨_, (Option.some.inj h1).symm⟩
          · exact absurd (hlate (hm q.2 (by simpa using h3))) hv
      · rw [if_neg e] at hm'
        exact hcp a b m hm'

theorem ExInv.onDeliver {data : Nat → Nat → List (Str × F)} {dflt : F} {V : List Str} {w : World F R} (hw : Wf g)
    (h : ExInv g data dflt V w) {i k src : Nat} {ids : List Int} {v : Str} {m : Msg F} {ms : List (Msg F)}
    (hi : i < w.n) (hc : (w.procs i).cur = some v) (hb : (w.procs i).borders[k]? = some (src, ids))
    (hr : (w.procs i).recv[k]? = some none) (hq : w.chan src i = m :: ms) :
    ExInv g data dflt V
        { w with
          procs := upd w.procs i { w.procs i with recv := (w.procs i).recv.set k (some (w.read src m)) }
          chan := fun a b => if a = src ∧ b = i then ms else w.chan a b } := by
  have hi' := h.n ▸ hi
  obtain ⟨d, hfix⟩ := h.fixed i hi'
  have hk : (neighbours g i)[k]? = some src := by
    rw [hfix.borders] at hb
    unfold bordersOf at hb
    rw [List.getElem?_map] at hb
    cases e : (neighbours g i)[k]? with
    | none => rw [e] at hb; cases hb
    | some x => rw [e] at hb; exact congrArg some (Prod.mk.inj (Option.some.inj hb)).1
  obtain ⟨c1, c2⟩ := h.chan i hi' k src hk
  obtain ⟨v1, v2, v3⟩ := h.cur i hi' v hc
  have hkl : k < (w.procs i).recv.length := (List.getElem?_eq_some_iff.1 hr).1
  obtain ⟨p', hp'⟩ : ∃ p' : Proc F R, p' = { w.procs i with recv := (w.procs i).recv.set k (some (w.read src m)) } := ⟨_, rfl⟩
  rw [← hp']
  have hs' : sent V p' = sent V (w.procs i) := by rw [hp']; rfl
  have hfin : finished V p' = finished V (w.procs i) := by rw [hp']; rfl
  have hk0 : arrived V (w.procs i) k = sent V (w.procs i) - 1 := by
    unfold arrived
    rw [if_neg]
    rintro (e | ⟨l, e⟩)
    · rw [hc] at e; cases e
    · rw [hr] at e; cases e
  have hk1 : arrived V p' k = sent V (w.procs i) := by
    unfold arrived
    rw [hs', if_pos]
    right
    exact ⟨w.read src m, by rw [hp']; simp [hkl]⟩
  have harr : ∀ k', k' ≠ k → arrived V p' k' = arrived V (w.procs i) k' := by
    intro k' hne
    have e1 : p'.recv[k']? = (w.procs i).recv[k']? := by rw [hp']; exact List.getElem?_set_ne hne.symm
    have e2 : p'.cur = (w.procs i).cur := by rw [hp']
    unfold arrived
    rw [hs', e1, e2]
  have hread : ∀ a m, World.read (F := F) (R := R) ⟨w.n, upd w.procs i p', fun a b => if a = src ∧ b = i then ms else w.chan a b⟩ a m = w.read a m := by
    intro a m
    cases m with
    | copied l => rfl
    | row r =>
      simp only [World.read]
      by_cases e : a = i
      · subst e; rw [upd_self, hp']
      · rw [upd_ne _ _ e]
  have hsu : ∀ a, sent V (upd w.procs i p' a) = sent V (w.procs a) := by
    intro a
    by_cases e : a = i
    · subst e; rw [upd_self, hs']
    · rw [upd_ne _ _ e]
  have hlt : sent V (w.procs i) - 1 < sent V (w.procs src) := by
    by_contra hcon
    rw [hq, hk0, List.drop_of_length_le (by rw [List.length_take]; omega)] at c1
    simp at c1
  have hdrop : (V.take (sent V (w.procs src))).drop (sent V (w.procs i) - 1) = v :: (V.take (sent V (w.procs src))).drop (sent V (w.procs i)) := by
    have h1 : sent V (w.procs i) - 1 < V.length := (List.getElem?_eq_some_iff.1 v1).1
    have h2 : sent V (w.procs i) - 1 < (V.take (sent V (w.procs src))).length := by rw [List.length_take]; omega
    rw [List.drop_eq_getElem_cons h2, List.getElem_take, show sent V (w.procs i) - 1 + 1 = sent V (w.procs i) from by omega,
      (List.getElem?_eq_some_iff.1 v1).2]
  rw [hq, hk0, hdrop, List.map_cons, List.map_cons] at c1
  obtain ⟨c3, c4⟩ := List.cons.inj c1
  refine ⟨h.n, ?_, ?_, ?_, ?_, ?_, ?_, ?_, ?_⟩
  · intro j hj
    by_cases e : j = i
    · subst e; simp only [upd_self]; exact ⟨d, hp' ▸ ⟨hfix.grid, hfix.zv, hfix.z, hfix.borders⟩⟩
    · simp only [upd_ne _ _ e]; exact h.fixed j hj
  · intro j hj
    by_cases e : j = i
    · subst e; simp only [upd_self]; rw [hp']; exact h.todo j hj
    · simp only [upd_ne _ _ e]; exact h.todo j hj
  · intro j hj u hu
    by_cases e : j = i
    · subst e
      simp only [upd_self] at hu ⊢
      rw [hs']
      rw [hp'] at hu ⊢
      obtain ⟨a1, a2, a3⟩ := h.cur j hj u hu
      exact ⟨a1, a2, by simpa using a3⟩
    · simp only [upd_ne _ _ e] at hu ⊢; exact h.cur j hj u hu
  · intro j hj f q hq
    by_cases e : j = i
    · subst e
      simp only [upd_self] at hq ⊢
      rw [hfin] at hq
      rw [← h.keep j hj f q hq, hp']
    · simp only [upd_ne _ _ e] at hq ⊢; exact h.keep j hj f q hq
  · intro j hj a f q hf hq
    by_cases e : j = i
    · subst e
      simp only [upd_self] at hq ⊢
      rw [hfin] at hq
      rw [← h.got j hj a f q hf hq, hp']
    · simp only [upd_ne _ _ e] at hq ⊢; exact h.got j hj a f q hf hq
  · intro b hb k' a ha
    obtain ⟨c5, c6⟩ := h.chan b hb k' a ha
    simp only
    rw [hsu, funext (hread a)]
    by_cases e : b = i
    · subst e
      rw [upd_self]
      by_cases e2 : k' = k
      · subst e2
        rw [hk] at ha
        obtain rfl := Option.some.inj ha
        rw [hk1, if_pos ⟨rfl, rfl⟩]
        exact ⟨c4, by omega⟩
      · rw [harr k' e2, if_neg]
        · exact ⟨c5, c6⟩
        · rintro ⟨rfl, -⟩
          obtain ⟨l1, g1⟩ := List.getElem?_eq_some_iff.1 ha
          obtain ⟨l2, g2⟩ := List.getElem?_eq_some_iff.1 hk
          exact e2 ((List.Nodup.getElem_inj_iff (neighbours_nodup b)).1 (g1.trans g2.symm))
    · rw [upd_ne _ _ e, if_neg (fun x => e x.2)]
      exact ⟨c5, c6⟩
  · intro b hbb u k' l a hu hr' ha
    by_cases e : b = i
    · subst e
      simp only [upd_self] at hu hr'
      rw [hp'] at hu hr'
      simp only at hu hr'
      rw [hc] at hu
      obtain rfl := Option.some.inj hu
      by_cases e2 : k' = k
      · subst e2
        rw [hk] at ha
        obtain rfl := Option.some.inj ha
        rw [List.getElem?_set_self hkl] at hr'
        rw [← Option.some.inj (Option.some.inj hr'), c3]
      · rw [List.getElem?_set_ne (Ne.symm e2)] at hr'
        exact h.recv b hbb v k' l a hc hr' ha
    · simp only [upd_ne _ _ e] at hu hr'
      exact h.recv b hbb u k' l a hu hr' ha
  · rcases h.safe with hv | hcp
    · exact .inl hv
    · right
      intro a b x hx
      simp only at hx
      split_ifs at hx with e
      · exact hcp src i x (hq ▸ List.mem_cons_of_mem _ hx)
      · exact hcp a b x hx

/-- All rows have arrived. -/
theorem ExInv.rows {data : Nat → Nat → List (Str × F)} {dflt : F} {V : List Str} {w : World F R}
    (h : ExInv g data dflt V w) {i : Nat} {v : Str} {rows : List (List F)} (hi : i < g.zones.length) (hc : (w.procs i).cur = some v)
    (hr : (w.procs i).recv = rows.map some) : rows = (neighbours g i).map (fun j => rowOf g data dflt j i v) := by
  obtain ⟨v1, v2, v3⟩ := h.cur i hi v hc
  have hlen : rows.length = (neighbours g i).length := by rw [← v3, hr]; simp
  apply List.ext_getElem (by simpa using hlen)
  intro k h1 h2
  have h3 : k < (neighbours g i).length := by simpa using h2
  rw [List.getElem_map]
  exact h.recv i hi v k _ _ hc (by rw [hr, List.getElem?_map, List.getElem?_eq_getElem h1]; rfl) (List.getElem?_eq_getElem h3)

theorem ExInv.onFinish {data : Nat → Nat → List (Str × F)} {dflt : F} {V : List Str} {w : World F R} (hw : Wf g) (hl : ZoneLists g)
    (h : ExInv g data dflt V w) {i : Nat} {v : Str} {rows : List (List F)} {g' : Grid F R}
    (hi : i < w.n) (hc : (w.procs i).cur = some v) (hr : (w.procs i).recv = rows.map some) (hg : takeAll (w.procs i) v rows = .ok g') :
    ExInv g data dflt V { w with procs := upd w.procs i { w.procs i with g := g', cur := none } } := by
  have hi' := h.n ▸ hi
  obtain ⟨d, hfix⟩ := h.fixed i hi'
  have hd : (w.procs i).g.fData = d := by rw [hfix.grid]
  obtain ⟨v1, v2, v3⟩ := h.cur i hi' v hc
  have hlen : rows.length = (neighbours g i).length := by rw [← v3, hr]; simp
  have hrows := h.rows hi' hc hr
  rw [hrows, takeAll_ok hw hl hi' hfix data dflt v] at hg
  have hg' := (Except.ok.inj hg).symm
  obtain ⟨t1, t2⟩ := takeAll_data hw hi' data dflt v d
  obtain ⟨p', hp'⟩ : ∃ p' : Proc F R, p' = { w.procs i with g := g', cur := none } := ⟨_, rfl⟩
  rw [← hp']
  have hs' : sent V p' = sent V (w.procs i) := by rw [hp']; rfl
  have hfin : V.take (finished V p') = V.take (finished V (w.procs i)) ++ [v] := by
    unfold finished
    rw [hs', hc, hp', if_pos rfl, if_neg (by simp)]
    conv_lhs => rw [show sent V (w.procs i) = sent V (w.procs i) - 1 + 1 from by omega, List.take_add_one, v1]
    rfl
  have harr : ∀ k, k < (neighbours g i).length → arrived V p' k = arrived V (w.procs i) k := by
    intro k hk
    unfold arrived
    rw [hs', if_pos (.inl (by rw [hp'])), if_pos]
    right
    exact ⟨rows[k], by rw [hr, List.getElem?_map, List.getElem?_eq_getElem (by omega)]; rfl⟩
  have hdata : p'.g.fData = setAll v ((neighbours g i).flatMap (written g data dflt v i)) d := by rw [hp', hg']
  refine ⟨h.n, ?_, ?_, ?_, ?_, ?_, ?_, ?_, ?_⟩
  · intro j hj
    by_cases e : j = i
    · subst e; simp only [upd_self]; rw [hp']; exact ⟨_, ⟨hg', hfix.zv, hfix.z, hfix.borders⟩⟩
    · simp only [upd_ne _ _ e]; exact h.fixed j hj
  · intro j hj
    by_cases e : j = i
    · subst e; simp only [upd_self]; rw [hp']; exact h.todo j hj
    · simp only [upd_ne _ _ e]; exact h.todo j hj
  · intro j hj u hu
    by_cases e : j = i
    · subst e
      simp only [upd_self] at hu
      rw [hp'] at hu
      cases hu
    · simp only [upd_ne _ _ e] at hu ⊢; exact h.cur j hj u hu
  · intro j hj f q hq
    by_cases e : j = i
    · subst e
      simp only [upd_self] at hq ⊢
      rw [hfin] at hq
      rw [hdata, t1 f q ?_, ← hd]
      · exact h.keep j hj f q (hq.imp id (fun x y => x (List.mem_append_left _ y)))
      · rcases hq with hq | hq
        · exact .inr hq
        · exact .inl (fun x => hq (by rw [x]; simp))
    · simp only [upd_ne _ _ e] at hq ⊢; exact h.keep j hj f q hq
  · intro j hj a f q hf hq
    by_cases e : j = i
    · subst e
      simp only [upd_self] at hq ⊢
      rw [hfin] at hq
      rw [hdata]
      by_cases e2 : q = v
      · subst e2; exact t2 a f hf
      · rw [t1 f q (.inl e2), ← hd]
        refine h.got j hj a f q hf ?_
        rcases List.mem_append.1 hq with x | x
        · exact x
        · simp [e2] at x
    · simp only [upd_ne _ _ e] at hq ⊢; exact h.got j hj a f q hf hq
  · intro b hb k a ha
    obtain ⟨c5, c6⟩ := h.chan b hb k a ha
    have hread : ∀ m, World.read (F := F) (R := R) { w with procs := upd w.procs i p' } a m = w.read a m := by
      intro m
      cases m with
      | copied l => rfl
      | row r =>
        simp only [World.read]
        by_cases e : a = i
        · subst e; rw [upd_self, hp']
        · rw [upd_ne _ _ e]
    have e1 : sent V (upd w.procs i p' a) = sent V (w.procs a) := by
      by_cases e : a = i
      · subst e; rw [upd_self, hs']
      · rw [upd_ne _ _ e]
    have e2 : arrived V (upd w.procs i p' b) k = arrived V (w.procs b) k := by
      by_cases e : b = i
      · subst e; rw [upd_self, harr k (List.getElem?_eq_some_iff.1 ha).1]
      · rw [upd_ne _ _ e]
    simp only
    rw [e1, e2, funext hread]
    exact ⟨c5, c6⟩
  · intro b hb u k l a hu hr' ha
    by_cases e : b = i
    · subst e
      simp only [upd_self] at hu
      rw [hp'] at hu
      cases hu
    · simp only [upd_ne _ _ e] at hu hr'
      exact h.recv b hb u k l a hu hr' ha
  · exact h.safe

theorem ExInv.step {data : Nat → Nat → List (Str × F)} {dflt : F} {V : List Str} {w w' : World F R} (hw : Wf g) (hl : ZoneLists g)
    {late : Bool} (hlate : late = true → V.length ≤ 1) (h : ExInv g data dflt V w) (hs : Step late dflt w w') : ExInv g data dflt V w' := by
  cases hs with
  | start i v vs rows copy hi hc ht hp hm => exact h.onStart hw hl hlate hi hc ht hp hm
  | deliver i k src ids v m ms hi hc hb hr hq hl => exact h.onDeliver hw hi hc hb hr hq
  | finish i v rows g' hi hc hr hg => exact h.onFinish hw hl hi hc hr hg

theorem ExInv.run {data : Nat → Nat → List (Str × F)} {dflt : F} {V : List Str} {w w' : World F R} (hw : Wf g) (hl : ZoneLists g)
    {late : Bool} (hlate : late = true → V.length ≤ 1) (h : ExInv g data dflt V w) (hs : Run late dflt w w') : ExInv g data dflt V w' := by
  induction hs with
  | refl => exact h
  | tail _ hstep ih => exact ih.step hw hl hlate hstep

/-- As long as a process has something to do, some process can do a step. -/
theorem ExInv.progress {data : Nat → Nat → List (Str × F)} {dflt : F} {V : List Str} {w : World F R} (hw : Wf g) (hl : ZoneLists g)
    (h : ExInv g data dflt V w) (late : Bool) (hn : ∃ i < w.n, ¬ Done (w.procs i)) : ∃ w', Step late dflt w w' := by
  classical
  obtain ⟨i, ⟨hi, hnd⟩, hmin⟩ : ∃ i, (i < w.n ∧ ¬ Done (w.procs i)) ∧ ∀ j, j < w.n → ¬ Done (w.procs j) → sent V (w.procs i) ≤ sent V (w.procs j) := by
    obtain ⟨i0, hi0, hd0⟩ := hn
    have hne : ((Finset.range w.n).filter (fun i => ¬ Done (w.procs i))).Nonempty := ⟨i0, by simp [hi0, hd0]⟩
    obtain ⟨i, h1, h2⟩ := Finset.exists_min_image _ (fun i => sent V (w.procs i)) hne
    simp only [Finset.mem_filter, Finset.mem_range] at h1 h2
    exact ⟨i, h1, fun j hj hd => h2 j ⟨hj, hd⟩⟩
  have hi' := h.n ▸ hi
  obtain ⟨d, hfix⟩ := h.fixed i hi'
  have hd : d = (w.procs i).g.fData := by rw [hfix.grid]
  cases hc : (w.procs i).cur with
  | none =>
    cases ht : (w.procs i).todo with
    | nil => exact absurd ⟨hc, ht⟩ hnd
    | cons v vs =>
      have := put_ok hw hl hi' hfix (data := data) dflt v (fun f hf => by rw [hd]; exact h.keep i hi' f v (.inl hf))
      exact ⟨_, .start w i v vs _ (fun _ => true) hi hc ht this (fun _ h => by cases h)⟩
  | some v =>
    obtain ⟨v1, v2, v3⟩ := h.cur i hi' v hc
    by_cases hex : ∃ k : Nat, (w.procs i).recv[k]? = some none
    · obtain ⟨k, hk⟩ := hex
      have hkl := (List.getElem?_eq_some_iff.1 hk).1
      rw [v3] at hkl
      obtain ⟨a, ha⟩ : ∃ a, (neighbours g i)[k]? = some a := ⟨_, List.getElem?_eq_getElem hkl⟩
      obtain ⟨-, hal, -⟩ := neighbours_symm hw hi' (List.mem_of_getElem? ha)
      obtain ⟨c1, c2⟩ := h.chan i hi' k a ha
      have hk0 : arrived V (w.procs i) k = sent V (w.procs i) - 1 := by
        unfold arrived
        rw [if_neg]
        rintro (e | ⟨l, e⟩)
        · rw [hc] at e; cases e
        · rw [hk] at e; cases e
      have hle : sent V (w.procs i) ≤ sent V (w.procs a) := by
        by_cases hda : Done (w.procs a)
        · have : sent V (w.procs a) = V.length := by unfold sent; rw [hda.2]; simp
          rw [this]
          unfold sent
          omega
        · exact hmin a (h.n ▸ hal) hda
      have hlt : sent V (w.procs i) - 1 < V.length := (List.getElem?_eq_some_iff.1 v1).1
      cases hq : w.chan a i with
      | nil =>
        rw [hq, hk0] at c1
        have := congrArg List.length c1
        simp only [List.map_nil, List.length_nil, List.length_map, List.length_drop, List.length_take] at this
        omega
      | cons m ms =>
        rw [hq, List.map_cons, hk0] at c1
        have hrow : ∃ u, w.read a m = rowOf g data dflt a i u := by
          have hm : w.read a m ∈ ((V.take (sent V (w.procs a))).drop (sent V (w.procs i) - 1)).map (rowOf g data dflt a i) := by
            rw [← c1]; exact List.mem_cons_self
          obtain ⟨u, -, hu⟩ := List.mem_map.1 hm
          exact ⟨u, hu.symm⟩
        obtain ⟨u, hu⟩ := hrow
        refine ⟨_, .deliver w i k a (borderIds g (zn g i) (zn g a)) v m ms hi hc ?_ hk hq (by rw [hu, rowOf_length])⟩
        rw [hfix.borders]
        unfold bordersOf
        rw [List.getElem?_map, ha]
        rfl
    · obtain ⟨rows, hrows⟩ : ∃ rows : List (List F), (w.procs i).recv = rows.map some := by
        refine ⟨(w.procs i).recv.map (fun o => o.getD []), ?_⟩
        rw [List.map_map]
        conv_lhs => rw [← List.map_id (w.procs i).recv]
        apply List.map_congr_left
        intro o ho
        cases o with
        | none =>
          obtain ⟨k, hk⟩ := List.getElem?_of_mem ho
          exact absurd ⟨k, hk⟩ hex
        | some l => rfl
      have ht := takeAll_ok hw hl hi' hfix data dflt v
      rw [← h.rows hi' hc hrows] at ht
      exact ⟨_, .finish w i v rows _ hi hc hrows ht⟩

/-- The number of steps left for a process. -/
def stepsLeft (p : Proc F R) : Nat :=
  p.todo.length * (p.borders.length + 2) + (if p.cur = none then 0 else 1 + (p.recv.filter (fun o => o.isNone)).length)

/-- The number of steps left. -/
def worldLeft (w : World F R) : Nat := ((List.range w.n).map (fun i => stepsLeft (w.procs i))).sum

theorem sum_upd_lt (n i : Nat) (hi : i < n) (f f' : Nat → Nat) (h1 : f' i < f i) (h2 : ∀ j, j ≠ i → f' j = f j) :
    ((List.range n).map f').sum < ((List.range n).map f).sum := by
  induction n with
  | zero => omega
  | succ n ih =>
    rw [List.range_succ, List.map_append, List.map_append, List.sum_append, List.sum_append]
    simp only [List.map_cons, List.map_nil, List.sum_cons, List.sum_nil, Nat.add_zero]
    by_cases e : n = i
    · subst e
      have : (List.range n).map f' = (List.range n).map f :=
        List.map_congr_left (fun j hj => h2 j (by have := List.mem_range.1 hj; omega))
      rw [this]
      omega
    · have := ih (by omega)
      rw [h2 n e]
      omega

theorem filter_set_lt (l : List (Option (List F))) (k : Nat) (x : List F) (h : l[k]? = some none) :
    ((l.set k (some x)).filter (fun o => o.isNone)).length < (l.filter (fun o => o.isNone)).length := by
  induction l generalizing k with
  | nil => cases h
  | cons a t ih =>
    cases k with
    | zero =>
      simp only [List.getElem?_cons_zero, Option.some.injEq] at h
      subst h
      simp
    | succ k =>
      simp only [List.getElem?_cons_succ] at h
      have := ih k h
      simp only [List.set_cons_succ, List.filter_cons]
      split_ifs <;> simp <;> omega

/-- Every step brings the end nearer. -/
theorem step_decreases {late : Bool} {dflt : F} {w w' : World F R} (h : Step late dflt w w') : worldLeft w' < worldLeft w := by
  cases h with
  | start i v vs rows copy hi hc ht hp hm =>
    refine sum_upd_lt w.n i hi _ _ ?_ (fun j hj => by simp only [upd_ne _ _ hj])
    simp only [upd_self, stepsLeft, hc, ht, if_true, List.length_cons]
    have : ((List.replicate (w.procs i).borders.length (none : Option (List F))).filter (fun o => o.isNone)).length = (w.procs i).borders.length := by simp
    rw [this]
    simp only [reduceCtorEq, if_false]
    rw [Nat.add_mul]
    omega
  | deliver i k src ids v m ms hi hc hb hr hq hl =>
    refine sum_upd_lt w.n i hi _ _ ?_ (fun j hj => by simp only [upd_ne _ _ hj])
    simp only [upd_self, stepsLeft, hc, reduceCtorEq, if_false]
    have := filter_set_lt (w.procs i).recv k (w.read src m) hr
    omega
  | finish i v rows g' hi hc hr hg =>
    refine sum_upd_lt w.n i hi _ _ ?_ (fun j hj => by simp only [upd_ne _ _ hj])
    simp only [upd_self, stepsLeft, hc, reduceCtorEq, if_false, if_true]
    omega

end Verif
