import Verif.Spec.Remesh
import Verif.Proofs.Drops
import Mathlib.Algebra.BigOperators.Group.List.Basic
import Mathlib.Algebra.Order.BigOperators.Group.List
import Mathlib.Tactic.Linarith
import Mathlib.Tactic.Ring
import Mathlib.Tactic.FieldSimp
import Mathlib.Tactic.Positivity

/-! Lemmas about remeshing. -/

namespace Verif

theorem mapM_length {α β : Type} {f : α → Res β} {l : List α} {l' : List β} (h : l.mapM f = .ok l') : l'.length = l.length := by
  induction l generalizing l' with
  | nil => rw [← Except.ok.inj h]; rfl
  | cons a l ih =>
    rw [List.mapM_cons] at h
    obtain ⟨v, -, h⟩ := res_bind_eq_ok.1 h
    obtain ⟨vs, hvs, h⟩ := res_bind_eq_ok.1 h
    rw [← Except.ok.inj h, List.length_cons, ih hvs, List.length_cons]

/-! ### Folds that assign an attribute of every object of a list -/

/-- The new value of an attribute depends on the object and on the old value of the attribute of this object. -/
theorem foldUpd {α S : Type} {f : S → Nat → Res S} (mk : (Nat → α) → S) (val : α → Nat → Res α)
    (hf : ∀ m a, f (mk m) a = (val (m a) a).bind fun v => .ok (mk (upd m a v))) {l : List Nat} (hn : l.Nodup) {m : Nat → α} {s' : S}
    (h : l.foldlM f (mk m) = .ok s') : ∃ m', s' = mk m' ∧ (∀ a ∈ l, val (m a) a = .ok (m' a)) ∧ ∀ a ∉ l, m' a = m a := by
  refine foldlM_partial f l (fun pre s => ∃ m', s = mk m' ∧ (∀ a ∈ pre, val (m a) a = .ok (m' a)) ∧ ∀ a ∉ pre, m' a = m a) _ _ h
    ⟨m, rfl, by simp, by simp⟩ ?_
  rintro pre a post s s' hl ⟨m', rfl, h1, h2⟩ hs
  rw [hf] at hs
  obtain ⟨v, hv, hs⟩ := res_bind_eq_ok.1 hs
  obtain rfl := Except.ok.inj hs
  have ha : a ∉ pre := by
    rw [hl] at hn
    intro hp
    exact (List.nodup_append.1 hn).2.2 a hp a (by simp) rfl
  refine ⟨_, rfl, fun b hb => ?_, fun b hb => ?_⟩
  · by_cases hba : b = a
    · subst hba
      rw [upd_self, ← hv, h2 _ ha]
    · rw [upd_ne _ _ hba]
      exact h1 b (by simpa [hba] using hb)
  · have : b ≠ a := fun h => hb (by simp [h])
    rw [upd_ne _ _ this]
    exact h2 b (fun h => hb (by simp [h]))

/-- The new value depends on the object only. -/
theorem foldUpdC {α S : Type} {f : S → Nat → Res S} (mk : (Nat → α) → S) (val : Nat → Res α)
    (hf : ∀ m a, f (mk m) a = (val a).bind fun v => .ok (mk (upd m a v))) {l : List Nat} {m : Nat → α} {s' : S}
    (h : l.foldlM f (mk m) = .ok s') : ∃ m', s' = mk m' ∧ (∀ a ∈ l, val a = .ok (m' a)) ∧ ∀ a ∉ l, m' a = m a := by
  refine foldlM_partial f l (fun pre s => ∃ m', s = mk m' ∧ (∀ a ∈ pre, val a = .ok (m' a)) ∧ ∀ a ∉ pre, m' a = m a) _ _ h
    ⟨m, rfl, by simp, by simp⟩ ?_
  rintro pre a post s s' hl ⟨m', rfl, h1, h2⟩ hs
  rw [hf] at hs
  obtain ⟨v, hv, hs⟩ := res_bind_eq_ok.1 hs
  obtain rfl := Except.ok.inj hs
  refine ⟨_, rfl, fun b hb => ?_, fun b hb => ?_⟩
  · by_cases hba : b = a
    · subst hba
      rw [upd_self, ← hv]
    · rw [upd_ne _ _ hba]
      exact h1 b (by simpa [hba] using hb)
  · have : b ≠ a := fun h => hb (by simp [h])
    rw [upd_ne _ _ this]
    exact h2 b (fun h => hb (by simp [h]))

/-- Nothing else changes. -/
theorem foldFrame {α S A : Type} {f : S → A → Res S} (mk : α → S) (hf : ∀ m a s', f (mk m) a = .ok s' → ∃ m', s' = mk m')
    {l : List A} {m : α} {s' : S} (h : l.foldlM f (mk m) = .ok s') : ∃ m', s' = mk m' := by
  refine foldlM_partial f l (fun _ s => ∃ m', s = mk m') _ _ h ⟨m, rfl⟩ ?_
  rintro pre a post s s' - ⟨m', rfl⟩ hs
  exact hf _ _ _ hs

/-- The same without exceptions. -/
theorem foldUpdP {α S : Type} {f : S → Nat → S} (mk : (Nat → α) → S) (val : α → Nat → α)
    (hf : ∀ m a, f (mk m) a = mk (upd m a (val (m a) a))) {l : List Nat} (hn : l.Nodup) {m : Nat → α} :
    ∃ m', l.foldl f (mk m) = mk m' ∧ (∀ a ∈ l, m' a = val (m a) a) ∧ ∀ a ∉ l, m' a = m a := by
  induction l generalizing m with
  | nil => exact ⟨m, rfl, by simp, by simp⟩
  | cons a l ih =>
    rw [List.foldl_cons, hf]
    obtain ⟨ha, hn⟩ := List.nodup_cons.1 hn
    obtain ⟨m', h1, h2, h3⟩ := ih hn (m := upd m a (val (m a) a))
    refine ⟨m', h1, fun b hb => ?_, fun b hb => ?_⟩
    · rcases List.mem_cons.1 hb with rfl | hb
      · rw [h3 _ ha, upd_self]
      · have : b ≠ a := fun h => ha (h ▸ hb)
        rw [h2 b hb, upd_ne _ _ this]
    · have : b ≠ a := fun h => hb (h ▸ List.mem_cons_self)
      rw [h3 b (fun h => hb (List.mem_cons_of_mem _ h)), upd_ne _ _ this]

namespace Ice
variable {F R : Type} [Field F] [LinearOrder F]

theorem start_ok {P : RemeshPar F} {g : Grid F R} {s : Ice F R} (h : start P g = .ok s) : s.g = g ∧
    ∀ f ∈ g.faces, ∃ a, area P.sqrt g f = .ok a ∧ s.target f = a * g.getData 0 f "Hi".toList ∧ s.rest f = s.target f ∧ s.actual f = 0 := by
  unfold start at h
  obtain ⟨m, rfl, h1, -⟩ := foldUpdC (α := F × F × F) (S := Ice F R) (fun m => { target := fun f => (m f).1, rest := fun f => (m f).2.1, actual := fun f => (m f).2.2, g := g, chunk := fun _ => 0, loc := fun _ => 0, fShift := fun _ => 0, fDir := fun _ => ⟨0, 0, 0⟩, saved := fun _ => 0, nDir := fun _ => ⟨0, 0, 0⟩, nShift := fun _ => 0, nMove := fun _ => ⟨0, 0, 0⟩ })
    (fun f => (area P.sqrt g f).bind fun a => .ok (a * g.getData 0 f "Hi".toList, a * g.getData 0 f "Hi".toList, 0)) (m := fun _ => (0, 0, 0))
    (by
      intro m a
      cases area P.sqrt g a with
      | error e => rfl
      | ok v =>
        simp only [res_bind_ok, Except.bind]
        congr 2 <;> · funext x; simp only [upd_apply]; split_ifs <;> rfl) h
  refine ⟨rfl, fun f hf => ?_⟩
  have := h1 f hf
  obtain ⟨a, ha, h2⟩ := res_bind_eq_ok.1 this
  have := Except.ok.inj h2
  exact ⟨a, ha, by simp [← this]⟩

theorem calcChunks_ok {n : Int} {s s' : Ice F R} (h : calcChunks n s = .ok s') : ∃ c, s' = { s with chunk := c } ∧
    ∀ f ∈ s.g.faces, (n : F) ≠ 0 ∧ c f = s.rest f / n := by
  unfold calcChunks at h
  obtain ⟨m, rfl, h1, -⟩ := foldUpdC (fun m => { s with chunk := m })
    (fun f => if (n : F) = 0 then .error .zeroDiv else .ok (s.rest f / n)) (m := s.chunk)
    (by intro m a; dsimp only; split_ifs <;> rfl) h
  refine ⟨m, rfl, fun f hf => ?_⟩
  have := h1 f hf
  split_ifs at this with h0
  exact ⟨h0, (Except.ok.inj this).symm⟩

theorem initDirs_ok {sqrt : F → F} {s s' : Ice F R} (h : initDirs sqrt s = .ok s') : ∃ a b, s' = { s with fDir := a, nDir := b } ∧
    (∀ f ∈ s.g.faces, ∃ t, s.g.triangle f = .ok t ∧ t.normalOrth sqrt = .ok (a f)) ∧
    ∀ n ∈ s.g.nodes, (vecSum ((s.g.nFaces n).map a)).orth sqrt = .ok (b n) := by
  unfold initDirs at h
  obtain ⟨s1, h1, h2⟩ := res_bind_eq_ok.1 h
  obtain ⟨a, rfl, ha, -⟩ := foldUpdC (fun m => { s with fDir := m }) (fun f => (s.g.triangle f).bind fun t => t.normalOrth sqrt)
    (m := s.fDir) (by
      intro m f
      show ((s.g.triangle f) >>= fun t => _) = _
      cases s.g.triangle f with
      | error e => rfl
      | ok t => rfl) h1
  obtain ⟨b, rfl, hb, -⟩ := foldUpdC (fun m => { s with fDir := a, nDir := m }) (fun n => (vecSum ((s.g.nFaces n).map a)).orth sqrt)
    (m := s.nDir) (by intro m f; rfl) h2
  exact ⟨a, b, rfl, fun f hf => res_bind_eq_ok.1 (ha f hf), hb⟩

theorem normalsTurn_ok {P : RemeshPar F} {s s' : Ice F R} (h : normalsTurn P s = .ok s') : ∃ a b, s' = { s with fDir := a, nDir := b } := by
  unfold normalsTurn at h
  obtain ⟨s1, h1, h2⟩ := res_bind_eq_ok.1 h
  obtain ⟨a, rfl⟩ := foldFrame (fun m => { s with fDir := m }) (m := s.fDir) (by
      intro m f s' h
      obtain ⟨d, -, h⟩ := res_bind_eq_ok.1 h
      exact ⟨_, (Except.ok.inj h).symm⟩) h1
  obtain ⟨b, rfl⟩ := foldFrame (fun m => { s with fDir := a, nDir := m }) (m := s.nDir) (by
      intro m f s' h
      obtain ⟨d, -, h⟩ := res_bind_eq_ok.1 h
      obtain ⟨d, -, h⟩ := res_bind_eq_ok.1 h
      exact ⟨_, (Except.ok.inj h).symm⟩) h2
  exact ⟨a, b, rfl⟩

theorem normalsSmoothing_ok {P : RemeshPar F} {s s' : Ice F R} (h : normalsSmoothing P s = .ok s') :
    ∃ a b, s' = { s with fDir := a, nDir := b } := by
  unfold normalsSmoothing at h
  obtain ⟨m, rfl⟩ := foldFrame (fun m : (Nat → Vec F) × (Nat → Vec F) => { s with fDir := m.1, nDir := m.2 }) (m := (s.fDir, s.nDir)) (by
      intro m f s' h
      obtain ⟨a, b, rfl⟩ := normalsTurn_ok h
      exact ⟨(a, b), rfl⟩) h
  exact ⟨m.1, m.2, rfl⟩

theorem defineShifts_ok {sqrt : F → F} {s s' : Ice F R} (h : defineShifts sqrt s = .ok s') : ∃ a b, s' = { s with fShift := a, nShift := b } ∧
    (∀ f ∈ s.g.faces, faceShift sqrt s f = .ok (a f)) ∧
    ∀ n ∈ s.g.nodes, s.g.nFaces n ≠ [] ∧ b n = ((s.g.nFaces n).map a).sum / (s.g.nFaces n).length ∧ 0 ≤ b n := by
  unfold defineShifts at h
  obtain ⟨s1, h1, h2⟩ := res_bind_eq_ok.1 h
  obtain ⟨a, rfl, ha, -⟩ := foldUpdC (fun m => { s with fShift := m }) (fun f => faceShift sqrt s f) (m := s.fShift)
    (by intro m f; rfl) h1
  obtain ⟨b, rfl, hb, -⟩ := foldUpdC (fun m => { s with fShift := a, nShift := m }) (fun n => nodeShift { s with fShift := a } n)
    (m := s.nShift) (by intro m f; rfl) h2
  refine ⟨a, b, rfl, ha, fun n hn => ?_⟩
  have := hb n hn
  unfold nodeShift at this
  dsimp only at this
  split_ifs at this with h1 h2
  have e := Except.ok.inj this
  rw [List.length_map] at e h2
  rw [← e]
  exact ⟨fun h => h1 (by rw [h]; rfl), rfl, not_lt.1 h2⟩

/-! ### Redistribution of ice -/

theorem sum_upd {l : List Nat} (hn : l.Nodup) (m : Nat → F) (a : Nat) (v : F) (ha : a ∈ l) :
    (l.map (upd m a v)).sum = (l.map m).sum - m a + v := by
  induction l with
  | nil => cases ha
  | cons b l ih =>
    obtain ⟨hb, hn⟩ := List.nodup_cons.1 hn
    rw [List.map_cons, List.map_cons, List.sum_cons, List.sum_cons]
    by_cases hab : a = b
    · subst hab
      have : l.map (upd m a v) = l.map m := List.map_congr_left fun c hc => upd_ne _ _ (fun h => hb (h ▸ hc))
      rw [this, upd_self]
      ring
    · have : a ∈ l := by simpa [hab] using ha
      rw [ih hn this, upd_ne _ _ (Ne.symm hab)]
      ring

theorem smoothEdge_ok {P : RemeshPar F} {maxH : F} {s s' : Ice F R} {e : Nat} (hn : s.g.faces.Nodup)
    (he : ∀ f ∈ s.g.eFaces e, f ∈ s.g.faces) (h : smoothEdge P maxH s e = .ok s') : ∃ c, s' = { s with loc := c } ∧
      (s.g.faces.map c).sum = (s.g.faces.map s.loc).sum := by
  unfold smoothEdge at h
  split at h
  · rename_i x y hxy
    rw [hxy] at he
    have hx := he x (by simp)
    have hy := he y (by simp)
    have key : ∀ f1 ∈ s.g.faces, ∀ f2 ∈ s.g.faces, ∀ v, (s.g.faces.map (upd (upd s.loc f1 (s.loc f1 - v)) f2
        (upd s.loc f1 (s.loc f1 - v) f2 + v))).sum = (s.g.faces.map s.loc).sum := by
      intro f1 h1 f2 h2 v
      rw [sum_upd hn _ _ _ h2, sum_upd hn _ _ _ h1]
      ring
    by_cases hlt : s.fShift x < s.fShift y
    · simp only [if_pos hlt] at h
      split_ifs at h <;>
      · obtain ⟨a, -, h⟩ := res_bind_eq_ok.1 h
        obtain rfl := Except.ok.inj h
        exact ⟨_, rfl, key y hy x hx _⟩
    · simp only [if_neg hlt] at h
      split_ifs at h <;>
      · obtain ⟨a, -, h⟩ := res_bind_eq_ok.1 h
        obtain rfl := Except.ok.inj h
        exact ⟨_, rfl, key x hx y hy _⟩
  · obtain rfl := Except.ok.inj h
    exact ⟨s.loc, rfl, rfl⟩

theorem heightsTurn_ok {P : RemeshPar F} {s s' : Ice F R} (hn : s.g.faces.Nodup) (he : ∀ e ∈ s.g.edges, ∀ f ∈ s.g.eFaces e, f ∈ s.g.faces)
    (h : heightsTurn P s = .ok s') : ∃ a b c d, s' = { s with chunk := a, loc := b, fShift := c, nShift := d } ∧
      (s.g.faces.map a).sum = (s.g.faces.map s.chunk).sum := by
  unfold heightsTurn at h
  obtain ⟨l0, e0, h0, -⟩ := foldUpdP (f := fun s f => { s with loc := upd s.loc f (s.chunk f) }) (fun m => { s with loc := m })
    (fun _ f => s.chunk f) (by intro m a; rfl) hn (m := s.loc)
  rw [show s = { s with loc := s.loc } from rfl, e0] at h
  dsimp only at h
  obtain ⟨maxH, hM, h⟩ := res_bind_eq_ok.1 h
  obtain ⟨s1, h1, h⟩ := res_bind_eq_ok.1 h
  obtain ⟨l1, rfl, hl1⟩ := foldlM_partial _ _ (fun _ t => ∃ c, t = { s with loc := c } ∧ (s.g.faces.map c).sum = (s.g.faces.map l0).sum) _ _ h1
    ⟨l0, rfl, rfl⟩ (by
      rintro pre e post t t' hl ⟨c, rfl, hc⟩ ht
      obtain ⟨c', rfl, hc'⟩ := smoothEdge_ok (s := { s with loc := c }) hn (he e (by rw [hl]; simp)) ht
      exact ⟨c', rfl, hc'.trans hc⟩)
  obtain ⟨c2, e2, h2, -⟩ := foldUpdP (f := fun s f => { s with chunk := upd s.chunk f (s.loc f) }) (fun m => { s with loc := l1, chunk := m })
    (fun _ f => l1 f) (by intro m a; rfl) hn (m := s.chunk)
  dsimp only at h
  rw [e2] at h
  obtain ⟨c, d, rfl, -⟩ := defineShifts_ok h
  refine ⟨_, _, _, _, rfl, ?_⟩
  rw [List.map_congr_left h2, hl1, List.map_congr_left h0]

theorem heightsSmoothing_ok {P : RemeshPar F} {s s' : Ice F R} (hn : s.g.faces.Nodup)
    (he : ∀ e ∈ s.g.edges, ∀ f ∈ s.g.eFaces e, f ∈ s.g.faces) (h : heightsSmoothing P s = .ok s') :
    ∃ a b c d, s' = { s with chunk := a, loc := b, fShift := c, nShift := d } ∧
      (s.g.faces.map a).sum = (s.g.faces.map s.chunk).sum := by
  unfold heightsSmoothing at h
  refine foldlM_partial _ _ (fun _ t => ∃ a b c d, t = { s with chunk := a, loc := b, fShift := c, nShift := d } ∧
      (s.g.faces.map a).sum = (s.g.faces.map s.chunk).sum) _ _ h ⟨_, _, _, _, rfl, rfl⟩ ?_
  rintro pre i post t t' - ⟨a, b, c, d, rfl, hs⟩ ht
  obtain ⟨a', b', c', d', rfl, hs'⟩ := heightsTurn_ok (by exact hn) (by exact he) ht
  exact ⟨_, _, _, _, rfl, hs'.trans hs⟩

/-! ### Movement of nodes -/

theorem moveNodes_ok {P : RemeshPar F} {s s' : Ice F R} (hn : s.g.nodes.Nodup) (hf : s.g.faces.Nodup) (h : moveNodes P s = .ok s') :
    ∃ mv r a p, s' = { s with nMove := mv, rest := r, actual := a, g := { s.g with nP := p } } ∧
      (∀ n ∈ s.g.nodes, mv n = (s.nDir n).smul (s.nShift n) ∧ p n = (s.g.nP n).add (mv n)) ∧ (∀ n ∉ s.g.nodes, p n = s.g.nP n) ∧
      ∀ f ∈ s.g.faces, ∃ v, deposit { s with nMove := mv } f = .ok v ∧ a f = s.actual f + v ∧
        r f = if P.redistr then (if s.rest f - v < 0 then 0 else s.rest f - v) else s.rest f := by
  unfold moveNodes at h
  obtain ⟨mv, e0, h0, -⟩ := foldUpdP (f := fun s n => { s with nMove := upd s.nMove n ((s.nDir n).smul (s.nShift n)) })
    (fun m => { s with nMove := m }) (fun _ n => (s.nDir n).smul (s.nShift n)) (by intro m a; rfl) hn (m := s.nMove)
  rw [show s = { s with nMove := s.nMove } from rfl, e0] at h
  dsimp only at h
  obtain ⟨s1, h1, h⟩ := res_bind_eq_ok.1 h
  obtain ⟨m, rfl, hm, -⟩ := foldUpd (α := F × F) (S := Ice F R)
    (fun m => { s with nMove := mv, rest := fun f => (m f).1, actual := fun f => (m f).2 })
    (fun x f => (deposit { s with nMove := mv } f).bind fun v =>
      .ok (if P.redistr then (if x.1 - v < 0 then 0 else x.1 - v) else x.1, x.2 + v)) (by
      intro m f
      unfold accrete
      rw [show deposit { s with nMove := mv, rest := fun f => (m f).1, actual := fun f => (m f).2 } f = deposit { s with nMove := mv } f from rfl]
      cases deposit { s with nMove := mv } f with
      | error e => rfl
      | ok v =>
        simp only [res_bind_ok, Except.bind]
        by_cases hr : P.redistr = true
        · simp only [if_pos hr]
          congr 2 <;> · funext x; simp only [upd_apply]; split_ifs <;> rfl
        · simp only [if_neg hr]
          congr 2 <;>
          · funext x
            simp only [upd_apply]
            split_ifs with hx
            · cases hx; rfl
            · rfl) hf (m := fun f => (s.rest f, s.actual f)) h1
  dsimp only at h
  obtain ⟨p, e2, h2, h3⟩ := foldUpdP (f := fun s n => { s with g := { s.g with nP := upd s.g.nP n ((s.g.nP n).add (s.nMove n)) } })
    (fun p => { s with nMove := mv, rest := fun f => (m f).1, actual := fun f => (m f).2, g := { s.g with nP := p } })
    (fun x n => x.add (mv n)) (by intro m a; rfl) hn (m := s.g.nP)
  rw [e2] at h
  obtain rfl := Except.ok.inj h
  refine ⟨_, _, _, _, rfl, fun n hn => ⟨h0 n hn, h2 n hn⟩, h3, fun f hf => ?_⟩
  obtain ⟨v, hv, h4⟩ := res_bind_eq_ok.1 (hm f hf)
  have := Except.ok.inj h4
  exact ⟨v, hv, by simp [← this], by simp [← this]⟩

theorem rememberAreas_ok {sqrt : F → F} {s s' : Ice F R} (h : rememberAreas sqrt s = .ok s') : ∃ a, s' = { s with saved := a } ∧
    ∀ f ∈ s.g.faces, area sqrt s.g f = .ok (a f) := by
  unfold rememberAreas at h
  obtain ⟨a, rfl, ha, -⟩ := foldUpdC (fun m => { s with saved := m }) (fun f => area sqrt s.g f) (m := s.saved) (by intro m f; rfl) h
  exact ⟨a, rfl, ha⟩

theorem correctByArea_ok {sqrt : F → F} {s s' : Ice F R} (hf : s.g.faces.Nodup) (h : correctByArea sqrt s = .ok s') :
    ∃ r, s' = { s with rest := r } ∧ ∀ f ∈ s.g.faces, s.saved f ≠ 0 ∧ ∃ a, area sqrt s.g f = .ok a ∧ r f = s.rest f * a / s.saved f := by
  unfold correctByArea at h
  obtain ⟨r, rfl, hr, -⟩ := foldUpd (fun m => { s with rest := m }) (fun x f => if s.saved f = 0 then .error .assertion else
      (area sqrt s.g f).bind fun a => .ok (x * a / s.saved f)) (by
    intro m f
    dsimp only
    split_ifs with h0
    · rfl
    · cases area sqrt s.g f with
      | error e => rfl
      | ok a => rfl) hf (m := s.rest) h
  refine ⟨r, rfl, fun f hf => ?_⟩
  have := hr f hf
  split_ifs at this with h0
  obtain ⟨a, ha, h1⟩ := res_bind_eq_ok.1 this
  exact ⟨h0, a, ha, (Except.ok.inj h1).symm⟩

theorem nullSpace_ok {P : RemeshPar F} {s s' : Ice F R} (h : nullSpace P s = .ok s') : s' = s := by
  unfold nullSpace at h
  split_ifs at h
  exact (Except.ok.inj h).symm

/-- The parts of a step. -/
theorem step_ok {P : RemeshPar F} {s s' : Ice F R} (h : step P s = .ok s') : ∃ s1 s2 s3 s4 s5 s6, initDirs P.sqrt s = .ok s1 ∧
    normalsSmoothing P s1 = .ok s2 ∧ defineShifts P.sqrt s2 = .ok s3 ∧ heightsSmoothing P s3 = .ok s4 ∧ moveNodes P s4 = .ok s5 ∧
    rememberAreas P.sqrt s5 = .ok s6 ∧ correctByArea P.sqrt s6 = .ok s' := by
  unfold step at h
  obtain ⟨s1, h1, h⟩ := res_bind_eq_ok.1 h
  obtain ⟨s2, h2, h⟩ := res_bind_eq_ok.1 h
  obtain ⟨s3, h3, h⟩ := res_bind_eq_ok.1 h
  obtain ⟨s4, h4, h⟩ := res_bind_eq_ok.1 h
  obtain ⟨s5, h5, h⟩ := res_bind_eq_ok.1 h
  obtain ⟨s6, h6, h⟩ := res_bind_eq_ok.1 h
  obtain ⟨s7, h7, h⟩ := res_bind_eq_ok.1 h
  rw [nullSpace_ok h7] at h
  exact ⟨s1, s2, s3, s4, s5, s6, h1, h2, h3, h4, h5, h6, h⟩

theorem deposit_grown {s : Ice F R} {g' : Grid F R} {f : Nat} {v : F} (h : deposit s f = .ok v) (h3 : (s.g.fNodes f).length = 3)
    (hp : ∀ n ∈ s.g.fNodes f, g'.nP n = (s.g.nP n).add (s.nMove n)) : v = grown s.g g' f := by
  unfold deposit at h
  unfold grown
  match hn : s.g.fNodes f, h3 with
  | [a, b, c], _ =>
    rw [hn] at h hp
    obtain rfl := Except.ok.inj h
    dsimp only
    rw [hp a (by simp), hp b (by simp), hp c (by simp)]
    rfl

theorem volume4_nonneg [IsStrictOrderedRing F] (a b c d : Vec F) : 0 ≤ volume4 a b c d := by unfold volume4; positivity

theorem grown_nonneg [IsStrictOrderedRing F] (g g' : Grid F R) (f : Nat) : 0 ≤ grown g g' f := by
  unfold grown
  split
  · have := fun a b c d : Vec F => volume4_nonneg a b c d
    exact add_nonneg (add_nonneg (this _ _ _ _) (this _ _ _ _)) (this _ _ _ _)
  · exact le_rfl

/-- The grid and the ice of faces are the same. -/
structure SameIce (s s' : Ice F R) : Prop where
  g : s'.g = s.g
  target : s'.target = s.target
  rest : s'.rest = s.rest
  actual : s'.actual = s.actual

theorem SameIce.trans {s s' s'' : Ice F R} (h : SameIce s s') (h' : SameIce s' s'') : SameIce s s'' :=
  ⟨h'.g.trans h.g, h'.target.trans h.target, h'.rest.trans h.rest, h'.actual.trans h.actual⟩

/-- What a step does before nodes are moved. -/
theorem before_ok {P : RemeshPar F} {s s1 s2 s3 s4 : Ice F R} (hm : Mesh s.g) (h1 : initDirs P.sqrt s = .ok s1)
    (h2 : normalsSmoothing P s1 = .ok s2) (h3 : defineShifts P.sqrt s2 = .ok s3) (h4 : heightsSmoothing P s3 = .ok s4) :
    SameIce s s4 ∧ (s.g.faces.map s4.chunk).sum = (s.g.faces.map s.chunk).sum := by
  have k1 : SameIce s s1 ∧ s1.chunk = s.chunk := by
    obtain ⟨_, _, rfl, -⟩ := initDirs_ok h1; exact ⟨⟨rfl, rfl, rfl, rfl⟩, rfl⟩
  have k2 : SameIce s1 s2 ∧ s2.chunk = s1.chunk := by
    obtain ⟨_, _, rfl⟩ := normalsSmoothing_ok h2; exact ⟨⟨rfl, rfl, rfl, rfl⟩, rfl⟩
  have k3 : SameIce s2 s3 ∧ s3.chunk = s2.chunk := by
    obtain ⟨_, _, rfl, -⟩ := defineShifts_ok h3; exact ⟨⟨rfl, rfl, rfl, rfl⟩, rfl⟩
  have k := (k1.1.trans k2.1).trans k3.1
  have hm3 : Mesh s3.g := k.g ▸ hm
  obtain ⟨a, b, c, d, e4, hs⟩ := heightsSmoothing_ok hm3.faces_nodup (fun e he f hf => ((hm3.edge_face e he f).1 hf).1) h4
  have k4 : SameIce s3 s4 ∧ s4.chunk = a := by rw [e4]; exact ⟨⟨rfl, rfl, rfl, rfl⟩, rfl⟩
  refine ⟨k.trans k4.1, ?_⟩
  rw [k4.2, ← k.g, hs, k3.2, k2.2, k1.2]

/-- What a step does when and after nodes are moved. -/
theorem after_ok {P : RemeshPar F} {s s5 s6 s' : Ice F R} (hm : Mesh s.g) (h5 : moveNodes P s = .ok s5)
    (h6 : rememberAreas P.sqrt s5 = .ok s6) (h7 : correctByArea P.sqrt s6 = .ok s') :
    Moved s.g s'.g ∧ s'.target = s.target ∧ (∀ k ∉ s.g.nodes, s'.g.nP k = s.g.nP k) ∧
      (∀ n ∈ s.g.nodes, s'.g.nP n = (s.g.nP n).add ((s.nDir n).smul (s.nShift n))) ∧
      ∀ f ∈ s.g.faces, s'.actual f = s.actual f + grown s.g s'.g f ∧
        s'.rest f = if P.redistr then (if s.rest f - grown s.g s'.g f < 0 then 0 else s.rest f - grown s.g s'.g f) else s.rest f := by
  obtain ⟨mv, r, a, p, e5, hp, hq, hv⟩ := moveNodes_ok hm.nodes_nodup hm.faces_nodup h5
  have g5 : s5.g = { s.g with nP := p } := by rw [e5]
  have r5 : s5.rest = r := by rw [e5]
  have a5 : s5.actual = a := by rw [e5]
  have t5 : s5.target = s.target := by rw [e5]
  clear e5 h5
  obtain ⟨sv, rfl, hsv⟩ := rememberAreas_ok h6
  have hm5 : s5.g.faces.Nodup := by rw [g5]; exact hm.faces_nodup
  obtain ⟨r', rfl, hr'⟩ := correctByArea_ok (by exact hm5) h7
  dsimp only at hr' ⊢
  rw [g5, t5, a5]
  refine ⟨⟨p, rfl⟩, rfl, hq, fun n hn => (hp n hn).2.trans (by rw [(hp n hn).1]), fun f hf => ?_⟩
  have hf5 : f ∈ s5.g.faces := by rw [g5]; exact hf
  obtain ⟨hz, a', ha', hr1⟩ := hr' f hf5
  rw [hsv f hf5] at ha'
  have e2 : r' f = r f := by
    rw [hr1, ← Except.ok.inj ha', r5]
    exact mul_div_cancel_right₀ _ hz
  obtain ⟨v, hv1, hv2, hv3⟩ := hv f hf
  obtain ⟨hl3, -, hmem⟩ := hm.face_nodes f hf
  have e3 := deposit_grown (g' := { s.g with nP := p }) hv1 hl3 (fun k hk => (hp k (hmem k hk)).2)
  rw [hv2, e2, hv3, e3]
  exact ⟨rfl, rfl⟩

theorem after_chunk {P : RemeshPar F} {s s5 s6 s' : Ice F R} (hm : Mesh s.g) (h5 : moveNodes P s = .ok s5)
    (h6 : rememberAreas P.sqrt s5 = .ok s6) (h7 : correctByArea P.sqrt s6 = .ok s') : s'.chunk = s.chunk ∧ s'.fShift = s.fShift := by
  obtain ⟨mv, r, a, p, e5, -⟩ := moveNodes_ok hm.nodes_nodup hm.faces_nodup h5
  have g5 : s5.g.faces.Nodup := by rw [e5]; exact hm.faces_nodup
  have c5 : s5.chunk = s.chunk ∧ s5.fShift = s.fShift := by rw [e5]; exact ⟨rfl, rfl⟩
  clear e5 h5
  obtain ⟨sv, rfl, -⟩ := rememberAreas_ok h6
  obtain ⟨r', rfl, -⟩ := correctByArea_ok (by exact g5) h7
  exact c5

theorem smoothing_zero {P : RemeshPar F} {s s' : Ice F R} (h0 : P.hsmoothSteps ≤ 0) (h : heightsSmoothing P s = .ok s') : s' = s := by
  unfold heightsSmoothing at h
  rw [Int.toNat_of_nonpos h0] at h
  exact (Except.ok.inj h).symm

/-- The effect of a step. -/
theorem turn_ok {P : RemeshPar F} {n : Int} {s s' : Ice F R} (hm : Mesh s.g) (h : turn P n s = .ok s') :
    Moved s.g s'.g ∧ s'.target = s.target ∧ (∀ k ∉ s.g.nodes, s'.g.nP k = s.g.nP k) ∧
      (s.g.faces.map s'.chunk).sum = (s.g.faces.map fun f => s.rest f / n).sum ∧
      ∀ f ∈ s.g.faces, (n : F) ≠ 0 ∧ (P.hsmoothSteps ≤ 0 → s'.chunk f = s.rest f / n) ∧ s'.actual f = s.actual f + grown s.g s'.g f ∧
        s'.rest f = if P.redistr then (if s.rest f - grown s.g s'.g f < 0 then 0 else s.rest f - grown s.g s'.g f) else s.rest f := by
  unfold turn at h
  obtain ⟨s0, h0, h⟩ := res_bind_eq_ok.1 h
  obtain ⟨c, e0, hc⟩ := calcChunks_ok h0
  have k0 : SameIce s s0 := by rw [e0]; exact ⟨rfl, rfl, rfl, rfl⟩
  have c0 : s0.chunk = c := by rw [e0]
  obtain ⟨s1, s2, s3, s4, s5, s6, h1, h2, h3, h4, h5, h6, h7⟩ := step_ok h
  obtain ⟨k1, hs⟩ := before_ok (k0.g ▸ hm) h1 h2 h3 h4
  have k := k0.trans k1
  have hm4 : Mesh s4.g := k.g ▸ hm
  obtain ⟨m1, m2, m3, -, m4⟩ := after_ok hm4 h5 h6 h7
  have hch := (after_chunk hm4 h5 h6 h7).1
  rw [k.g, k.target, k.actual, k.rest] at *
  rw [k0.g, c0] at hs
  refine ⟨m1, m2, m3, ?_, fun f hf => ⟨(hc f hf).1, fun hz => ?_, m4 f hf⟩⟩
  · rw [hch, hs]
    exact congrArg List.sum (List.map_congr_left fun f hf => (hc f hf).2)
  · have e4 : s4 = s3 := smoothing_zero hz h4
    obtain ⟨_, _, e1, -⟩ := initDirs_ok h1
    obtain ⟨_, _, e2⟩ := normalsSmoothing_ok h2
    obtain ⟨_, _, e3, -⟩ := defineShifts_ok h3
    have : s4.chunk = c := by
      rw [e4]
      have a3 : s3.chunk = s2.chunk := by rw [e3]
      have a2 : s2.chunk = s1.chunk := by rw [e2]
      have a1 : s1.chunk = s0.chunk := by rw [e1]
      rw [a3, a2, a1, c0]
    rw [hch, this]
    exact (hc f hf).2

theorem Moved.mesh {g g' : Grid F R} (h : Moved g g') (hm : Mesh g) : Mesh g' := by
  obtain ⟨p, rfl⟩ := h
  exact ⟨hm.1, hm.2, hm.3, hm.4, hm.5, hm.6, hm.7, hm.8, hm.9, hm.10, hm.11, hm.12, hm.13, hm.14, hm.15⟩

/-- A fold over a range passes through a sequence of states. -/
theorem fold_states {S : Type} {f : S → Nat → Res S} {n : Nat} {s s' : S} (h : (List.range n).foldlM f s = .ok s') :
    ∃ ss : Nat → S, ss 0 = s ∧ ss n = s' ∧ ∀ i < n, f (ss i) i = .ok (ss (i + 1)) := by
  induction n generalizing s' with
  | zero => exact ⟨fun _ => s, rfl, Except.ok.inj h, by simp⟩
  | succ n ih =>
    rw [List.range_succ, List.foldlM_append] at h
    obtain ⟨t, ht, h⟩ := res_bind_eq_ok.1 h
    obtain ⟨u, hu, h⟩ := res_bind_eq_ok.1 h
    obtain rfl := Except.ok.inj h
    obtain ⟨ss, h0, hn, hs⟩ := ih ht
    refine ⟨fun i => if i = n + 1 then u else ss i, ?_, by simp, fun i hi => ?_⟩
    · dsimp only; rw [if_neg (by omega)]; exact h0
    · dsimp only
      rw [if_neg (by omega : i ≠ n + 1)]
      by_cases hin : i = n
      · subst hin
        rw [if_pos rfl, hn, hu]
      · rw [if_neg (by omega)]
        exact hs i (by omega)

end Ice

namespace Grid
variable {F R : Type} [Field F] [LinearOrder F]

/-! ### Border nodes -/

/-- One node is marked. -/
def mark1 (g : Grid F R) (n : Nat) : Grid F R :=
  if !(g.nBorder n) then { g with nBorder := upd g.nBorder n true, borderCnt := g.borderCnt + 1 } else g

theorem mark1_frame (g : Grid F R) (n : Nat) : ∃ b c, g.mark1 n = { g with nBorder := b, borderCnt := c } := by
  unfold mark1
  split_ifs
  · exact ⟨_, _, rfl⟩
  · exact ⟨g.nBorder, g.borderCnt, rfl⟩

theorem marks_frame (l : List Nat) (g : Grid F R) : ∃ b c, l.foldl mark1 g = { g with nBorder := b, borderCnt := c } := by
  induction l generalizing g with
  | nil => exact ⟨g.nBorder, g.borderCnt, rfl⟩
  | cons a l ih =>
    obtain ⟨b, c, e⟩ := mark1_frame g a
    obtain ⟨b', c', e'⟩ := ih (g.mark1 a)
    rw [List.foldl_cons, e', e]
    exact ⟨b', c', rfl⟩

/-- The ends of the edges with one face. -/
def borderEnds (g : Grid F R) (es : List Nat) : List Nat := es.flatMap fun e => if (g.eFaces e).length = 1 then g.eNodes e else []

theorem markFixed_eq (g : Grid F R) : g.markFixedNodes = (g.borderEnds g.edges).foldl mark1 g := by
  unfold markFixedNodes borderEnds
  generalize hes : g.edges = es
  clear hes
  obtain ⟨g0, h0⟩ : ∃ g0, g0 = g := ⟨_, rfl⟩
  have key : ∃ b c, g0 = { g with nBorder := b, borderCnt := c } := ⟨g.nBorder, g.borderCnt, h0⟩
  rw [show (es.foldl _ g) = es.foldl _ g0 from by rw [h0]]
  rw [show (List.foldl mark1 g (es.flatMap fun e => if (g.eFaces e).length = 1 then g.eNodes e else [])) =
    List.foldl mark1 g0 (es.flatMap fun e => if (g.eFaces e).length = 1 then g.eNodes e else []) from by rw [h0]]
  clear h0
  induction es generalizing g0 with
  | nil => rfl
  | cons e es ih =>
    obtain ⟨b, c, e0⟩ := key
    have h1 : (g0.eFaces e) = g.eFaces e := by rw [e0]
    have h2 : (g0.eNodes e) = g.eNodes e := by rw [e0]
    rw [List.foldl_cons, List.flatMap_cons, List.foldl_append, h1, h2]
    split_ifs with h
    · obtain ⟨b', c', e'⟩ := marks_frame (g.eNodes e) g0
      exact ih _ ⟨b', c', by show (g.eNodes e).foldl mark1 g0 = _; rw [e', e0]⟩
    · exact ih _ ⟨b, c, e0⟩

theorem marks_border (l : List Nat) (g : Grid F R) (n : Nat) :
    (l.foldl mark1 g).nBorder n = true ↔ g.nBorder n = true ∨ n ∈ l := by
  induction l generalizing g with
  | nil => simp
  | cons a l ih =>
    rw [List.foldl_cons, ih, List.mem_cons]
    have : (g.mark1 a).nBorder n = true ↔ g.nBorder n = true ∨ n = a := by
      unfold mark1
      cases hb : g.nBorder a
      · simp only [Bool.not_false, if_true, upd_apply]
        by_cases hn : n = a <;> simp [hn]
      · simp only [Bool.not_true, Bool.false_eq_true, if_false]
        constructor
        · exact Or.inl
        · rintro (h | rfl)
          · exact h
          · exact hb
    rw [this]
    tauto

theorem mark1_count {g : Grid F R} {n : Nat} {N : List Nat} (hN : N.Nodup) (hn : n ∈ N) :
    (g.mark1 n).borderCnt + (N.countP g.nBorder : Int) = g.borderCnt + N.countP (g.mark1 n).nBorder := by
  unfold mark1
  cases hb : g.nBorder n
  · simp only [Bool.not_false, if_true]
    have : N.countP (upd g.nBorder n true) = N.countP g.nBorder + 1 := by
      clear * - hN hn hb
      induction N with
      | nil => cases hn
      | cons a N ih =>
        obtain ⟨ha, hN⟩ := List.nodup_cons.1 hN
        rw [List.countP_cons, List.countP_cons]
        by_cases han : n = a
        · subst han
          have : N.countP (upd g.nBorder n true) = N.countP g.nBorder := List.countP_congr fun c hc => by
            have : c ≠ n := fun h => ha (h ▸ hc)
            rw [upd_ne _ _ this]
          rw [this, upd_self, hb]
          simp
        · rw [ih hN (by simpa [han] using hn), upd_ne _ _ (Ne.symm han)]
          omega
    rw [this]
    push_cast
    ring
  · simp

theorem marks_count {N : List Nat} (hN : N.Nodup) (l : List Nat) (hl : ∀ n ∈ l, n ∈ N) (g : Grid F R) :
    (l.foldl mark1 g).borderCnt + (N.countP g.nBorder : Int) = g.borderCnt + N.countP (l.foldl mark1 g).nBorder := by
  induction l generalizing g with
  | nil => rfl
  | cons a l ih =>
    rw [List.foldl_cons]
    have h1 := ih (fun n hn => hl n (List.mem_cons_of_mem _ hn)) (g.mark1 a)
    have h2 := mark1_count (g := g) hN (hl a List.mem_cons_self)
    omega

theorem marks_again (l : List Nat) (g : Grid F R) (h : ∀ n ∈ l, g.nBorder n = true) : l.foldl mark1 g = g := by
  induction l with
  | nil => rfl
  | cons a l ih =>
    rw [List.foldl_cons]
    have : g.mark1 a = g := by
      unfold mark1
      rw [h a List.mem_cons_self]
      rfl
    rw [this]
    exact ih fun n hn => h n (List.mem_cons_of_mem _ hn)

theorem mem_borderEnds {g : Grid F R} {n : Nat} :
    n ∈ g.borderEnds g.edges ↔ ∃ e ∈ g.edges, (g.eFaces e).length = 1 ∧ n ∈ g.eNodes e := by
  unfold borderEnds
  rw [List.mem_flatMap]
  constructor
  · rintro ⟨e, he, h⟩
    split_ifs at h with h1
    · exact ⟨e, he, h1, h⟩
    · cases h
  · rintro ⟨e, he, h1, h⟩
    exact ⟨e, he, by rw [if_pos h1]; exact h⟩

/-! ### The number of steps -/

theorem count_above {l : List Int} {r : Int} {m : Nat} (h : ∀ x ∈ l.drop m, x ≤ r) : l.countP (fun x => decide (r < x)) ≤ m := by
  rw [← List.take_append_drop m l, List.countP_append]
  have h0 : (l.drop m).countP (fun x => decide (r < x)) = 0 := by
    rw [List.countP_eq_zero]
    intro x hx
    simpa using h x hx
  rw [h0]
  exact (List.countP_le_length).trans (by simp)

theorem count_more {l : List Int} (hs : l.Pairwise (· ≥ ·)) {r x : Int} {m : Nat} (hx : l[m]? = some x) (h : r < x) :
    m < l.countP (fun x => decide (r < x)) := by
  obtain ⟨hm, hx⟩ := List.getElem?_eq_some_iff.1 hx
  rw [← List.take_append_drop (m + 1) l, List.countP_append]
  have h0 : (l.take (m + 1)).countP (fun x => decide (r < x)) = m + 1 := by
    rw [List.countP_eq_length.2]
    · simp; omega
    · intro y hy
      obtain ⟨i, hi, rfl⟩ := List.mem_take_iff_getElem.1 hy
      have : l[m] ≤ l[i] := by
        rcases Nat.lt_or_ge i m with h | h
        · exact List.pairwise_iff_getElem.1 hs i m (by omega) hm h
        · have : i = m := by omega
          subst this
          exact le_rfl
      rw [hx] at this
      simpa using lt_of_lt_of_le h this
  omega

theorem drop_le {l : List Int} (hs : l.Pairwise (· ≥ ·)) {x : Int} {m : Nat} (hx : l[m]? = some x) : ∀ y ∈ l.drop m, y ≤ x := by
  obtain ⟨hm, hx⟩ := List.getElem?_eq_some_iff.1 hx
  intro y hy
  obtain ⟨i, hi, rfl⟩ := List.getElem_of_mem hy
  rw [List.getElem_drop]
  rcases Nat.eq_zero_or_pos i with rfl | h
  · simp [hx]
  · rw [← hx]
    rw [List.length_drop] at hi
    exact List.pairwise_iff_getElem.1 hs m (m + i) hm (by omega) (by omega)

theorem take_drop_ge {l : List Int} (hs : l.Pairwise (· ≥ ·)) {x y : Int} {m : Nat} (hx : x ∈ l.take m) (hy : y ∈ l.drop m) : y ≤ x := by
  rw [← List.take_append_drop m l] at hs
  exact (List.pairwise_append.1 hs).2.2 x hx y hy

theorem mapM_steps {P : RemeshPar F} {g : Grid F R} {fs : List Nat} (h3 : ∀ f ∈ fs, (g.fNodes f).length = 3) {l : List Int}
    (h : fs.mapM (fun f => do
      let t ← g.triangle f
      let q := t.minSide P.sqrt * P.hiSideFact
      if q = 0 then .error .zeroDiv else .ok (P.trunc (g.getData 0 f "Hi".toList / q) + 1)) = Except.ok l) :
    l = fs.map (stepsNeeded P g) := by
  induction fs generalizing l with
  | nil => exact (Except.ok.inj h).symm
  | cons f fs ih =>
    rw [List.mapM_cons] at h
    obtain ⟨v, hv, h⟩ := res_bind_eq_ok.1 h
    obtain ⟨vs, hvs, h⟩ := res_bind_eq_ok.1 h
    obtain rfl := Except.ok.inj h
    rw [List.map_cons, ← ih (fun f hf => h3 f (List.mem_cons_of_mem _ hf)) hvs]
    congr 1
    obtain ⟨t, ht, hv⟩ := res_bind_eq_ok.1 hv
    dsimp only at hv
    split_ifs at hv with h0
    rw [← Except.ok.inj hv]
    unfold stepsNeeded
    congr 4
    unfold Grid.triangle at ht
    unfold shortestSide
    match hn : g.fNodes f, h3 f List.mem_cons_self with
    | [a, b, c], _ =>
      rw [hn] at ht
      obtain rfl := Except.ok.inj ht
      simp only [Tri.minSide, dist, Vec.mod, Vec.mod2, Vec.dot, Vec.sub, pow_two]

end Grid
end Verif
