import Verif.Proofs.Basic
import Verif.Spec.Grid
import Mathlib.Data.List.Nodup
import Verif.Model.Load

/-! Creation of edges: the loop over all sides of all faces. -/

namespace Verif
variable {F R : Type} [DecidableEq R]

/-- A side of a face: the face and the two ends. -/
abbrev Side := Nat × Nat × Nat

/-- The pair of ends without order. -/
def npair (a b : Nat) : Nat × Nat := (min a b, max a b)

theorem npair_comm (a b : Nat) : npair a b = npair b a := by
  unfold npair; rw [Nat.min_comm, Nat.max_comm]

theorem npair_eq {a b c d : Nat} : npair a b = npair c d ↔ (a = c ∧ b = d) ∨ (a = d ∧ b = c) := by
  unfold npair
  rw [Prod.mk.injEq]
  constructor
  · rintro ⟨h1, h2⟩; omega
  · rintro (⟨rfl, rfl⟩ | ⟨rfl, rfl⟩)
    · exact ⟨rfl, rfl⟩
    · exact ⟨Nat.min_comm _ _, Nat.max_comm _ _⟩

def Side.pair (s : Side) : Nat × Nat := npair s.2.1 s.2.2

/-- Link one side. -/
def linkSide (g : Grid F R) (s : Side) : Res (Grid F R) := g.complexLink s.1 s.2.1 s.2.2

/-- Ends of an edge without order. -/
def epair (en : Nat → List Nat) (e : Nat) : Nat × Nat :=
  match en e with
  | [a, b] => npair a b
  | _ => (0, 0)

/-- Hypotheses on the sides with respect to rounded coordinates. -/
structure SidesOk (key : Nat → R) (sides : List Side) : Prop where
  ends : ∀ s ∈ sides, key s.2.1 ≠ key s.2.2
  sep : ∀ s ∈ sides, ∀ t ∈ sides, ∀ a b x, s.pair = npair a b → t.pair = npair a x → key b = key x → b = x

/-- Invariant of the loop. `g0` is the grid before the loop. -/
structure EdgeInv (g0 : Grid F R) (ns fs : List Nat) (done : List Side) (m : Nat) (en ef : Nat → List Nat) (eg : Nat → Nat)
    (ne fe : Nat → List Nat) : Prop where
  /-- an edge joins the ends of a side -/
  enodes : ∀ k < m, ∃ s ∈ done, en (g0.eNext + k) = [s.2.1, s.2.2]
  efaces : ∀ k < m, ef (g0.eNext + k) = (done.filter (fun s => s.pair = epair en (g0.eNext + k))).map (·.1)
  /-- every side is an edge -/
  all : ∀ s ∈ done, ∃ k < m, epair en (g0.eNext + k) = s.pair
  uniq : ∀ k < m, ∀ l < m, epair en (g0.eNext + k) = epair en (g0.eNext + l) → k = l
  nedges : ∀ n ∈ ns, ne n = (List.range' g0.eNext m).filter (fun e => (en e).contains n)
  fedges : ∀ f ∈ fs, (fe f).map (epair en) = (g0.fEdges f).map (epair en) ++ (done.filter (fun s => s.1 = f)).map Side.pair
  fedges_mem : ∀ f ∈ fs, ∀ e ∈ fe f, e ∈ g0.fEdges f ∨ (g0.eNext ≤ e ∧ e < g0.eNext + m)
  eglo : ∀ k < m, eg (g0.eNext + k) = g0.edges.length + k
  count : ∀ p, (done.filter (fun s => s.pair = p)).length ≤ 2

/-- Result of the loop in terms of the grid before. -/
def withEdges (g0 : Grid F R) (m : Nat) (en ef : Nat → List Nat) (eg : Nat → Nat) (ne fe : Nat → List Nat) : Grid F R :=
  { g0 with
    edges := g0.edges ++ List.range' g0.eNext m, eNext := g0.eNext + m, eNodes := en, eFaces := ef, eGlo := eg,
    nEdges := ne, fEdges := fe }

theorem epair_congr {en en' : Nat → List Nat} {e : Nat} (h : en' e = en e) : epair en' e = epair en e := by
  unfold epair; rw [h]

theorem epair_of {en : Nat → List Nat} {e a b : Nat} (h : en e = [a, b]) : epair en e = npair a b := by
  unfold epair; rw [h]

theorem linkSide_step {g0 : Grid F R} {ns fs : List Nat} {done : List Side} {m : Nat} {en ef : Nat → List Nat} {eg : Nat → Nat}
    {ne fe : Nat → List Nat} (h : EdgeInv g0 ns fs done m en ef eg ne fe) (s : Side)
    (hfe : ∀ f ∈ fs, ∀ e ∈ g0.fEdges f, e < g0.eNext)
    (hok : SidesOk g0.nKey (done ++ [s])) (ha : s.2.1 ∈ ns) (hb : s.2.2 ∈ ns) :
    (2 ≤ (done.filter (fun t => t.pair = s.pair)).length ∧
      linkSide (withEdges g0 m en ef eg ne fe) s = .error (.exc "Too many faces linking with this edge")) ∨
    ((done.filter (fun t => t.pair = s.pair)).length < 2 ∧
      ∃ m' en' ef' eg' ne' fe', linkSide (withEdges g0 m en ef eg ne fe) s = .ok (withEdges g0 m' en' ef' eg' ne' fe') ∧
        EdgeInv g0 ns fs (done ++ [s]) m' en' ef' eg' ne' fe') := by
  obtain ⟨f, a, b⟩ := s
  simp only at ha hb
  have hkey : g0.nKey a ≠ g0.nKey b := hok.ends (f, a, b) (by simp)
  have hab : a ≠ b := fun e => hkey (by rw [e])
  -- the edges of `a` found by key are those joining `a` and `b`
  have hfind : ∀ k < m, (en (g0.eNext + k)).contains a = true →
      ((en (g0.eNext + k)).any (fun x => decide (g0.nKey x = g0.nKey b)) = true ↔ epair en (g0.eNext + k) = npair a b) := by
    intro k hk hca
    obtain ⟨t, ht, hen⟩ := h.enodes k hk
    obtain ⟨tf, t1, t2⟩ := t
    simp only at hen
    rw [epair_of hen]
    rw [hen] at hca ⊢
    simp only [List.contains_cons, List.contains_nil, Bool.or_false, Bool.or_eq_true, beq_iff_eq] at hca
    simp only [List.any_cons, List.any_nil, Bool.or_false, Bool.or_eq_true, decide_eq_true_eq]
    have hsep := hok.sep (f, a, b) (by simp) (tf, t1, t2) (by simp [ht])
    have htk : g0.nKey t1 ≠ g0.nKey t2 := hok.ends (tf, t1, t2) (by simp [ht])
    constructor
    · intro hx
      rcases hca with rfl | rfl
      · rcases hx with hx | hx
        · exact absurd hx hkey
        · have := hsep a b t2 rfl rfl hx.symm
          rw [this]
      · rcases hx with hx | hx
        · have := hsep a b t1 rfl (npair_comm _ _) hx.symm
          rw [this, npair_comm]
        · exact absurd hx hkey
    · intro he
      rcases npair_eq.1 he with ⟨rfl, rfl⟩ | ⟨rfl, rfl⟩
      · exact Or.inr rfl
      · exact Or.inl rfl
  have hrange : ∀ e, e ∈ List.range' g0.eNext m ↔ ∃ k < m, e = g0.eNext + k := by
    intro e
    rw [List.mem_range'_1]
    constructor
    · rintro ⟨h1, h2⟩; exact ⟨e - g0.eNext, by omega, by omega⟩
    · rintro ⟨k, hk, rfl⟩; omega
  by_cases hex : ∃ k < m, epair en (g0.eNext + k) = npair a b
  · obtain ⟨k, hk, hke⟩ := hex
    have hca : (en (g0.eNext + k)).contains a = true ∧ (en (g0.eNext + k)).contains b = true := by
      obtain ⟨t, ht, hen⟩ := h.enodes k hk
      rw [epair_of hen] at hke
      rw [hen]
      rcases npair_eq.1 hke with ⟨h1, h2⟩ | ⟨h1, h2⟩ <;> simp [h1, h2]
    have hfe' : (withEdges g0 m en ef eg ne fe).findEdge a b = some (g0.eNext + k) := by
      unfold Grid.findEdge
      show (ne a).find? (fun e => (en e).any (fun x => decide (g0.nKey x = g0.nKey b))) = _
      rw [h.nedges a ha]
      have hmem : g0.eNext + k ∈ (List.range' g0.eNext m).filter (fun e => (en e).contains a) := by
        rw [List.mem_filter, hrange]; exact ⟨⟨k, hk, rfl⟩, hca.1⟩
      have hsome : ((List.range' g0.eNext m).filter (fun e => (en e).contains a)).find?
          (fun e => (en e).any (fun x => decide (g0.nKey x = g0.nKey b))) ≠ none := by
        intro hc
        rw [List.find?_eq_none] at hc
        exact hc _ hmem ((hfind k hk hca.1).2 hke)
      cases hf : ((List.range' g0.eNext m).filter (fun e => (en e).contains a)).find?
          (fun e => (en e).any (fun x => decide (g0.nKey x = g0.nKey b))) with
      | none => exact absurd hf hsome
      | some e =>
        have h1 := List.mem_of_find?_eq_some hf
        have h2 := List.find?_some hf
        rw [List.mem_filter, hrange] at h1
        obtain ⟨⟨k', hk', rfl⟩, hca'⟩ := h1
        have h3 := (hfind k' hk' hca').1 h2
        have := h.uniq k' hk' k hk (h3.trans hke.symm)
        rw [this]
    have hlen : (ef (g0.eNext + k)).length = (done.filter (fun t => t.pair = npair a b)).length := by
      rw [h.efaces k hk, List.length_map, hke]
    have hunf : linkSide (withEdges g0 m en ef eg ne fe) (f, a, b) = (if (ef (g0.eNext + k)).length = 2 then
        .error (.exc "Too many faces linking with this edge") else
        .ok (withEdges g0 m en (upd ef (g0.eNext + k) (ef (g0.eNext + k) ++ [f])) eg ne (upd fe f (fe f ++ [g0.eNext + k])))) := by
      unfold linkSide Grid.complexLink
      simp only
      rw [hfe']
      rfl
    rw [hunf, hlen]
    have hcnt := h.count (npair a b)
    show (2 ≤ (done.filter (fun t => t.pair = npair a b)).length ∧ _) ∨ _
    by_cases h2 : (done.filter (fun t => t.pair = npair a b)).length = 2
    · left; exact ⟨by omega, by rw [if_pos h2]⟩
    · right
      refine ⟨by show (done.filter (fun t => t.pair = npair a b)).length < 2; omega, ?_⟩
      rw [if_neg h2]
      refine ⟨m, en, _, eg, ne, _, rfl, ?_⟩
      constructor
      · intro j hj
        obtain ⟨t, ht, hen⟩ := h.enodes j hj
        exact ⟨t, by simp [ht], hen⟩
      · intro j hj
        rw [List.filter_append, List.map_append]
        by_cases e : j = k
        · subst e
          rw [upd_self, h.efaces j hj, hke]
          have : List.filter (fun s : Side => decide (s.pair = npair a b)) [(f, a, b)] = [(f, a, b)] := by
            simp [Side.pair]
          rw [this]; rfl
        · rw [upd_ne _ _ (by omega), h.efaces j hj]
          have : List.filter (fun s : Side => decide (s.pair = epair en (g0.eNext + j))) [(f, a, b)] = [] := by
            rw [List.filter_eq_nil_iff]
            intro t ht
            simp only [List.mem_singleton] at ht
            subst ht
            simp only [decide_eq_true_eq]
            intro hc
            exact e (h.uniq j hj k hk (hc.symm.trans hke.symm))
          rw [this]; simp
      · intro t ht
        rcases List.mem_append.1 ht with ht | ht
        · exact h.all t ht
        · simp only [List.mem_singleton] at ht
          subst ht
          exact ⟨k, hk, hke⟩
      · exact h.uniq
      · exact h.nedges
      · intro f' hf'
        by_cases e : f' = f
        · subst e
          rw [upd_self, List.map_append, h.fedges f' hf', List.filter_append, List.map_append, List.append_assoc]
          congr 2
          simp [hke, Side.pair]
        · rw [upd_ne _ _ e, h.fedges f' hf', List.filter_append]
          have : List.filter (fun s : Side => decide (s.1 = f')) [(f, a, b)] = [] := by
            simp [Ne.symm e]
          rw [this]; simp
      · intro f' hf' e he
        by_cases ef' : f' = f
        · subst ef'
          rw [upd_self] at he
          rcases List.mem_append.1 he with he | he
          · exact h.fedges_mem f' hf' e he
          · simp only [List.mem_singleton] at he
            right; omega
        · rw [upd_ne _ _ ef'] at he
          exact h.fedges_mem f' hf' e he
      · exact h.eglo
      · intro p
        rw [List.filter_append, List.length_append]
        by_cases e : p = npair a b
        · subst e
          have h3 := List.length_filter_le (fun s : Side => decide (s.pair = npair a b)) [(f, a, b)]
          simp only [List.length_singleton] at h3
          omega
        · have : List.filter (fun s : Side => decide (s.pair = p)) [(f, a, b)] = [] := by
            rw [List.filter_eq_nil_iff]
            intro t ht
            simp only [List.mem_singleton] at ht
            subst ht
            simp only [decide_eq_true_eq]
            exact fun hc => e hc.symm
          rw [this]
          have := h.count p
          simpa using this
  · have hno : ∀ k < m, epair en (g0.eNext + k) ≠ npair a b := fun k hk hc => hex ⟨k, hk, hc⟩
    have hd0 : done.filter (fun t => t.pair = npair a b) = [] := by
      rw [List.filter_eq_nil_iff]
      intro t ht
      simp only [decide_eq_true_eq]
      intro hc
      obtain ⟨k, hk, hke⟩ := h.all t ht
      exact hno k hk (hke.trans hc)
    right
    refine ⟨by show (done.filter (fun t => t.pair = npair a b)).length < 2; rw [hd0]; simp, ?_⟩
    have hfe' : (withEdges g0 m en ef eg ne fe).findEdge a b = none := by
      unfold Grid.findEdge
      show (ne a).find? (fun e => (en e).any (fun x => decide (g0.nKey x = g0.nKey b))) = _
      rw [h.nedges a ha, List.find?_eq_none]
      intro e he hc
      rw [List.mem_filter, hrange] at he
      obtain ⟨⟨k, hk, rfl⟩, hca⟩ := he
      exact hno k hk ((hfind k hk hca).1 hc)
    obtain ⟨en1, hen1d⟩ : ∃ x, x = upd en (g0.eNext + m) [a, b] := ⟨_, rfl⟩
    have hen1 : ∀ k < m, en1 (g0.eNext + k) = en (g0.eNext + k) := fun k hk => by rw [hen1d]; exact upd_ne _ _ (by omega)
    have hep1 : ∀ k < m, epair en1 (g0.eNext + k) = epair en (g0.eNext + k) := fun k hk => epair_congr (hen1 k hk)
    have hep1' : ∀ e, e < g0.eNext + m → epair en1 e = epair en e := fun e he =>
      epair_congr (by rw [hen1d]; exact upd_ne _ _ (by omega))
    have henm : en1 (g0.eNext + m) = [a, b] := by rw [hen1d]; exact upd_self _ _ _
    have hepm : epair en1 (g0.eNext + m) = npair a b := epair_of henm
    refine ⟨m + 1, en1, upd ef (g0.eNext + m) [f], upd eg (g0.eNext + m) (g0.edges.length + m),
      upd (upd ne a (ne a ++ [g0.eNext + m])) b (ne b ++ [g0.eNext + m]), upd fe f (fe f ++ [g0.eNext + m]), ?_, ?_⟩
    · unfold linkSide Grid.complexLink
      simp only
      rw [hfe']
      simp only [Grid.linkEdgeFace, Grid.linkNodeEdge, Grid.addEdge, Grid.newEdge, withEdges, upd_self,
        List.nil_append, List.length_nil, List.cons_append]
      rw [if_neg (by simp)]
      rw [upd_ne ne _ hab.symm]
      refine congrArg Except.ok ?_
      rw [Grid.mk.injEq]
      refine ⟨rfl, rfl, ?_, rfl, rfl, rfl, rfl, rfl, rfl, rfl, rfl, rfl, rfl, ?_, ?_, ?_, rfl, rfl, rfl, rfl, rfl, rfl,
        rfl, rfl, rfl, rfl, rfl, rfl, rfl, rfl, rfl, rfl⟩
      · rw [range'_snoc, List.append_assoc]
      · funext j; simp only [upd_apply]; split <;> simp
      · rw [hen1d]; funext j; simp only [upd_apply]; split <;> rfl
      · funext j; simp only [upd_apply]; split <;> rfl
    · have hlt : ∀ k, k < m + 1 → k < m ∨ k = m := fun k hk => by omega
      constructor
      · intro k hk
        rcases hlt k hk with hk | rfl
        · obtain ⟨t, ht, hen⟩ := h.enodes k hk
          exact ⟨t, by simp [ht], by rw [hen1 k hk, hen]⟩
        · exact ⟨(f, a, b), by simp, henm⟩
      · intro k hk
        rw [List.filter_append, List.map_append]
        rcases hlt k hk with hk | rfl
        · rw [upd_ne _ _ (by omega), hep1 k hk, h.efaces k hk]
          have : List.filter (fun s : Side => decide (s.pair = epair en (g0.eNext + k))) [(f, a, b)] = [] := by
            rw [List.filter_eq_nil_iff]
            intro t ht
            simp only [List.mem_singleton] at ht
            subst ht
            simp only [decide_eq_true_eq]
            intro hc
            exact hno k hk hc.symm
          rw [this]; simp
        · rw [upd_self, hepm, hd0]
          have : List.filter (fun s : Side => decide (s.pair = npair a b)) [(f, a, b)] = [(f, a, b)] := by
            simp [Side.pair]
          rw [this]; rfl
      · intro t ht
        rcases List.mem_append.1 ht with ht | ht
        · obtain ⟨k, hk, hke⟩ := h.all t ht
          exact ⟨k, by omega, by rw [hep1 k hk, hke]⟩
        · simp only [List.mem_singleton] at ht
          subst ht
          exact ⟨m, by omega, hepm⟩
      · intro k hk l hl hkl
        rcases hlt k hk with hk | rfl <;> rcases hlt l hl with hl | rfl
        · rw [hep1 k hk, hep1 l hl] at hkl
          exact h.uniq k hk l hl hkl
        · rw [hep1 k hk, hepm] at hkl
          exact absurd hkl (hno k hk)
        · rw [hep1 l hl, hepm] at hkl
          exact absurd hkl.symm (hno l hl)
        · rfl
      · intro n hn
        have hf1 : (List.range' g0.eNext m).filter (fun e => (en1 e).contains n) = ne n := by
          rw [h.nedges n hn]
          apply List.filter_congr
          intro e he
          rw [hrange] at he
          obtain ⟨k, hk, rfl⟩ := he
          rw [hen1 k hk]
        rw [range'_snoc, List.filter_append, hf1]
        have hf2 : List.filter (fun e => (en1 e).contains n) [g0.eNext + m] =
            if n = a ∨ n = b then [g0.eNext + m] else [] := by
          rw [List.filter_singleton, henm]
          by_cases e1 : n = a <;> by_cases e2 : n = b <;> simp [e1, e2]
        rw [hf2]
        simp only [upd_apply]
        by_cases e2 : n = b
        · subst e2; simp
        · by_cases e1 : n = a
          · subst e1; simp [e2]
          · simp [e1, e2]
      · intro f' hf'
        have h0 : (g0.fEdges f').map (epair en1) = (g0.fEdges f').map (epair en) :=
          List.map_congr_left fun e he => hep1' e (by have := hfe f' hf' e he; omega)
        have h1 : (fe f').map (epair en1) = (fe f').map (epair en) :=
          List.map_congr_left fun e he => hep1' e (by
            rcases h.fedges_mem f' hf' e he with h2 | h2
            · have := hfe f' hf' e h2; omega
            · omega)
        rw [h0]
        by_cases e : f' = f
        · subst e
          rw [upd_self, List.map_append, h1, h.fedges f' hf', List.filter_append, List.map_append, List.append_assoc]
          congr 2
          simp [hepm, Side.pair]
        · rw [upd_ne _ _ e, h1, h.fedges f' hf', List.filter_append]
          have : List.filter (fun s : Side => decide (s.1 = f')) [(f, a, b)] = [] := by
            simp [Ne.symm e]
          rw [this]; simp
      · intro f' hf' e he
        by_cases ef' : f' = f
        · subst ef'
          rw [upd_self] at he
          rcases List.mem_append.1 he with he | he
          · rcases h.fedges_mem f' hf' e he with h2 | h2
            · exact Or.inl h2
            · right; omega
          · simp only [List.mem_singleton] at he
            right; omega
        · rw [upd_ne _ _ ef'] at he
          rcases h.fedges_mem f' hf' e he with h2 | h2
          · exact Or.inl h2
          · right; omega
      · intro k hk
        rcases hlt k hk with hk | rfl
        · rw [upd_ne _ _ (by omega), h.eglo k hk]
        · rw [upd_self]
      · intro p
        rw [List.filter_append, List.length_append]
        by_cases e : p = npair a b
        · subst e
          rw [hd0]
          have h3 := List.length_filter_le (fun s : Side => decide (s.pair = npair a b)) [(f, a, b)]
          simp only [List.length_singleton] at h3
          simp only [List.length_nil]
          omega
        · have : List.filter (fun s : Side => decide (s.pair = p)) [(f, a, b)] = [] := by
            rw [List.filter_eq_nil_iff]
            intro t ht
            simp only [List.mem_singleton] at ht
            subst ht
            simp only [decide_eq_true_eq]
            exact fun hc => e hc.symm
          rw [this]
          have := h.count p
          simpa using this

theorem SidesOk.sub {key : Nat → R} {s t : List Side} (h : SidesOk key s) (hs : ∀ x ∈ t, x ∈ s) : SidesOk key t :=
  ⟨fun x hx => h.ends x (hs x hx), fun x hx y hy => h.sep x (hs x hx) y (hs y hy)⟩

theorem linkSides_fold {g0 : Grid F R} {ns fs : List Nat} (hfe : ∀ f ∈ fs, ∀ e ∈ g0.fEdges f, e < g0.eNext) :
    ∀ (post done : List Side) (m : Nat) (en ef : Nat → List Nat) (eg : Nat → Nat) (ne fe : Nat → List Nat),
    EdgeInv g0 ns fs done m en ef eg ne fe → SidesOk g0.nKey (done ++ post) →
    (∀ s ∈ post, s.2.1 ∈ ns ∧ s.2.2 ∈ ns) →
    ((∃ p, 3 ≤ ((done ++ post).filter (fun s => s.pair = p)).length) ∧
      post.foldlM linkSide (withEdges g0 m en ef eg ne fe) = .error (.exc "Too many faces linking with this edge")) ∨
    (∃ m' en' ef' eg' ne' fe', post.foldlM linkSide (withEdges g0 m en ef eg ne fe) =
      .ok (withEdges g0 m' en' ef' eg' ne' fe') ∧ EdgeInv g0 ns fs (done ++ post) m' en' ef' eg' ne' fe') := by
  intro post
  induction post with
  | nil =>
    intro done m en ef eg ne fe h _ _
    right
    exact ⟨m, en, ef, eg, ne, fe, rfl, by rw [List.append_nil]; exact h⟩
  | cons s post ih =>
    intro done m en ef eg ne fe h hok hns
    have hs := hns s (by simp)
    have hd : done ++ s :: post = (done ++ [s]) ++ post := by simp
    rcases linkSide_step h s hfe (hok.sub (by intro x hx; rw [hd]; exact List.mem_append_left _ hx)) hs.1 hs.2 with
      ⟨h1, h2⟩ | ⟨_, m', en', ef', eg', ne', fe', h2, h3⟩
    · left
      refine ⟨⟨s.pair, ?_⟩, ?_⟩
      · rw [List.filter_append, List.length_append, List.filter_cons_of_pos (by simp)]
        simp only [List.length_cons]; omega
      · rw [List.foldlM_cons, h2]; rfl
    · rw [List.foldlM_cons, h2, hd]
      exact ih (done ++ [s]) m' en' ef' eg' ne' fe' h3 (by rw [← hd]; exact hok) (fun t ht => hns t (by simp [ht]))

/-- The three sides of a face. -/
def sidesOf (fn : Nat → List Nat) (f : Nat) : List Side :=
  match fn f with
  | [a, b, c] => [(f, a, b), (f, a, c), (f, b, c)]
  | _ => []

theorem linkSide_fNodes {g g' : Grid F R} {s : Side} (h : linkSide g s = .ok g') : g'.fNodes = g.fNodes := by
  unfold linkSide Grid.complexLink at h
  split at h
  · unfold Grid.linkEdgeFace at h
    simp only at h
    split at h
    · cases h
    · cases h; rfl
  · unfold Grid.linkEdgeFace at h
    split at h
    · cases h
    · cases h; rfl

theorem linkFace_eq {g : Grid F R} {f a b c : Nat} (h : g.fNodes f = [a, b, c]) :
    g.linkFace f = (sidesOf g.fNodes f).foldlM linkSide g := by
  unfold Grid.linkFace sidesOf
  rw [h]
  show (g.complexLink f a b >>= fun g => g.complexLink f a c >>= fun g => g.complexLink f b c) = _
  simp only [List.foldlM_cons, List.foldlM_nil, linkSide, bind_pure]

theorem linkFaces_eq (fn : Nat → List Nat) : ∀ (fs : List Nat) (g : Grid F R), g.fNodes = fn →
    (∀ f ∈ fs, (fn f).length = 3) →
    fs.foldlM Grid.linkFace g = (fs.flatMap (sidesOf fn)).foldlM linkSide g := by
  intro fs
  induction fs with
  | nil => intro g _ _; rfl
  | cons f fs ih =>
    intro g hg hl
    obtain ⟨a, b, c, hf⟩ := List.length_eq_three.1 (hl f (by simp))
    rw [List.foldlM_cons, List.flatMap_cons, List.foldlM_append, linkFace_eq (by rw [hg]; exact hf), hg]
    cases hr : (sidesOf fn f).foldlM linkSide g with
    | error e => rfl
    | ok g' =>
      have : g'.fNodes = fn := by
        refine foldlM_partial linkSide (sidesOf fn f) (fun _ (g : Grid F R) => g.fNodes = fn) g g' hr hg ?_
        intro pre a post s s' _ h1 h2
        rw [linkSide_fNodes h2]; exact h1
      exact ih g' this (fun x hx => hl x (by simp [hx]))

/-- Sides joining `a` and `b` belong to the faces having both as corners. -/
theorem sidesOf_filter {fn : Nat → List Nat} {f a b : Nat} (hl : (fn f).length = 3) (hn : (fn f).Nodup) (hab : a ≠ b) :
    ((sidesOf fn f).filter (fun s => s.pair = npair a b)).map (·.1) = [f].filter (fun f => (fn f).contains a && (fn f).contains b) := by
  obtain ⟨x, y, w, hf⟩ := List.length_eq_three.1 hl
  unfold sidesOf
  rw [hf] at hn
  simp only [List.nodup_cons, List.mem_cons, List.not_mem_nil, or_false, not_or, not_false_eq_true, List.nodup_nil,
    and_true] at hn
  obtain ⟨⟨hxy, hxw⟩, hyw⟩ := hn
  simp only [hf, List.filter_cons, Side.pair, npair_eq, List.filter_nil, List.contains_cons, List.contains_nil, Bool.or_false,
    decide_eq_true_eq]
  by_cases a1 : a = x
  · subst a1
    by_cases b1 : b = y
    · subst b1; simp [hxy, hxw, hyw, Ne.symm hxw, Ne.symm hyw, Ne.symm hxy]
    · by_cases b2 : b = w
      · subst b2; simp [hxy, hxw, hyw, Ne.symm hxw, Ne.symm hyw, Ne.symm hxy]
      · simp [hxy, hxw, hyw, Ne.symm hxw, Ne.symm hyw, Ne.symm hxy, b1, b2, Ne.symm b1, Ne.symm b2, hab.symm]
  · by_cases a2 : a = y
    · subst a2
      by_cases b1 : b = x
      · subst b1; simp [hxy, hxw, hyw, Ne.symm hxw, Ne.symm hyw, Ne.symm hxy]
      · by_cases b2 : b = w
        · subst b2; simp [hxy, hxw, hyw, Ne.symm hxw, Ne.symm hyw, Ne.symm hxy]
        · simp [hxy, hxw, hyw, Ne.symm hxw, Ne.symm hyw, Ne.symm hxy, b1, b2, Ne.symm b1, Ne.symm b2, hab.symm]
    · by_cases a3 : a = w
      · subst a3
        by_cases b1 : b = x
        · subst b1; simp [hxy, hxw, hyw, Ne.symm hxw, Ne.symm hyw, Ne.symm hxy]
        · by_cases b2 : b = y
          · subst b2; simp [hxy, hxw, hyw, Ne.symm hxw, Ne.symm hyw, Ne.symm hxy]
          · simp [hxy, hxw, hyw, Ne.symm hxw, Ne.symm hyw, Ne.symm hxy, b1, b2, Ne.symm b1, Ne.symm b2, hab.symm]
      · simp [a1, a2, a3, Ne.symm a1, Ne.symm a2, Ne.symm a3]

theorem sides_filter {fn : Nat → List Nat} {fs : List Nat} {a b : Nat} (h : ∀ f ∈ fs, (fn f).length = 3 ∧ (fn f).Nodup)
    (hab : a ≠ b) :
    ((fs.flatMap (sidesOf fn)).filter (fun s => s.pair = npair a b)).map (·.1) =
      fs.filter (fun f => (fn f).contains a && (fn f).contains b) := by
  induction fs with
  | nil => rfl
  | cons f fs ih =>
    rw [List.flatMap_cons, List.filter_append, List.map_append, ih (fun x hx => h x (by simp [hx])),
      sidesOf_filter (h f (by simp)).1 (h f (by simp)).2 hab]
    rw [← List.filter_append]; rfl

theorem sidesOf_face {fn : Nat → List Nat} {f : Nat} {s : Side} (h : s ∈ sidesOf fn f) : s.1 = f := by
  unfold sidesOf at h
  split at h
  · simp only [List.mem_cons, List.not_mem_nil, or_false] at h
    rcases h with rfl | rfl | rfl <;> rfl
  · simp at h

theorem sides_face {fn : Nat → List Nat} {fs : List Nat} (hn : fs.Nodup) {f : Nat} (hf : f ∈ fs) :
    (fs.flatMap (sidesOf fn)).filter (fun s => s.1 = f) = sidesOf fn f := by
  induction fs with
  | nil => simp at hf
  | cons x fs ih =>
    rw [List.flatMap_cons, List.filter_append]
    rw [List.nodup_cons] at hn
    by_cases e : x = f
    · subst e
      rw [List.filter_eq_self.2 (by intro s hs; simp [sidesOf_face hs]), List.filter_eq_nil_iff.2, List.append_nil]
      intro s hs
      rw [List.mem_flatMap] at hs
      obtain ⟨y, hy, hs⟩ := hs
      rw [sidesOf_face hs]
      simp only [decide_eq_true_eq]
      rintro rfl; exact hn.1 hy
    · rw [List.filter_eq_nil_iff.2, List.nil_append, ih hn.2]
      · rcases List.mem_cons.1 hf with h | h
        · exact absurd h.symm e
        · exact h
      · intro s hs; rw [sidesOf_face hs]; simpa using e

/-- What is known of the grid when edges start to be made. -/
structure PreMesh (g : Grid F R) : Prop where
  nodes_nodup : g.nodes.Nodup
  faces_nodup : g.faces.Nodup
  face_nodes : ∀ f ∈ g.faces, (g.fNodes f).length = 3 ∧ (g.fNodes f).Nodup ∧ ∀ n ∈ g.fNodes f, n ∈ g.nodes
  node_faces_nodup : ∀ n ∈ g.nodes, (g.nFaces n).Nodup
  node_face : ∀ n ∈ g.nodes, ∀ f, f ∈ g.nFaces n ↔ f ∈ g.faces ∧ n ∈ g.fNodes f
  no_edges : g.edges = []
  nEdges : ∀ n ∈ g.nodes, g.nEdges n = []
  fEdges : ∀ f ∈ g.faces, g.fEdges f = []

def sides (g : Grid F R) : List Side := g.faces.flatMap (sidesOf g.fNodes)

theorem mem_sidesOf {fn : Nat → List Nat} {f : Nat} {s : Side} (hl : (fn f).length = 3) (hn : (fn f).Nodup) (h : s ∈ sidesOf fn f) :
    s.2.1 ∈ fn f ∧ s.2.2 ∈ fn f ∧ s.2.1 ≠ s.2.2 := by
  obtain ⟨x, y, w, hf⟩ := List.length_eq_three.1 hl
  unfold sidesOf at h
  rw [hf] at hn
  simp only [List.nodup_cons, List.mem_cons, List.not_mem_nil, or_false, not_or, not_false_eq_true, List.nodup_nil,
    and_true] at hn
  obtain ⟨⟨hxy, hxw⟩, hyw⟩ := hn
  rw [hf] at h ⊢
  simp only [List.mem_cons, List.not_mem_nil, or_false] at h
  rcases h with rfl | rfl | rfl <;> simp [*]

theorem pair_mem_sides {fn : Nat → List Nat} {f a b : Nat} (hl : (fn f).length = 3) (ha : a ∈ fn f) (hb : b ∈ fn f)
    (hab : a ≠ b) : npair a b ∈ (sidesOf fn f).map Side.pair := by
  obtain ⟨x, y, w, hf⟩ := List.length_eq_three.1 hl
  have hs : (sidesOf fn f).map Side.pair = [npair x y, npair x w, npair y w] := by
    unfold sidesOf; rw [hf]; rfl
  rw [hf] at ha hb
  rw [hs]
  simp only [List.mem_cons, List.not_mem_nil, or_false] at ha hb
  simp only [List.mem_cons, List.not_mem_nil, or_false, npair_eq]
  omega

theorem mem_of_pair {fn : Nat → List Nat} {f a b : Nat} (h : npair a b ∈ (sidesOf fn f).map Side.pair) :
    a ∈ fn f ∧ b ∈ fn f := by
  unfold sidesOf at h
  split at h
  · rename_i x y w hf
    simp only [Side.pair, List.map_cons, List.map_nil, List.mem_cons, List.not_mem_nil, or_false, npair_eq] at h
    rw [hf]
    simp only [List.mem_cons, List.not_mem_nil, or_false]
    omega
  · simp at h

theorem linkFaces_spec {g : Grid F R} (h : PreMesh g) (hok : SidesOk g.nKey (sides g)) :
    ((∃ a b, a ≠ b ∧ 3 ≤ (g.faces.filter (fun f => (g.fNodes f).contains a && (g.fNodes f).contains b)).length) ∧
      g.faces.foldlM Grid.linkFace g = .error (.exc "Too many faces linking with this edge")) ∨
    ((∀ a b, a ≠ b → (g.faces.filter (fun f => (g.fNodes f).contains a && (g.fNodes f).contains b)).length ≤ 2) ∧
      ∃ m en ef eg ne fe, g.faces.foldlM Grid.linkFace g = .ok (withEdges g m en ef eg ne fe) ∧
        Mesh (withEdges g m en ef eg ne fe) ∧ (∀ k < m, eg (g.eNext + k) = k)) := by
  have hsf : ∀ s ∈ sides g, ∃ f ∈ g.faces, s ∈ sidesOf g.fNodes f := fun s hs => by
    unfold sides at hs; rw [List.mem_flatMap] at hs; exact hs
  have hsm : ∀ s ∈ sides g, s.1 ∈ g.faces ∧ s.2.1 ∈ g.fNodes s.1 ∧ s.2.2 ∈ g.fNodes s.1 ∧ s.2.1 ≠ s.2.2 := by
    intro s hs
    obtain ⟨f, hf, hsf⟩ := hsf s hs
    have := mem_sidesOf (h.face_nodes f hf).1 (h.face_nodes f hf).2.1 hsf
    rw [sidesOf_face hsf]
    exact ⟨hf, this⟩
  have hcnt : ∀ a b, a ≠ b → ((sides g).filter (fun s => s.pair = npair a b)).map (·.1) =
      g.faces.filter (fun f => (g.fNodes f).contains a && (g.fNodes f).contains b) := fun a b hab =>
    sides_filter (fun f hf => ⟨(h.face_nodes f hf).1, (h.face_nodes f hf).2.1⟩) hab
  have hcl : ∀ a b, a ≠ b → ((sides g).filter (fun s => s.pair = npair a b)).length =
      (g.faces.filter (fun f => (g.fNodes f).contains a && (g.fNodes f).contains b)).length := fun a b hab => by
    rw [← hcnt a b hab, List.length_map]
  rw [linkFaces_eq g.fNodes g.faces g rfl (fun f hf => (h.face_nodes f hf).1)]
  have h0 : EdgeInv g g.nodes g.faces [] 0 g.eNodes g.eFaces g.eGlo g.nEdges g.fEdges := by
    constructor
    · intro k hk; omega
    · intro k hk; omega
    · intro s hs; simp at hs
    · intro k hk; omega
    · intro n hn; rw [h.nEdges n hn]; rfl
    · intro f hf; rw [h.fEdges f hf]; rfl
    · intro f hf e he; exact Or.inl he
    · intro k hk; omega
    · intro p; simp
  have hw : withEdges g 0 g.eNodes g.eFaces g.eGlo g.nEdges g.fEdges = g := by
    unfold withEdges; simp
  have hfold := linkSides_fold (g0 := g) (ns := g.nodes) (fs := g.faces) (fun f hf e he => by rw [h.fEdges f hf] at he; simp at he)
    (sides g) [] 0 g.eNodes g.eFaces g.eGlo g.nEdges g.fEdges h0 (by rw [List.nil_append]; exact hok) (by
      intro s hs
      obtain ⟨h1, h2, h3, _⟩ := hsm s hs
      exact ⟨(h.face_nodes _ h1).2.2 _ h2, (h.face_nodes _ h1).2.2 _ h3⟩)
  rw [hw] at hfold
  rw [List.nil_append] at hfold
  rcases hfold with ⟨⟨p, hp⟩, hr⟩ | ⟨m, en, ef, eg, ne, fe, hr, J⟩
  · left
    refine ⟨?_, hr⟩
    obtain ⟨s, hs⟩ := List.exists_mem_of_length_pos (l := (sides g).filter (fun s => s.pair = p)) (by omega)
    rw [List.mem_filter] at hs
    have hs2 := of_decide_eq_true hs.2
    obtain ⟨_, _, _, hne⟩ := hsm s hs.1
    refine ⟨s.2.1, s.2.2, hne, ?_⟩
    rw [← hcl _ _ hne]
    rw [← hs2] at hp
    exact hp
  · right
    have hcap : ∀ a b, a ≠ b → (g.faces.filter (fun f => (g.fNodes f).contains a && (g.fNodes f).contains b)).length ≤ 2 :=
      fun a b hab => by rw [← hcl a b hab]; exact J.count _
    refine ⟨hcap, m, en, ef, eg, ne, fe, hr, ?_, ?_⟩
    · have hE : (withEdges g m en ef eg ne fe).edges = List.range' g.eNext m := by
        unfold withEdges; simp [h.no_edges]
      have hrange : ∀ e, e ∈ List.range' g.eNext m ↔ ∃ k < m, e = g.eNext + k := by
        intro e
        rw [List.mem_range'_1]
        constructor
        · rintro ⟨h1, h2⟩; exact ⟨e - g.eNext, by omega, by omega⟩
        · rintro ⟨k, hk, rfl⟩; omega
      have hen : ∀ e ∈ List.range' g.eNext m, ∃ f ∈ g.faces, ∃ a b, en e = [a, b] ∧ a ≠ b ∧ a ∈ g.fNodes f ∧ b ∈ g.fNodes f ∧
          ef e = g.faces.filter (fun f => (g.fNodes f).contains a && (g.fNodes f).contains b) := by
        intro e he
        rw [hrange] at he
        obtain ⟨k, hk, rfl⟩ := he
        obtain ⟨s, hs, hen⟩ := J.enodes k hk
        obtain ⟨h1, h2, h3, h4⟩ := hsm s hs
        refine ⟨s.1, h1, s.2.1, s.2.2, hen, h4, h2, h3, ?_⟩
        rw [J.efaces k hk, epair_of hen, hcnt _ _ h4]
      have huniq : ∀ e ∈ List.range' g.eNext m, ∀ e' ∈ List.range' g.eNext m, epair en e = epair en e' → e = e' := by
        intro e he e' he' hee
        rw [hrange] at he he'
        obtain ⟨k, hk, rfl⟩ := he
        obtain ⟨k', hk', rfl⟩ := he'
        rw [J.uniq k hk k' hk' hee]
      have hfe : ∀ f ∈ g.faces, (fe f).map (epair en) = (sidesOf g.fNodes f).map Side.pair := by
        intro f hf
        rw [J.fedges f hf, h.fEdges f hf]
        unfold sides
        rw [sides_face h.faces_nodup hf]
        rfl
      have hfem : ∀ f ∈ g.faces, ∀ e ∈ fe f, e ∈ List.range' g.eNext m := by
        intro f hf e he
        rcases J.fedges_mem f hf e he with h1 | h1
        · rw [h.fEdges f hf] at h1; simp at h1
        · rw [List.mem_range'_1]; exact h1
      -- e is an edge of f iff its ends are corners of f
      have hfe_iff : ∀ f ∈ g.faces, ∀ e ∈ List.range' g.eNext m, ∀ a b, en e = [a, b] → a ≠ b →
          (e ∈ fe f ↔ a ∈ g.fNodes f ∧ b ∈ g.fNodes f) := by
        intro f hf e he a b hab hne
        constructor
        · intro hef
          have : epair en e ∈ (fe f).map (epair en) := List.mem_map_of_mem hef
          rw [hfe f hf, epair_of hab] at this
          exact mem_of_pair this
        · rintro ⟨ha, hb⟩
          have : npair a b ∈ (fe f).map (epair en) := by
            rw [hfe f hf]
            exact pair_mem_sides (h.face_nodes f hf).1 ha hb hne
          obtain ⟨e', he', hee⟩ := List.mem_map.1 this
          rw [← epair_of hab] at hee
          rw [← huniq e' (hfem f hf e' he') e he hee]
          exact he'
      constructor
      · exact h.nodes_nodup
      · rw [hE]; exact List.nodup_range'
      · exact h.faces_nodup
      · exact h.face_nodes
      · intro f hf
        obtain ⟨x, y, w, hxyw⟩ := List.length_eq_three.1 (h.face_nodes f hf).1
        have hs : (sidesOf g.fNodes f).map Side.pair = [npair x y, npair x w, npair y w] := by
          unfold sidesOf; rw [hxyw]; rfl
        have hm := (hfe f hf).trans hs
        have hnd := (h.face_nodes f hf).2.1
        rw [hxyw] at hnd
        simp only [List.nodup_cons, List.mem_cons, List.not_mem_nil, or_false, not_or, not_false_eq_true, List.nodup_nil,
          and_true] at hnd
        obtain ⟨⟨hxy, hxw⟩, hyw⟩ := hnd
        refine ⟨?_, ?_, ?_⟩
        · have := congrArg List.length hm
          rw [List.length_map] at this
          exact this
        · have : ((fe f).map (epair en)).Nodup := by
            rw [hm]
            simp only [List.nodup_cons, List.mem_cons, List.not_mem_nil, or_false, not_or, not_false_eq_true, List.nodup_nil,
              and_true, npair_eq]
            refine ⟨⟨?_, ?_⟩, ?_⟩ <;> omega
          exact List.Nodup.of_map _ this
        · intro e he; rw [hE]; exact hfem f hf e he
      · intro e he
        rw [hE] at he
        obtain ⟨f, hf, a, b, h1, h2, h3, h4, _⟩ := hen e he
        show (en e).length = 2 ∧ (en e).Nodup ∧ ∀ n ∈ en e, n ∈ g.nodes
        rw [h1]
        refine ⟨rfl, by simp [h2], ?_⟩
        intro n hn
        simp only [List.mem_cons, List.not_mem_nil, or_false] at hn
        rcases hn with rfl | rfl
        · exact (h.face_nodes f hf).2.2 _ h3
        · exact (h.face_nodes f hf).2.2 _ h4
      · intro e he
        rw [hE] at he
        obtain ⟨f, hf, a, b, h1, h2, h3, h4, h5⟩ := hen e he
        show ((ef e).length = 1 ∨ (ef e).length = 2) ∧ (ef e).Nodup
        rw [h5]
        refine ⟨?_, h.faces_nodup.filter _⟩
        have hle := hcap a b h2
        have hpos : 0 < (g.faces.filter (fun f => (g.fNodes f).contains a && (g.fNodes f).contains b)).length :=
          List.length_pos_of_mem (a := f) (by rw [List.mem_filter]; exact ⟨hf, by simp [h3, h4]⟩)
        omega
      · exact h.node_faces_nodup
      · intro n hn
        show (ne n).Nodup
        rw [J.nedges n hn]
        exact List.Nodup.filter _ List.nodup_range'
      · exact h.node_face
      · intro n hn e
        show e ∈ ne n ↔ _
        rw [J.nedges n hn, hE, List.mem_filter]
        simp [withEdges]
      · intro e he f
        rw [hE] at he
        obtain ⟨f', hf', a, b, h1, h2, h3, h4, h5⟩ := hen e he
        show f ∈ ef e ↔ f ∈ g.faces ∧ e ∈ fe f
        rw [h5, List.mem_filter]
        constructor
        · rintro ⟨hf, hc⟩
          exact ⟨hf, (hfe_iff f hf e he a b h1 h2).2 (by simpa using hc)⟩
        · rintro ⟨hf, hc⟩
          exact ⟨hf, by simpa using (hfe_iff f hf e he a b h1 h2).1 hc⟩
      · intro f hf a ha b hb hab
        have hmem : npair a b ∈ (fe f).map (epair en) := by
          rw [hfe f hf]
          exact pair_mem_sides (h.face_nodes f hf).1 ha hb hab
        obtain ⟨e, he, hee⟩ := List.mem_map.1 hmem
        refine ⟨e, he, ?_⟩
        obtain ⟨_, _, x, y, h1, h2, _, _, _⟩ := hen e (hfem f hf e he)
        rw [epair_of h1, npair_eq] at hee
        show a ∈ en e ∧ b ∈ en e
        rw [h1]
        rcases hee with ⟨rfl, rfl⟩ | ⟨rfl, rfl⟩ <;> simp
      · intro f hf e he n hn
        obtain ⟨_, _, x, y, h1, h2, _, _, _⟩ := hen e (hfem f hf e he)
        have := (hfe_iff f hf e (hfem f hf e he) x y h1 h2).1 he
        have hn : n ∈ en e := hn
        rw [h1] at hn
        simp only [List.mem_cons, List.not_mem_nil, or_false] at hn
        rcases hn with rfl | rfl
        · exact this.1
        · exact this.2
      · intro e he e' he' hee
        rw [hE] at he he'
        obtain ⟨_, _, x, y, h1, h2, _⟩ := hen e he
        obtain ⟨_, _, x', y', h1', h2', _⟩ := hen e' he'
        apply huniq e he e' he'
        rw [epair_of h1, epair_of h1', npair_eq]
        have hee : ∀ n, n ∈ en e ↔ n ∈ en e' := hee
        rw [h1, h1'] at hee
        have q1 := (hee x).1 (by simp)
        have q2 := (hee y).1 (by simp)
        simp only [List.mem_cons, List.not_mem_nil, or_false] at q1 q2
        omega
    · intro k hk
      have := J.eglo k hk
      rw [h.no_edges] at this
      simpa using this

end Verif
