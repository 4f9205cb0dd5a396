import Verif.Spec.Refine
import Verif.Proofs.Refine4
import Verif.Proofs.Reload
import Mathlib.Data.List.Sort

/-! Merging of the intersections in `refine_grid`. -/

namespace Verif
open Refine
variable {F : Type}

/-! ### Pairs -/

/-- Entries come in pairs with the same points. -/
def Paired (l : List (Tri F × List (Vec F))) : Prop :=
  ∃ m : List (Tri F × Tri F × List (Vec F)), l = m.flatMap (fun x => [(x.1, x.2.2), (x.2.1, x.2.2)])

theorem Paired.nil : Paired ([] : List (Tri F × List (Vec F))) := ⟨[], rfl⟩

theorem Paired.append {a b : List (Tri F × List (Vec F))} (ha : Paired a) (hb : Paired b) : Paired (a ++ b) := by
  obtain ⟨m, rfl⟩ := ha
  obtain ⟨n, rfl⟩ := hb
  exact ⟨m ++ n, by simp⟩

theorem pairs_paired (hit : Tri F → Tri F → List (Vec F)) (ss ts : List (Tri F)) : Paired (Cloud.pairs hit ss ts) := by
  refine ⟨ss.flatMap (fun s => ts.flatMap (fun t => if hit s t ≠ [] then [(s, t, hit s t)] else [])), ?_⟩
  unfold Cloud.pairs
  rw [List.flatMap_assoc]
  congr 1; funext s
  rw [List.flatMap_assoc]
  congr 1; funext t
  split <;> rfl

section
variable [Field F] [LinearOrder F]

mutual
theorem interLeaf_paired (hit : Tri F → Tri F → List (Vec F)) (b : Box F) (ss : List (Tri F)) : ∀ c : Cloud F, Paired (Cloud.interLeaf hit b ss c)
  | .mk box tris subs => by
    unfold Cloud.interLeaf
    split
    · exact .nil
    · split
      · exact interLeafSub_paired hit b ss subs
      · exact pairs_paired hit ss tris
theorem interLeafSub_paired (hit : Tri F → Tri F → List (Vec F)) (b : Box F) (ss : List (Tri F)) : ∀ cs : List (Cloud F), Paired (Cloud.interLeafSub hit b ss cs)
  | [] => by unfold Cloud.interLeafSub; exact .nil
  | c :: cs => by
    unfold Cloud.interLeafSub
    exact (interLeaf_paired hit b ss c).append (interLeafSub_paired hit b ss cs)
end

mutual
theorem inter_paired (hit : Tri F → Tri F → List (Vec F)) (d : Cloud F) : ∀ c : Cloud F, Paired (Cloud.inter hit c d)
  | .mk box tris subs => by
    unfold Cloud.inter
    split
    · exact .nil
    · split
      · exact interSub_paired hit d subs
      · exact interLeaf_paired hit box tris d
theorem interSub_paired (hit : Tri F → Tri F → List (Vec F)) (d : Cloud F) : ∀ cs : List (Cloud F), Paired (Cloud.interSub hit cs d)
  | [] => by unfold Cloud.interSub; exact .nil
  | c :: cs => by
    unfold Cloud.interSub
    exact (inter_paired hit d c).append (interSub_paired hit d cs)
end
end

section
variable [Field F] [LinearOrder F]

theorem pairs_mem {hit : Tri F → Tri F → List (Vec F)} {ss ts : List (Tri F)} {x : Tri F × List (Vec F)} :
    x ∈ Cloud.pairs hit ss ts ↔ ∃ s ∈ ss, ∃ t ∈ ts, hit s t ≠ [] ∧ (x = (s, hit s t) ∨ x = (t, hit s t)) := by
  unfold Cloud.pairs
  simp only [List.mem_flatMap]
  constructor
  · rintro ⟨s, hs, t, ht, h⟩
    split at h
    · rename_i hh
      exact ⟨s, hs, t, ht, hh, by simpa using h⟩
    · cases h
  · rintro ⟨s, hs, t, ht, hh, h⟩
    refine ⟨s, hs, t, ht, ?_⟩
    rw [if_pos hh]
    simpa using h

theorem pairs_mono {hit hit' : Tri F → Tri F → List (Vec F)} (h : ∀ s t, hit' s t ≠ [] → hit s t = hit' s t) {ss ts : List (Tri F)} {x : Tri F × List (Vec F)}
    (hx : x ∈ Cloud.pairs hit' ss ts) : x ∈ Cloud.pairs hit ss ts := by
  rw [pairs_mem] at *
  obtain ⟨s, hs, t, ht, hh, e⟩ := hx
  exact ⟨s, hs, t, ht, by rw [h s t hh]; exact hh, by rw [h s t hh]; exact e⟩

mutual
theorem interLeaf_mono {hit hit' : Tri F → Tri F → List (Vec F)} (h : ∀ s t, hit' s t ≠ [] → hit s t = hit' s t) (b : Box F) (ss : List (Tri F)) {x : Tri F × List (Vec F)} :
    ∀ c : Cloud F, x ∈ Cloud.interLeaf hit' b ss c → x ∈ Cloud.interLeaf hit b ss c
  | .mk box tris subs => by
    unfold Cloud.interLeaf
    split
    · exact fun h => h
    · split
      · exact interLeafSub_mono h b ss subs
      · exact pairs_mono h
theorem interLeafSub_mono {hit hit' : Tri F → Tri F → List (Vec F)} (h : ∀ s t, hit' s t ≠ [] → hit s t = hit' s t) (b : Box F) (ss : List (Tri F)) {x : Tri F × List (Vec F)} :
    ∀ cs : List (Cloud F), x ∈ Cloud.interLeafSub hit' b ss cs → x ∈ Cloud.interLeafSub hit b ss cs
  | [] => by unfold Cloud.interLeafSub; exact fun h => h
  | c :: cs => by
    unfold Cloud.interLeafSub
    rw [List.mem_append, List.mem_append]
    exact Or.imp (interLeaf_mono h b ss c) (interLeafSub_mono h b ss cs)
end

mutual
theorem inter_mono {hit hit' : Tri F → Tri F → List (Vec F)} (h : ∀ s t, hit' s t ≠ [] → hit s t = hit' s t) (d : Cloud F) {x : Tri F × List (Vec F)} :
    ∀ c : Cloud F, x ∈ Cloud.inter hit' c d → x ∈ Cloud.inter hit c d
  | .mk box tris subs => by
    unfold Cloud.inter
    split
    · exact fun h => h
    · split
      · exact interSub_mono h d subs
      · exact interLeaf_mono h box tris d
theorem interSub_mono {hit hit' : Tri F → Tri F → List (Vec F)} (h : ∀ s t, hit' s t ≠ [] → hit s t = hit' s t) (d : Cloud F) {x : Tri F × List (Vec F)} :
    ∀ cs : List (Cloud F), x ∈ Cloud.interSub hit' cs d → x ∈ Cloud.interSub hit cs d
  | [] => by unfold Cloud.interSub; exact fun h => h
  | c :: cs => by
    unfold Cloud.interSub
    rw [List.mem_append, List.mem_append]
    exact Or.imp (inter_mono h d c) (interSub_mono h d cs)
end
end

section
variable [Field F] [LinearOrder F]

theorem pairs_ne_nil (hit : Tri F → Tri F → List (Vec F)) (ss ts : List (Tri F)) : ∀ x ∈ Cloud.pairs hit ss ts, x.2 ≠ [] := by
  intro x hx
  obtain ⟨s, -, t, -, h, rfl | rfl⟩ := pairs_mem.1 hx <;> exact h

mutual
theorem interLeaf_ne_nil (hit : Tri F → Tri F → List (Vec F)) (b : Box F) (ss : List (Tri F)) : ∀ c : Cloud F, ∀ x ∈ Cloud.interLeaf hit b ss c, x.2 ≠ []
  | .mk box tris subs => by
    unfold Cloud.interLeaf
    split
    · simp
    · split
      · exact interLeafSub_ne_nil hit b ss subs
      · exact pairs_ne_nil hit ss tris
theorem interLeafSub_ne_nil (hit : Tri F → Tri F → List (Vec F)) (b : Box F) (ss : List (Tri F)) : ∀ cs : List (Cloud F), ∀ x ∈ Cloud.interLeafSub hit b ss cs, x.2 ≠ []
  | [] => by unfold Cloud.interLeafSub; simp
  | c :: cs => by
    unfold Cloud.interLeafSub
    intro x hx
    rcases List.mem_append.1 hx with hx | hx
    · exact interLeaf_ne_nil hit b ss c x hx
    · exact interLeafSub_ne_nil hit b ss cs x hx
end

mutual
theorem inter_ne_nil (hit : Tri F → Tri F → List (Vec F)) (d : Cloud F) : ∀ c : Cloud F, ∀ x ∈ Cloud.inter hit c d, x.2 ≠ []
  | .mk box tris subs => by
    unfold Cloud.inter
    split
    · simp
    · split
      · exact interSub_ne_nil hit d subs
      · exact interLeaf_ne_nil hit box tris d
theorem interSub_ne_nil (hit : Tri F → Tri F → List (Vec F)) (d : Cloud F) : ∀ cs : List (Cloud F), ∀ x ∈ Cloud.interSub hit cs d, x.2 ≠ []
  | [] => by unfold Cloud.interSub; simp
  | c :: cs => by
    unfold Cloud.interSub
    intro x hx
    rcases List.mem_append.1 hx with hx | hx
    · exact inter_ne_nil hit d c x hx
    · exact interSub_ne_nil hit d cs x hx
end
end

/-- The list object of an entry. -/
theorem Paired.heap {l : List (Tri F × List (Vec F))} (h : Paired l) {i : Nat} {x : Tri F × List (Vec F)} (hi : l[i]? = some x) : Refine.heap l (i / 2) = x.2 := by
  obtain ⟨m, rfl⟩ := h
  induction m generalizing i with
  | nil => simp at hi
  | cons y m ih =>
    rw [List.flatMap_cons] at hi ⊢
    match i, hi with
    | 0, hi => obtain rfl : (y.1, y.2.2) = x := by simpa using hi
               rfl
    | 1, hi => obtain rfl : (y.2.1, y.2.2) = x := by simpa using hi
               rfl
    | i + 2, hi =>
      have h1 : (m.flatMap (fun x => [(x.1, x.2.2), (x.2.1, x.2.2)]))[i]? = some x := by simpa using hi
      have h2 := ih h1
      unfold Refine.heap at h2 ⊢
      rw [show 2 * ((i + 2) / 2) = 2 * (i / 2) + 2 by omega]
      simpa using h2

/-! ### The loops -/

theorem mergeLoop_spec (addr : Nat → Nat) (hinj : Function.Injective addr) (xs : List (Hit F)) : ∀ (done : List (Hit F)) (cur prev : Hit F) (h : Nat → List (Vec F)),
    prev.tri.id = cur.tri.id → (done ++ [cur]).Pairwise (fun s t => addr s.tri.id < addr t.tri.id) → (∀ x ∈ xs, addr cur.tri.id ≤ addr x.tri.id) →
    xs.Pairwise (fun s t => addr s.tri.id ≤ addr t.tri.id) → ∀ res h', mergeLoop done cur prev h xs = (res, h') →
    res.Pairwise (fun s t => addr s.tri.id < addr t.tri.id) ∧ (∀ y, y ∈ done ∨ y = cur → y ∈ res) ∧ (∀ y ∈ res, y ∈ done ∨ y = cur ∨ y ∈ xs) ∧
      (∀ i, ∀ p ∈ h i, p ∈ h' i) ∧ (∀ y ∈ xs, ∃ r ∈ res, r.tri.id = y.tri.id ∧ ∀ p ∈ h y.pts, p ∈ h' r.pts) ∧
      ∀ i, ∀ p ∈ h' i, ∃ k, p ∈ h k ∧ (k = i ∨ ∃ y ∈ xs, y.pts = k) := by
  induction xs with
  | nil =>
    intro done cur prev h hp hs _ _ res h' e
    unfold mergeLoop at e
    obtain ⟨rfl, rfl⟩ := Prod.mk.inj e
    refine ⟨hs, fun y hy => by simpa using hy, fun y hy => by simpa using hy, fun _ _ hp => hp, by simp, fun i p hp => ⟨i, hp, Or.inl rfl⟩⟩
  | cons x xs ih =>
    intro done cur prev h hp hs hle hso res h' e
    unfold mergeLoop at e
    rw [List.pairwise_cons] at hso
    by_cases hx : x.tri.id ≠ prev.tri.id
    · rw [if_pos hx] at e
      have hlt : addr cur.tri.id < addr x.tri.id := lt_of_le_of_ne (hle x (by simp)) (fun c => hx ((hinj c).symm.trans hp.symm))
      have hs' : ((done ++ [cur]) ++ [x]).Pairwise (fun s t => addr s.tri.id < addr t.tri.id) := by
        rw [List.pairwise_append]
        refine ⟨hs, by simp, fun a ha b hb => ?_⟩
        rw [List.mem_singleton] at hb
        subst hb
        rcases List.mem_append.1 ha with ha | ha
        · exact lt_trans ((List.pairwise_append.1 hs).2.2 a ha cur (by simp)) hlt
        · rw [List.mem_singleton] at ha; rw [ha]; exact hlt
      obtain ⟨a1, a2, a3, a4, a5, a6⟩ := ih (done ++ [cur]) x x h rfl hs' (fun y hy => hso.1 y hy) hso.2 res h' e
      refine ⟨a1, fun y hy => a2 y (Or.inl (by simpa using hy)), fun y hy => ?_, a4, fun y hy => ?_, fun i p hp => ?_⟩
      · rcases a3 y hy with hy | rfl | hy
        · rcases List.mem_append.1 hy with hy | hy
          · exact Or.inl hy
          · exact Or.inr (Or.inl (List.mem_singleton.1 hy))
        · exact Or.inr (Or.inr (by simp))
        · exact Or.inr (Or.inr (List.mem_cons_of_mem _ hy))
      · rcases List.mem_cons.1 hy with rfl | hy
        · exact ⟨y, a2 y (Or.inr rfl), rfl, fun p hp => a4 _ p hp⟩
        · exact a5 y hy
      · obtain ⟨k, hk, hk'⟩ := a6 i p hp
        exact ⟨k, hk, hk'.imp_right fun ⟨y, hy, e⟩ => ⟨y, List.mem_cons_of_mem _ hy, e⟩⟩
    · rw [if_neg hx] at e
      have hx' : x.tri.id = cur.tri.id := (not_not.1 hx).trans hp
      obtain ⟨a1, a2, a3, a4, a5, a6⟩ := ih done cur x (upd h cur.pts (h cur.pts ++ h x.pts)) hx' hs (fun y hy => hle y (List.mem_cons_of_mem _ hy)) hso.2 res h' e
      have hup : ∀ i, ∀ p ∈ h i, p ∈ upd h cur.pts (h cur.pts ++ h x.pts) i := by
        intro i p hp
        by_cases hi : i = cur.pts
        · subst hi; rw [upd_self]; exact List.mem_append_left _ hp
        · rw [upd_ne _ _ hi]; exact hp
      refine ⟨a1, a2, fun y hy => (a3 y hy).imp_right (Or.imp_right (List.mem_cons_of_mem _)), fun i p hp => a4 i p (hup i p hp), fun y hy => ?_, fun i p hp => ?_⟩
      · rcases List.mem_cons.1 hy with rfl | hy
        · refine ⟨cur, a2 cur (Or.inr rfl), hx'.symm, fun p hp => a4 _ p ?_⟩
          rw [upd_self]; exact List.mem_append_right _ hp
        · obtain ⟨r, hr, e1, e2⟩ := a5 y hy
          exact ⟨r, hr, e1, fun p hp => e2 p (hup _ p hp)⟩
      · obtain ⟨k, hk, hk'⟩ := a6 i p hp
        by_cases hki : k = cur.pts
        · subst hki
          rw [upd_self] at hk
          rcases List.mem_append.1 hk with hk | hk
          · exact ⟨cur.pts, hk, hk'.imp_right fun ⟨y, hy, e⟩ => ⟨y, List.mem_cons_of_mem _ hy, e⟩⟩
          · exact ⟨x.pts, hk, Or.inr ⟨x, by simp, rfl⟩⟩
        · rw [upd_ne _ _ hki] at hk
          exact ⟨k, hk, hk'.imp_right fun ⟨y, hy, e⟩ => ⟨y, List.mem_cons_of_mem _ hy, e⟩⟩

section
variable [Field F] [LinearOrder F]

theorem close_iff {p q : Vec F} : close p q = true ↔ Near p q := by
  unfold close Near NearNum Py.isClose
  simp only [Bool.and_eq_true, decide_eq_true_eq, and_assoc]

theorem thin_spec (l : List (Vec F)) (hl : l ≠ []) : ∃ r, thin l = .ok r ∧ r ≠ [] ∧ (∀ p ∈ r, p ∈ l) ∧ ∀ p ∈ l, ∃ q ∈ r, Chain p q := by
  obtain ⟨x, xs, rfl⟩ := List.exists_cons_of_ne_nil hl
  refine ⟨_, rfl, by simp, ?_, ?_⟩
  · intro p hp
    rcases List.mem_cons.1 hp with rfl | hp
    · simp
    · obtain ⟨⟨u, v⟩, huv, e⟩ := List.mem_filterMap.1 hp
      have hv := (List.of_mem_zip huv).2
      simp only at e
      split at e
      · cases e
      · obtain rfl := Option.some.inj e
        exact List.mem_cons_of_mem _ hv
  · have key : ∀ (xs : List (Vec F)) (x : Vec F) (r : List (Vec F)), (∃ q ∈ r, Chain x q) →
        (∀ p ∈ ((x :: xs).zip xs).filterMap (fun (l, r) => if close r l then none else some r), p ∈ r) → ∀ p ∈ xs, ∃ q ∈ r, Chain p q := by
      intro xs
      induction xs with
      | nil => intro x r _ _ p hp; cases hp
      | cons y ys ih =>
        intro x r hx hr p hp
        have hy : ∃ q ∈ r, Chain y q := by
          by_cases hc : close y x = true
          · obtain ⟨q, hq, hq'⟩ := hx
            exact ⟨q, hq, Relation.ReflTransGen.head (close_iff.1 hc) hq'⟩
          · refine ⟨y, hr y ?_, Relation.ReflTransGen.refl⟩
            rw [List.zip_cons_cons, List.filterMap_cons]
            simp only [hc]
            simp
        rcases List.mem_cons.1 hp with rfl | hp
        · exact hy
        · refine ih y r hy (fun q hq => hr q ?_) p hp
          rw [List.zip_cons_cons, List.filterMap_cons]
          simp only
          split
          · exact hq
          · exact List.mem_cons_of_mem _ hq
    intro p hp
    rcases List.mem_cons.1 hp with rfl | hp
    · exact ⟨p, by simp, Relation.ReflTransGen.refl⟩
    · exact key xs x _ ⟨x, by simp, Relation.ReflTransGen.refl⟩ (fun q hq => List.mem_cons_of_mem _ hq) p hp

theorem thinLoop_spec {sort : List (Vec F) → List (Vec F)} (hsort : ∀ l, (sort l).Perm l) (rs : List (Hit F)) : ∀ h : Nat → List (Vec F),
    (∀ r ∈ rs, h r.pts ≠ []) → ∃ out, thinLoop sort h rs = .ok out ∧
      List.Forall₂ (fun r o => o.1 = r.tri ∧ o.2 ≠ [] ∧ (∀ p ∈ o.2, p ∈ h r.pts) ∧ ∀ p ∈ h r.pts, ∃ q ∈ o.2, Chain p q) rs out := by
  induction rs with
  | nil => intro h _; exact ⟨[], rfl, .nil⟩
  | cons r rs ih =>
    intro h hne
    have hp := hsort (h r.pts)
    obtain ⟨l, e1, e2, e3, e4⟩ := thin_spec (sort (h r.pts)) (fun e => hne r (by simp) (List.perm_nil.1 (e ▸ hp.symm)))
    have hm : ∀ i p, p ∈ upd h r.pts (sort (h r.pts)) i ↔ p ∈ h i := by
      intro i p
      by_cases hi : i = r.pts
      · subst hi; rw [upd_self]; exact hp.mem_iff
      · rw [upd_ne _ _ hi]
    obtain ⟨out, o1, o2⟩ := ih (upd h r.pts (sort (h r.pts))) (fun x hx e => by
      obtain ⟨p, hp⟩ := List.exists_mem_of_ne_nil _ (hne x (List.mem_cons_of_mem _ hx))
      have := (hm _ p).2 hp
      rw [e] at this; cases this)
    refine ⟨(r.tri, l) :: out, ?_, .cons ⟨rfl, e2, fun p h => hp.mem_iff.1 (e3 p h), fun p h => e4 p (hp.mem_iff.2 h)⟩ ?_⟩
    · unfold thinLoop
      rw [e1, res_bind_ok, o1, res_bind_ok]
    · refine o2.imp fun a b h => ⟨h.1, h.2.1, fun p hp => (hm _ p).1 (h.2.2.1 p hp), fun p hp => h.2.2.2 p ((hm _ p).2 hp)⟩

theorem forall₂_rev {α β : Type} {P : α → β → Prop} {l : List α} {m : List β} (h : List.Forall₂ P l m) {y : β} (hy : y ∈ m) : ∃ x ∈ l, P x y := by
  induction h with
  | nil => cases hy
  | cons h _ ih =>
    rcases List.mem_cons.1 hy with rfl | hy
    · exact ⟨_, by simp, h⟩
    · obtain ⟨x, hx, e⟩ := ih hy; exact ⟨x, List.mem_cons_of_mem _ hx, e⟩

theorem hits_mem {l : List (Tri F × List (Vec F))} (h : Paired l) {x : Hit F} : x ∈ hits l → ∃ y ∈ l, x.tri = y.1 ∧ heap l x.pts = y.2 := by
  intro hx
  obtain ⟨i, hi⟩ := List.getElem?_of_mem hx
  unfold hits at hi
  rw [List.getElem?_mapIdx] at hi
  cases hl : l[i]? with
  | none => rw [hl] at hi; cases hi
  | some y =>
    rw [hl] at hi
    obtain rfl := Option.some.inj hi
    exact ⟨y, List.mem_of_getElem? hl, rfl, h.heap hl⟩

theorem mem_hits {l : List (Tri F × List (Vec F))} (h : Paired l) {y : Tri F × List (Vec F)} (hy : y ∈ l) : ∃ x ∈ hits l, x.tri = y.1 ∧ heap l x.pts = y.2 := by
  obtain ⟨i, hi⟩ := List.getElem?_of_mem hy
  refine ⟨⟨y.1, i / 2⟩, ?_, rfl, h.heap hi⟩
  refine List.mem_of_getElem? (i := i) ?_
  unfold hits
  rw [List.getElem?_mapIdx, hi]; rfl

theorem sortHits_perm (addr : Nat → Nat) (l : List (Hit F)) : (sortHits addr l).Perm l := List.perm_insertionSort _ _

theorem sortHits_sorted (addr : Nat → Nat) (l : List (Hit F)) : (sortHits addr l).Pairwise (fun s t => addr s.tri.id ≤ addr t.tri.id) := by
  haveI : Std.Total (fun s t : Hit F => addr s.tri.id ≤ addr t.tri.id) := ⟨fun s t => le_total _ _⟩
  haveI : IsTrans (Hit F) (fun s t : Hit F => addr s.tri.id ≤ addr t.tri.id) := ⟨fun _ _ _ h h' => le_trans h h'⟩
  exact List.pairwise_insertionSort _ _

theorem collect_spec {sort : List (Vec F) → List (Vec F)} (hsort : ∀ l, (sort l).Perm l) {addr : Nat → Nat} (hinj : Function.Injective addr)
    {l : List (Tri F × List (Vec F))} (hp : Paired l) (hne : ∀ x ∈ l, x.2 ≠ []) (hl : l ≠ []) : ∃ out, collect sort addr l = .ok out ∧
      out.Pairwise (fun s t => addr s.1.id < addr t.1.id) ∧ (∀ x ∈ out, (∃ y ∈ l, x.1 = y.1) ∧ x.2 ≠ [] ∧ ∀ p ∈ x.2, ∃ y ∈ l, p ∈ y.2) ∧
      ∀ y ∈ l, ∃ x ∈ out, x.1.id = y.1.id ∧ ∀ p ∈ y.2, ∃ q ∈ x.2, Chain p q := by
  have hm := sortHits_perm addr (hits l)
  have hso := sortHits_sorted addr (hits l)
  obtain ⟨s, hs⟩ : ∃ s, s = sortHits addr (hits l) := ⟨_, rfl⟩
  rw [← hs] at hm hso
  have hsn : s ≠ [] := by
    rintro rfl
    obtain ⟨y, hy⟩ := List.exists_mem_of_ne_nil l hl
    obtain ⟨x, hx, -⟩ := mem_hits hp hy
    have := hm.mem_iff.2 hx
    cases this
  unfold collect
  rw [← hs]
  cases s with
  | nil => exact absurd rfl hsn
  | cons x xs =>
    simp only [mergeHits, res_bind_ok]
    rw [List.pairwise_cons] at hso
    obtain ⟨res, h', e⟩ : ∃ res h', mergeLoop [] x x (heap l) xs = (res, h') := ⟨_, _, rfl⟩
    obtain ⟨a1, a2, a3, a4, a5, a6⟩ := mergeLoop_spec addr hinj xs [] x x (heap l) rfl (by simp) hso.1 hso.2 res h' e
    rw [e]
    have hin : ∀ r ∈ res, r ∈ hits l := by
      intro r hr
      rcases a3 r hr with h | rfl | h
      · cases h
      · exact hm.mem_iff.1 (by simp)
      · exact hm.mem_iff.1 (List.mem_cons_of_mem _ h)
    obtain ⟨out, o1, o2⟩ := thinLoop_spec hsort res h' (fun r hr => by
      obtain ⟨y, hy, -, e2⟩ := hits_mem hp (hin r hr)
      obtain ⟨p, hpp⟩ := List.exists_mem_of_ne_nil _ (hne y hy)
      have := a4 r.pts p (by rw [e2]; exact hpp)
      exact List.ne_nil_of_mem this)
    refine ⟨out, o1, ?_, fun o ho => ?_, fun y hy => ?_⟩
    · clear o1 e hin a2 a3 a4 a5 a6
      induction o2 with
      | nil => exact .nil
      | cons h hr ih =>
        rw [List.pairwise_cons] at a1
        refine .cons (fun b hb => ?_) (ih a1.2)
        obtain ⟨c, hc, hcb⟩ := forall₂_rev hr hb
        rw [h.1, hcb.1]; exact a1.1 c hc
    · obtain ⟨r, hr, b1, b2, b3, -⟩ := forall₂_rev o2 ho
      obtain ⟨y, hy, e1, e2⟩ := hits_mem hp (hin r hr)
      refine ⟨⟨y, hy, b1.trans e1⟩, b2, fun p hpp => ?_⟩
      obtain ⟨k, hk, hk'⟩ := a6 r.pts p (b3 p hpp)
      rcases hk' with rfl | ⟨w, hw, rfl⟩
      · exact ⟨y, hy, e2 ▸ hk⟩
      · obtain ⟨v, hv, -, e3⟩ := hits_mem hp (hm.mem_iff.1 (List.mem_cons_of_mem x hw))
        exact ⟨v, hv, e3 ▸ hk⟩
    · obtain ⟨w, hw, e1, e2⟩ := mem_hits hp hy
      have : ∃ r ∈ res, r.tri.id = w.tri.id ∧ ∀ p ∈ heap l w.pts, p ∈ h' r.pts := by
        rcases List.mem_cons.1 (hm.mem_iff.2 hw) with rfl | hw
        · exact ⟨w, a2 w (Or.inr rfl), rfl, fun p hp => a4 _ p hp⟩
        · exact a5 w hw
      obtain ⟨r, hr, c1, c2⟩ := this
      obtain ⟨o, ho, d1, -, -, d4⟩ := forall₂_left o2 hr
      refine ⟨o, ho, by rw [d1, c1, e1], fun p hpp => d4 p (c2 p (by rw [e2]; exact hpp))⟩

theorem collect_nil (sort : List (Vec F) → List (Vec F)) (addr : Nat → Nat) : collect sort addr ([] : List (Tri F × List (Vec F))) = .error .index := rfl
end

end Verif
