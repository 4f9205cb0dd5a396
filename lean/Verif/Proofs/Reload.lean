import Verif.Proofs.Store

/-! The grid loaded from a stored file, and the text it stores. -/

namespace Verif
variable {F R : Type}
open Grid

theorem forall₂_mem {α β : Type _} {r q : α → β → Prop} {l : List α} {m : List β} (h : List.Forall₂ r l m)
    (H : ∀ a ∈ l, ∀ b ∈ m, r a b → q a b) : List.Forall₂ q l m := by
  induction h with
  | nil => exact .nil
  | cons h1 _ ih =>
    exact .cons (H _ (by simp) _ (by simp) h1) (ih fun a ha b hb => H a (by simp [ha]) b (by simp [hb]))

theorem forall₂_left {α β : Type _} {r : α → β → Prop} {l : List α} {m : List β} (h : List.Forall₂ r l m) {a : α} (ha : a ∈ l) :
    ∃ b ∈ m, r a b := by
  induction h with
  | nil => simp at ha
  | cons h1 _ ih =>
    rcases List.mem_cons.1 ha with rfl | ha
    · exact ⟨_, by simp, h1⟩
    · obtain ⟨b, hb, h⟩ := ih ha; exact ⟨b, by simp [hb], h⟩

theorem forall₂_right {α β : Type _} {r : α → β → Prop} {l : List α} {m : List β} (h : List.Forall₂ r l m) {b : β} (hb : b ∈ m) :
    ∃ a ∈ l, r a b := by
  induction h with
  | nil => simp at hb
  | cons h1 _ ih =>
    rcases List.mem_cons.1 hb with rfl | hb
    · exact ⟨_, by simp, h1⟩
    · obtain ⟨a, ha, h⟩ := ih hb; exact ⟨a, by simp [ha], h⟩

theorem forall₂_eq_map {α β γ : Type _} {f : α → γ} {k : β → γ} {l : List α} {m : List β} (h : List.Forall₂ (fun a b => k b = f a) l m) :
    m.map k = l.map f := by
  induction h with
  | nil => rfl
  | cons h1 _ ih => rw [List.map_cons, List.map_cons, h1, ih]

/-! ### First occurrences -/

/-- Each value once, in order of first occurrence. -/
def firsts [DecidableEq R] (l : List R) : List R := l.foldl (fun acc x => if x ∈ acc then acc else acc ++ [x]) []

section
variable [DecidableEq R]

theorem firsts_snoc (l : List R) (x : R) : firsts (l ++ [x]) = if x ∈ firsts l then firsts l else firsts l ++ [x] := by
  unfold firsts
  rw [List.foldl_append]
  rfl

theorem firsts_go (acc l : List R) (h : acc.Nodup) :
    l.foldl (fun acc x => if x ∈ acc then acc else acc ++ [x]) acc = acc ++ (firsts l).filter (fun x => decide (x ∉ acc)) ∧
    (firsts l).Nodup ∧ ∀ x, x ∈ firsts l ↔ x ∈ l := by
  induction l using List.reverseRecOn with
  | nil => simp [firsts]
  | append_singleton l x ih =>
    obtain ⟨h1, h2, h3⟩ := ih
    have e := firsts_snoc l x
    have hx : x ∈ acc ++ (firsts l).filter (fun x => decide (x ∉ acc)) ↔ x ∈ acc ∨ x ∈ firsts l := by
      simp only [List.mem_append, List.mem_filter, decide_eq_true_eq]
      by_cases hxa : x ∈ acc <;> simp [hxa]
    refine ⟨?_, ?_, ?_⟩
    · rw [List.foldl_append, h1, List.foldl_cons, List.foldl_nil, e]
      by_cases hf : x ∈ firsts l
      · rw [if_pos hf, if_pos (hx.2 (.inr hf))]
      · rw [if_neg hf]
        by_cases ha : x ∈ acc
        · rw [if_pos (hx.2 (.inl ha))]; simp [List.filter_append, ha]
        · rw [if_neg (fun hh => (hx.1 hh).elim ha hf)]; simp [List.filter_append, ha]
    · rw [e]
      split
      · exact h2
      · rename_i hf
        rw [List.nodup_append]
        refine ⟨h2, by simp, ?_⟩
        intro a ha b hb
        simp only [List.mem_singleton] at hb
        rintro rfl
        exact hf (hb ▸ ha)
    · intro y
      rw [e]
      split
      · rename_i hf
        rw [h3, List.mem_append, List.mem_singleton]
        constructor
        · exact .inl
        · rintro (h | rfl)
          · exact h
          · exact (h3 y).1 hf
      · rw [List.mem_append, List.mem_append, h3]

theorem firsts_nodup (l : List R) : (firsts l).Nodup := (firsts_go [] l (by simp)).2.1

theorem mem_firsts (l : List R) (x : R) : x ∈ firsts l ↔ x ∈ l := (firsts_go [] l (by simp)).2.2 x

theorem firsts_append (a b : List R) : firsts (a ++ b) = firsts a ++ (firsts b).filter (fun x => decide (x ∉ firsts a)) := by
  have := (firsts_go (firsts a) b (firsts_nodup a)).1
  rw [← this]
  simp [firsts, List.foldl_append]

theorem firsts_of_nodup {l : List R} (h : l.Nodup) : firsts l = l := by
  induction l using List.reverseRecOn with
  | nil => rfl
  | append_singleton l x ih =>
    rw [List.nodup_append] at h
    rw [firsts_append, ih h.1]
    have hx : x ∉ l := fun hm => h.2.2 x hm x (by simp) rfl
    simp [firsts, hx]

/-- Listing in each chunk the values in the order of their first occurrence does not change that order. -/
theorem firsts_stable {α : Type} (zs : List α) (L : α → List R) :
    firsts (zs.flatMap (fun z => (firsts (zs.flatMap L)).filter (fun x => decide (x ∈ L z)))) = firsts (zs.flatMap L) := by
  have key : ∀ pre post, zs = pre ++ post →
      firsts (pre.flatMap (fun z => (firsts (zs.flatMap L)).filter (fun x => decide (x ∈ L z)))) = firsts (pre.flatMap L) := by
    intro pre
    induction pre using List.reverseRecOn with
    | nil => intro _ _; rfl
    | append_singleton pre z ih =>
      intro post e
      rw [List.flatMap_append, List.flatMap_append, List.flatMap_singleton, List.flatMap_singleton, firsts_append, firsts_append,
        ih ([z] ++ post) (by rw [e]; simp), firsts_of_nodup ((firsts_nodup _).filter _)]
      congr 1
      have hk : firsts (zs.flatMap L) = firsts (pre.flatMap L) ++ (firsts (L z)).filter (fun x => decide (x ∉ firsts (pre.flatMap L))) ++
          (firsts (post.flatMap L)).filter (fun x => decide (x ∉ firsts (pre.flatMap L ++ L z))) := by
        rw [e, List.flatMap_append, List.flatMap_append, List.flatMap_singleton, firsts_append, firsts_append]
      rw [hk, List.filter_filter, List.filter_append, List.filter_append]
      have f1 : (firsts (pre.flatMap L)).filter (fun x => decide (x ∉ firsts (pre.flatMap L)) && decide (x ∈ L z)) = [] := by
        rw [List.filter_eq_nil_iff]
        intro x hx
        simp [hx]
      have f2 : ((firsts (L z)).filter (fun x => decide (x ∉ firsts (pre.flatMap L)))).filter
          (fun x => decide (x ∉ firsts (pre.flatMap L)) && decide (x ∈ L z)) =
          (firsts (L z)).filter (fun x => decide (x ∉ firsts (pre.flatMap L))) := by
        rw [List.filter_eq_self]
        intro x hx
        obtain ⟨h1, h2⟩ := List.mem_filter.1 hx
        rw [h2, decide_eq_true ((mem_firsts _ _).1 h1)]
        rfl
      have f3 : ((firsts (post.flatMap L)).filter (fun x => decide (x ∉ firsts (pre.flatMap L ++ L z)))).filter
          (fun x => decide (x ∉ firsts (pre.flatMap L)) && decide (x ∈ L z)) = [] := by
        rw [List.filter_eq_nil_iff]
        intro x hx
        obtain ⟨-, h2⟩ := List.mem_filter.1 hx
        rw [decide_eq_true_eq, mem_firsts, List.mem_append, not_or] at h2
        simp [h2.2]
      rw [f1, f2, f3]
      simp
  exact key zs [] (by simp)

theorem registered_sub (rc : Vec F → R) (merge : Bool) (ps : List (Vec F)) : ∀ p ∈ registered rc merge ps, p ∈ ps := by
  unfold registered
  induction ps using List.reverseRecOn with
  | nil => simp
  | append_singleton ps p ih =>
    intro q hq
    rw [List.foldl_append, List.foldl_cons, List.foldl_nil, register] at hq
    split at hq
    · exact List.mem_append_left _ (ih q hq)
    · rcases List.mem_append.1 hq with h | h
      · exact List.mem_append_left _ (ih q h)
      · exact List.mem_append_right _ h

theorem registered_keys (rc : Vec F → R) (ps : List (Vec F)) : (registered rc true ps).map rc = firsts (ps.map rc) := by
  unfold registered
  induction ps using List.reverseRecOn with
  | nil => rfl
  | append_singleton ps p ih =>
    have e := firsts_snoc (ps.map rc) (rc p)
    rw [List.foldl_append, List.foldl_cons, List.foldl_nil, List.map_append, List.map_singleton, e, ← ih, register]
    by_cases h : rc p ∈ (ps.foldl (register rc true) []).map rc
    · rw [if_pos ⟨rfl, h⟩, if_pos h]
    · rw [if_neg (fun hh => h hh.2), if_neg h]; simp

theorem idxOf_map_inj {α : Type} [DecidableEq α] {k : α → R} {l : List α} (h : ∀ a ∈ l, ∀ b ∈ l, k a = k b → a = b) {a : α} (ha : a ∈ l) :
    (l.map k).idxOf (k a) = l.idxOf a := by
  induction l with
  | nil => simp at ha
  | cons b l ih =>
    rw [List.map_cons]
    by_cases e : b = a
    · subst e; simp
    · have : k b ≠ k a := fun hk => e (h b (by simp) a ha hk)
      rw [List.idxOf_cons_ne _ this, List.idxOf_cons_ne _ e, ih (fun x hx y hy => h x (by simp [hx]) y (by simp [hy]))]
      rcases List.mem_cons.1 ha with h | h
      · exact absurd h.symm e
      · exact h

/-! ### The loaded grid -/

variable {g g1 g' : Grid F R} {rc : Vec F → R} {merge : Bool} {dflt : F}

/-- A node of the loaded grid at a place of a stored node has its exact coordinates. -/
theorem exact_position (hl : ZoneLists g) (hk : KeysApart rc true g) (hL : Loaded rc true (g.zones.map (zoneBlock g dflt)) g1 g')
    {n' m : Nat} (hn' : n' ∈ g'.nodes) (hm : m ∈ g.nodes) (h : g'.nKey n' = rc (g.nP m)) : g'.nP n' = g.nP m := by
  have h1 : g'.nP n' ∈ registered rc true ((g.zones.map (zoneBlock g dflt)).flatMap (·.pts)) := by
    rw [← hL.registered]; exact List.mem_map_of_mem hn'
  have h2 := registered_sub _ _ _ _ h1
  obtain ⟨b, hb, h3⟩ := List.mem_flatMap.1 h2
  obtain ⟨z, hz, rfl⟩ := List.mem_map.1 hb
  obtain ⟨m', hm', e⟩ := List.mem_map.1 (show g'.nP n' ∈ (g.zNodes z).map g.nP from h3)
  have hk' : ∀ n ∈ g.nodes, ∀ m ∈ g.nodes, rc (g.nP n) = rc (g.nP m) → n = m := by simpa [KeysApart] using hk
  have : m' = m := hk' m' ((hl.mem_nodes hz m').1 hm').1 m hm (by rw [e, ← hL.keys n' hn', h])
  rw [← e, this]

/-- Zone by zone and face by face the loaded grid has the same names, data and corners. -/
theorem reload_same (hw : Wf g) (hl : ZoneLists g) (hk : KeysApart rc merge g)
    (hL : Loaded rc merge (g.zones.map (zoneBlock g dflt)) g1 g') :
    List.Forall₂ (fun z z' => g'.zName z' = g.zName z ∧ List.Forall₂ (fun f f' =>
      g'.fData f' = g.vars.map (fun v => (v, g.getData dflt f v)) ∧
      List.Forall₂ (fun n n' => n' ∈ g'.nodes ∧ g'.nP n' = g.nP n) (g.fNodes f) (g'.fNodes f')) (g.zFaces z) (g'.zFaces z'))
      g.zones g'.zones := by
  have h := hL.rep
  rw [List.forall₂_map_left_iff] at h
  refine forall₂_mem h ?_
  intro z hz z' _ hr
  refine ⟨hr.name, ?_⟩
  have hf := hr.faces
  unfold zoneBlock at hf
  simp only at hf
  rw [List.forall₂_map_left_iff] at hf
  refine forall₂_mem hf ?_
  rintro f hf f' _ ⟨h1, h2⟩
  refine ⟨h1, ?_⟩
  simp only at h2
  rw [List.forall₂_map_left_iff] at h2
  refine forall₂_mem h2 ?_
  rintro n hn n' _ ⟨q1, p, q2, q3, q4⟩
  refine ⟨q1, ?_⟩
  have hnz := face_nodes_sub hw hl hz hf n hn
  have := point?_zoneBlock (g := g) dflt hnz
  unfold zoneBlock at this
  rw [this] at q2
  obtain rfl := Option.some.inj q2
  cases merge with
  | false => exact q4 rfl
  | true => exact exact_position hl hk hL q1 ((hl.mem_nodes hz n).1 hnz).1 q3

/-- The order of nodes is the order of first occurrence in the zones. -/
def Stable (rc : Vec F → R) (g : Grid F R) : Prop :=
  firsts (g.zones.flatMap (fun z => (g.zNodes z).map (fun n => rc (g.nP n)))) = g.nodes.map (fun n => rc (g.nP n))

theorem reload_keys (hL : Loaded rc true (g.zones.map (zoneBlock g dflt)) g1 g') :
    g'.nodes.map (fun n => rc (g'.nP n)) = firsts (g.zones.flatMap (fun z => (g.zNodes z).map (fun n => rc (g.nP n)))) := by
  have h := congrArg (List.map rc) hL.registered
  rw [registered_keys, List.map_map, List.flatMap_map, List.map_flatMap] at h
  simp only [zoneBlock, List.map_map] at h
  exact h

theorem reload_zone_keys (hw : Wf g) (hl : ZoneLists g) (hk : KeysApart rc true g)
    (hL : Loaded rc true (g.zones.map (zoneBlock g dflt)) g1 g') :
    List.Forall₂ (fun z z' => (g'.zNodes z').map (fun n => rc (g'.nP n)) =
      (g'.nodes.map (fun n => rc (g'.nP n))).filter (fun x => decide (x ∈ (g.zNodes z).map (fun n => rc (g.nP n))))) g.zones g'.zones := by
  refine forall₂_mem (reload_same hw hl hk hL) ?_
  rintro z hz z' hz' ⟨-, hr⟩
  rw [hL.lists.nodes z' hz', List.filter_map]
  congr 1
  apply List.filter_congr
  intro n' hn'
  rw [Bool.eq_iff_iff]
  simp only [List.any_eq_true, List.contains_iff_mem, Function.comp, decide_eq_true_eq, List.mem_map]
  constructor
  · rintro ⟨f', hf', hnf⟩
    obtain ⟨f, hf, -, h2⟩ := forall₂_right hr hf'
    obtain ⟨n, hn, -, e⟩ := forall₂_right h2 hnf
    exact ⟨n, face_nodes_sub hw hl hz hf n hn, by rw [e]⟩
  · rintro ⟨n, hn, e⟩
    obtain ⟨-, f, hf, hnf⟩ := (hl.mem_nodes hz n).1 hn
    obtain ⟨f', hf', -, h2⟩ := forall₂_left hr hf
    obtain ⟨n'', hn'', h3, h4⟩ := forall₂_left h2 hnf
    have : n'' = n' := hL.merged rfl n'' h3 n' hn' (by rw [hL.keys n'' h3, hL.keys n' hn', h4, e])
    exact ⟨f', hf', this ▸ hn''⟩

/-- A grid loaded from a stored file is stable. -/
theorem reload_stable (hw : Wf g) (hl : ZoneLists g) (hk : KeysApart rc true g)
    (hL : Loaded rc true (g.zones.map (zoneBlock g dflt)) g1 g') : Stable rc g' := by
  unfold Stable
  have h1 := reload_zone_keys hw hl hk hL
  have h2 : g'.zones.flatMap (fun z => (g'.zNodes z).map (fun n => rc (g'.nP n))) =
      g.zones.flatMap (fun z => (g'.nodes.map (fun n => rc (g'.nP n))).filter
        (fun x => decide (x ∈ (g.zNodes z).map (fun n => rc (g.nP n))))) := by
    rw [List.flatMap_def, List.flatMap_def]
    exact congrArg List.flatten (forall₂_eq_map h1)
  rw [h2, reload_keys hL]
  exact firsts_stable g.zones _

theorem reload_wf (hL : Loaded rc merge (g.zones.map (zoneBlock g dflt)) g1 g') : Wf g' := ⟨hL.mesh, hL.zones, hL.alloc⟩

theorem reload_keysApart (hL : Loaded rc true (g.zones.map (zoneBlock g dflt)) g1 g') : KeysApart rc true g' := by
  simp only [KeysApart, if_true]
  intro n hn m hm e
  exact hL.merged rfl n hn m hm (by rw [hL.keys n hn, hL.keys m hm, e])

/-- What makes the two texts equal. -/
def SameZone (g g' : Grid F R) (z z' : Nat) : Prop :=
  (g'.zNodes z').map g'.nP = (g.zNodes z).map g.nP ∧
    List.Forall₂ (fun f f' => List.Forall₂ (fun n n' => (g'.zNodes z').idxOf n' = (g.zNodes z).idxOf n) (g.fNodes f) (g'.fNodes f'))
      (g.zFaces z) (g'.zFaces z')

/-- With merging, for a stable grid. -/
theorem sameZone_merged (hw : Wf g) (hl : ZoneLists g) (hk : KeysApart rc true g) (hs : Stable rc g)
    (hL : Loaded rc true (g.zones.map (zoneBlock g dflt)) g1 g') : List.Forall₂ (SameZone g g') g.zones g'.zones := by
  have h1 := reload_zone_keys hw hl hk hL
  have h2 := reload_same hw hl hk hL
  have hk' : ∀ n ∈ g.nodes, ∀ m ∈ g.nodes, rc (g.nP n) = rc (g.nP m) → n = m := by simpa [KeysApart] using hk
  have h12 : List.Forall₂ (fun z z' => _ ∧ _) g.zones g'.zones := forall₂_zip_map id id
    (by rw [List.map_id]; exact h1) (by rw [List.map_id]; exact h2)
  refine forall₂_mem h12 ?_
  rintro z hz z' hz' ⟨e1, -, e2⟩
  simp only [id] at e1 e2
  have ek : (g'.zNodes z').map (fun n => rc (g'.nP n)) = (g.zNodes z).map (fun n => rc (g.nP n)) := by
    rw [e1, reload_keys hL, hs, List.filter_map]
    conv_rhs => rw [hl.nodes z hz]
    congr 1
    apply List.filter_congr
    intro n hn
    rw [Bool.eq_iff_iff]
    simp only [List.any_eq_true, List.contains_iff_mem, Function.comp, decide_eq_true_eq, List.mem_map]
    constructor
    · rintro ⟨m, hm, e⟩
      obtain ⟨hm1, f, hf, hmf⟩ := (hl.mem_nodes hz m).1 hm
      exact ⟨f, hf, (hk' m hm1 n hn e) ▸ hmf⟩
    · rintro ⟨f, hf, hnf⟩
      exact ⟨n, (hl.mem_nodes hz n).2 ⟨hn, f, hf, hnf⟩, rfl⟩
  have hsub' : ∀ n' ∈ g'.zNodes z', n' ∈ g'.nodes := fun n' h => ((hL.lists.mem_nodes hz' n').1 h).1
  have hf2 : List.Forall₂ (fun n' n => rc (g'.nP n') = rc (g.nP n)) (g'.zNodes z') (g.zNodes z) := by
    have : List.Forall₂ Eq ((g'.zNodes z').map (fun n => rc (g'.nP n))) ((g.zNodes z).map (fun n => rc (g.nP n))) := by
      rw [ek, List.forall₂_eq_eq_eq]
    rw [List.forall₂_map_left_iff, List.forall₂_map_right_iff] at this
    exact this
  refine ⟨?_, ?_⟩
  · symm
    refine forall₂_eq_map (f := g'.nP) (k := g.nP) (forall₂_mem hf2 ?_)
    intro n' hn' n hn e
    exact (exact_position hl hk hL (hsub' n' hn') ((hl.mem_nodes hz n).1 hn).1 (by rw [hL.keys n' (hsub' n' hn'), e])).symm
  · refine forall₂_mem e2 ?_
    rintro f hf f' hf' ⟨-, h⟩
    refine forall₂_mem h ?_
    rintro n hn n' hn' ⟨-, e⟩
    have hnz := face_nodes_sub hw hl hz hf n hn
    have hnz' := face_nodes_sub (reload_wf hL) hL.lists hz' hf' n' hn'
    rw [← idxOf_map_inj (k := fun n => rc (g'.nP n)) (fun a ha b hb e => (reload_keysApart hL).zone hL.lists hz' a ha b hb e) hnz',
      ← idxOf_map_inj (k := fun n => rc (g.nP n)) (fun a ha b hb e => hk.zone hl hz a ha b hb e) hnz, ek, e]

/-- Without merging, for any grid. -/
theorem sameZone_unmerged (hw : Wf g) (hl : ZoneLists g)
    (hL : Loaded rc false (g.zones.map (zoneBlock g dflt)) g1 g') : List.Forall₂ (SameZone g g') g.zones g'.zones := by
  obtain ⟨zn, hz1, hz2⟩ := hL.chunks
  have hz1 := hz1 rfl
  rw [List.forall₂_map_left_iff] at hz2
  have hnd : (g'.zones.flatMap zn).Nodup := hz1 ▸ hL.mesh.nodes_nodup
  refine forall₂_mem hz2 ?_
  rintro z hz z' hz' ⟨hp, hf⟩
  unfold zoneBlock at hp hf
  simp only at hp hf
  rw [List.forall₂_map_left_iff] at hp hf
  have hnz : (zn z').Nodup := (List.nodup_flatMap.1 hnd).1 z' hz'
  have hget : ∀ n n', n ∈ g.zNodes z → Py.get (zn z') (((g.zNodes z).idxOf n : Int) + 1 - 1) = .ok n' →
      n' ∈ zn z' ∧ (zn z').idxOf n' = (g.zNodes z).idxOf n := by
    intro n n' hn h
    have hlt : (g.zNodes z).idxOf n < (zn z').length := by rw [← hp.length_eq]; exact List.idxOf_lt_length_iff.2 hn
    rw [show ((g.zNodes z).idxOf n : Int) + 1 - 1 = ((g.zNodes z).idxOf n : Int) from by omega, get_nat hlt] at h
    obtain rfl := Except.ok.inj h
    exact ⟨List.getElem_mem _, hnz.idxOf_getElem _ hlt⟩
  have hcor : ∀ f' ∈ g'.zFaces z', ∀ n' ∈ g'.fNodes f', n' ∈ zn z' := by
    intro f' hf' n' hn'
    obtain ⟨f, hfm, h⟩ := forall₂_right hf hf'
    simp only at h
    rw [List.forall₂_map_left_iff] at h
    obtain ⟨n, hn, h⟩ := forall₂_right h hn'
    exact (hget n n' (face_nodes_sub hw hl hz hfm n hn) h).1
  have hall : ∀ n' ∈ zn z', ∃ f' ∈ g'.zFaces z', n' ∈ g'.fNodes f' := by
    intro n' hn'
    have hlt : (zn z').idxOf n' < (g.zNodes z).length := by rw [hp.length_eq]; exact List.idxOf_lt_length_iff.2 hn'
    have hndz : (g.zNodes z).Nodup := by rw [hl.nodes z hz]; exact hw.mesh.nodes_nodup.filter _
    have hn := List.getElem_mem hlt
    obtain ⟨-, f, hfm, hnf⟩ := (hl.mem_nodes hz _).1 hn
    obtain ⟨f', hf', h⟩ := forall₂_left hf hfm
    simp only at h
    rw [List.forall₂_map_left_iff] at h
    obtain ⟨n'', hn'', h⟩ := forall₂_left h hnf
    obtain ⟨h1, h2⟩ := hget _ n'' hn h
    rw [hndz.idxOf_getElem _ hlt] at h2
    have : n'' = n' := (List.idxOf_inj h1).1 h2
    exact ⟨f', hf', this ▸ hn''⟩
  have hzn : g'.zNodes z' = zn z' := by
    rw [hL.lists.nodes z' hz', hz1]
    have : ∀ zs : List Nat, (zs.flatMap zn).Nodup → zs.Nodup → (∀ w ∈ zs, w ∈ g'.zones) →
        (zs.flatMap zn).filter (fun n => (g'.zFaces z').any (fun f => (g'.fNodes f).contains n)) = if z' ∈ zs then zn z' else [] := by
      intro zs
      induction zs with
      | nil => intro _ _ _; rfl
      | cons w zs ih =>
        intro h1 h2 h3
        rw [List.nodup_cons] at h2
        rw [List.flatMap_cons] at h1 ⊢
        rw [List.filter_append, ih (List.nodup_append.1 h1).2.1 h2.2 (fun x hx => h3 x (by simp [hx]))]
        by_cases hw' : z' = w
        · subst hw'
          rw [if_neg h2.1, if_pos (by simp), List.append_nil, List.filter_eq_self]
          intro n hn
          obtain ⟨f', hf', h⟩ := hall n hn
          simp only [List.any_eq_true, List.contains_iff_mem]
          exact ⟨f', hf', h⟩
        · have : (zn w).filter (fun n => (g'.zFaces z').any (fun f => (g'.fNodes f).contains n)) = [] := by
            rw [List.filter_eq_nil_iff]
            intro n hn
            simp only [List.any_eq_true, List.contains_iff_mem, not_exists, not_and]
            intro f' hf' hnf
            have hd := (List.nodup_flatMap.1 hnd).2
            haveI : Std.Symm (Function.onFun List.Disjoint zn) := ⟨fun a b h => List.Disjoint.symm h⟩
            have hd' : ∀ a ∈ g'.zones, ∀ b ∈ g'.zones, a ≠ b → List.Disjoint (zn a) (zn b) := fun a ha b hb hab =>
              List.Pairwise.forall (R := Function.onFun List.Disjoint zn) hd ha hb hab
            exact hd' w (h3 w (by simp)) z' hz' (fun e => hw' e.symm) hn (hcor f' hf' n hnf)
          rw [this, List.nil_append]
          have e : (z' ∈ w :: zs) ↔ z' ∈ zs := by simp [hw']
          simp only [e]
    rw [this g'.zones hnd hL.zones.zones_nodup (fun w hw => hw), if_pos hz']
  refine ⟨?_, ?_⟩
  · rw [hzn]
    exact forall₂_eq_map (forall₂_mem hp (fun n _ n' _ h => h.2.2 rfl))
  · refine forall₂_mem hf ?_
    intro f hfm f' hf' h
    simp only at h
    rw [List.forall₂_map_left_iff] at h
    refine forall₂_mem h ?_
    intro n hn n' hn' h
    rw [hzn]
    exact (hget n n' (face_nodes_sub hw hl hz hfm n hn) h).2

theorem forall₂_and {α β : Type _} {r q : α → β → Prop} {l : List α} {m : List β} (h1 : List.Forall₂ r l m) (h2 : List.Forall₂ q l m) :
    List.Forall₂ (fun a b => r a b ∧ q a b) l m := by
  induction h1 with
  | nil => exact .nil
  | cons a _ ih => cases h2 with | cons b c => exact .cons ⟨a, b⟩ (ih c)

theorem reload_vars (hw : Wf g) (hl : ZoneLists g) (h0 : g.faces ≠ [])
    (hk : KeysApart rc merge g) (hL : Loaded rc merge (g.zones.map (zoneBlock g dflt)) g1 g') :
    g'.faces ≠ [] ∧ g'.vars = g.vars ∧ ∀ f' ∈ g'.faces, (g'.fData f').map Prod.fst = g.vars := by
  have h2 := reload_same hw hl hk hL
  have hdata : ∀ f' ∈ g'.faces, (g'.fData f').map Prod.fst = g.vars := by
    intro f' hf'
    rw [hL.order] at hf'
    obtain ⟨z', hz', hf'⟩ := List.mem_flatMap.1 hf'
    obtain ⟨z, hz, -, h⟩ := forall₂_right h2 hz'
    obtain ⟨f, hf, h, -⟩ := forall₂_right h hf'
    rw [h, List.map_map]
    exact List.map_id _
  have h0' : g'.faces ≠ [] := by
    obtain ⟨f, hf⟩ := List.exists_mem_of_ne_nil _ h0
    obtain ⟨z, hz, hf⟩ := List.mem_flatMap.1 (hw.zones.partition.mem_iff.2 hf)
    obtain ⟨z', hz', -, h⟩ := forall₂_left h2 hz
    obtain ⟨f', hf', -⟩ := forall₂_left h hf
    have : f' ∈ g'.faces := by rw [hL.order]; exact List.mem_flatMap.2 ⟨z', hz', hf'⟩
    exact List.ne_nil_of_mem this
  have hvars : g'.vars = g.vars := by
    cases hf : g'.faces with
    | nil => exact absurd hf h0'
    | cons f t =>
      have : g'.vars = (g'.fData f).map Prod.fst := by simp [Grid.vars, hf]
      rw [this, hdata f (by rw [hf]; simp)]
  exact ⟨h0', hvars, hdata⟩

/-- Equal texts. -/
theorem same_text {c : Codec F} (hw : Wf g) (hl : ZoneLists g) (hg : GloPerm g) (h0 : g.faces ≠ []) (hv : g.vars.Nodup)
    (hk : KeysApart rc merge g) (hL : Loaded rc merge (g.zones.map (zoneBlock g dflt)) g1 g') (hn : g1.name = g.name)
    (hs : List.Forall₂ (SameZone g g') g.zones g'.zones) : g'.storeText c dflt = g.storeText c dflt := by
  have h2 := reload_same hw hl hk hL
  obtain ⟨h0', hvars, -⟩ := reload_vars hw hl h0 hk hL
  have hz : g'.zones.map (zoneText g' dflt) = g.zones.map (zoneText g dflt) := by
    refine forall₂_eq_map (forall₂_mem (forall₂_and h2 hs) ?_)
    rintro z hz z' hz' ⟨⟨n1, n2⟩, n3, n4⟩
    unfold zoneText
    rw [n1, n3, hvars]
    congr 1
    · apply List.map_congr_left
      intro v hvm
      unfold dataSlice
      refine forall₂_eq_map (forall₂_mem n2 ?_)
      rintro f _ f' _ ⟨e, -⟩
      conv_lhs => unfold getData
      rw [e, Py.dictGet?_of_nodup (k := v) (v := g.getData dflt f v)]
      · rfl
      · rw [List.map_map]; simpa [Function.comp_def] using hv
      · exact List.mem_map.2 ⟨v, hvm, rfl⟩
    · refine forall₂_eq_map (forall₂_mem n4 ?_)
      intro f _ f' _ e
      refine forall₂_eq_map (forall₂_mem e ?_)
      intro n _ n' _ e
      rw [e]
  unfold storeText
  rw [storeLines_ok c dflt hw hl hg h0, storeLines_ok c dflt (reload_wf hL) hL.lists hL.glo.perm h0', hL.name, hn, hvars]
  have : ∀ h : Grid F R, h.zones.flatMap (fun z => (zoneText h dflt z).lines c (xyz ++ g.vars).length) =
      (h.zones.map (zoneText h dflt)).flatMap (fun t => t.lines c (xyz ++ g.vars).length) := by
    intro h; rw [List.flatMap_map]
  rw [this g', this g, hz]

end
end Verif
