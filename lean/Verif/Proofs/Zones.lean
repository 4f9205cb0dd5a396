import Verif.Proofs.Basic
import Verif.Spec.Grid

/-! Lemmas on zone operations: adding faces to zones, unlinking, linking nodes and edges to zones. -/

namespace Verif
namespace Grid
variable {F R : Type}

/-- Add a face to a zone, given as a pair. -/
def addPair (g : Grid F R) (p : Nat × Nat) : Res (Grid F R) := g.zoneAddFace p.1 p.2

theorem zoneAddFace_spec (g : Grid F R) (z f : Nat)
    (hA : ∀ z', g.fZone f = some z' → f ∈ g.zFaces z' ∧ z' ≠ z) :
    ∃ zf, g.zoneAddFace z f = .ok { g with zFaces := zf, fZone := upd g.fZone f (some z) } ∧
      zf z = g.zFaces z ++ [f] ∧
      (∀ z', z' ≠ z → zf z' = if g.fZone f = some z' then (g.zFaces z').erase f else g.zFaces z') := by
  unfold zoneAddFace unlinkFromZone
  cases hz : g.fZone f with
  | none =>
    refine ⟨upd g.zFaces z (g.zFaces z ++ [f]), by simp, by simp, ?_⟩
    intro z' h; simp [upd_ne _ _ h]
  | some z0 =>
    obtain ⟨hm, hne⟩ := hA z0 hz
    refine ⟨upd (upd g.zFaces z0 ((g.zFaces z0).erase f)) z (g.zFaces z ++ [f]), ?_, by simp, ?_⟩
    · simp only [ne_eq, reduceCtorEq, not_false_eq_true, if_true, Py.remove, hm, res_bind_ok]
      congr 2
      · funext j; simp only [upd_apply]; split <;> rfl
      · rw [upd_ne _ _ hne.symm]
    · intro z' h
      rw [upd_ne _ _ h]
      by_cases h2 : z' = z0
      · subst h2; simp
      · rw [upd_ne _ _ h2]; simp [Ne.symm h2]

/-- Adding a list of faces to new zones. -/
theorem addAll_spec (pairs : List (Nat × Nat)) (N : Nat → Prop) (g : Grid F R)
    (hA : ∀ p ∈ pairs, ∀ z, g.fZone p.2 = some z → p.2 ∈ g.zFaces z ∧ ¬ N z)
    (hN : ∀ p ∈ pairs, N p.1) (hnd : (pairs.map (·.2)).Nodup) :
    ∃ zf fz, pairs.foldlM addPair g = .ok { g with zFaces := zf, fZone := fz } ∧
      (∀ z, N z → zf z = g.zFaces z ++ (pairs.filter (fun p => p.1 = z)).map (·.2)) ∧
      (∀ z, ¬ N z → (∀ p ∈ pairs, g.fZone p.2 ≠ some z) → zf z = g.zFaces z) ∧
      (∀ p ∈ pairs, fz p.2 = some p.1) ∧
      (∀ f, f ∉ pairs.map (·.2) → fz f = g.fZone f) := by
  induction pairs generalizing g with
  | nil =>
    refine ⟨g.zFaces, g.fZone, rfl, ?_, ?_, ?_, ?_⟩ <;> simp
  | cons p ps ih =>
    obtain ⟨z, f⟩ := p
    have hNz : N z := hN (z, f) (by simp)
    have hA0 := hA (z, f) (by simp)
    obtain ⟨zf, h1, h2, h3⟩ := zoneAddFace_spec g z f
      (fun z' h => ⟨(hA0 z' h).1, fun e => (hA0 z' h).2 (e ▸ hNz)⟩)
    simp only [List.map_cons, List.nodup_cons] at hnd
    have hf : ∀ p ∈ ps, p.2 ≠ f := fun p hp e => hnd.1 (e ▸ List.mem_map_of_mem hp)
    let g1 : Grid F R := { g with zFaces := zf, fZone := upd g.fZone f (some z) }
    obtain ⟨zf', fz', k1, k2, k3, k4, k5⟩ := ih g1 (by
      intro p hp z' hz'
      have hz'' : g.fZone p.2 = some z' := by simpa [g1, upd_ne _ _ (hf p hp)] using hz'
      obtain ⟨ha, hb⟩ := hA p (by simp [hp]) z' hz''
      refine ⟨?_, hb⟩
      have hne : z' ≠ z := fun e => hb (e ▸ hNz)
      show p.2 ∈ zf z'
      rw [h3 z' hne]
      split
      · exact (List.mem_erase_of_ne (hf p hp)).2 ha
      · exact ha) (fun p hp => hN p (by simp [hp])) hnd.2
    refine ⟨zf', fz', ?_, ?_, ?_, ?_, ?_⟩
    · rw [List.foldlM_cons]
      show (g.zoneAddFace z f >>= _) = _
      rw [h1]; exact k1
    · intro z' hz'
      rw [k2 z' hz']
      by_cases e : z = z'
      · subst e
        simp [g1, h2]
      · have hnf : g.fZone f ≠ some z' := fun h => (hA0 z' h).2 hz'
        simp [g1, h3 z' (Ne.symm e), hnf, e]
    · intro z' hz' hall
      rw [k3 z' hz']
      · show zf z' = _
        rw [h3 z' (fun e => hz' (e ▸ hNz)), if_neg (hall (z, f) (by simp))]
      · intro p hp
        simpa [g1, upd_ne _ _ (hf p hp)] using hall p (by simp [hp])
    · intro p hp
      rcases List.mem_cons.1 hp with rfl | hp
      · rw [k5 _ (by simpa using hnd.1)]; simp [g1]
      · exact k4 p hp
    · intro f' hf'
      simp only [List.map_cons, List.mem_cons, not_or] at hf'
      rw [k5 f' hf'.2]
      simp [g1, upd_ne _ _ hf'.1]

/-- `unlink_faces_from_zones` on a grid all of whose faces have a zone. -/
theorem unlink_spec (g : Grid F R) (hnd : g.faces.Nodup) (h : ∀ f ∈ g.faces, g.fZone f ≠ none) :
    g.unlinkFacesFromZones = .ok { g with
      fZone := fun f => if f ∈ g.faces ∧ ∃ z, g.fZone f = some z ∧ g.zFixed z = false then none else g.fZone f } := by
  unfold unlinkFacesFromZones
  suffices H : ∀ (post pre : List Nat) , g.faces = pre ++ post →
      post.foldlM unlinkStep
        { g with fZone := fun f => if f ∈ pre ∧ ∃ z, g.fZone f = some z ∧ g.zFixed z = false then none else g.fZone f }
        = .ok ({ g with
      fZone := fun f => if f ∈ g.faces ∧ ∃ z, g.fZone f = some z ∧ g.zFixed z = false then none else g.fZone f } : Grid F R) by
    have := H g.faces [] rfl
    simpa using this
  intro post
  induction post with
  | nil => intro pre hl; simp [hl]
  | cons f post ih =>
    intro pre hl
    have hf : f ∉ pre := by
      rw [hl] at hnd
      intro hm
      exact (List.nodup_append.1 hnd).2.2 f hm f (by simp) rfl
    obtain ⟨z, hz⟩ : ∃ z, g.fZone f = some z := by
      cases hh : g.fZone f with
      | none => exact absurd hh (h f (by simp [hl]))
      | some z => exact ⟨z, rfl⟩
    rw [List.foldlM_cons]
    have key := ih (pre ++ [f]) (by simp [hl])
    simp only [unlinkStep, hf, false_and, if_false, hz, res_bind_ok]
    rw [← key]
    congr 1
    by_cases hx : g.zFixed z = false
    · simp only [hx, if_true]
      congr 1
      funext j
      simp only [upd_apply]
      by_cases hj : j = f
      · subst hj; simp [hz, hx]
      · simp [hj]
    · rw [if_neg hx]
      congr 1
      funext j
      by_cases hj : j = f
      · subst hj; simp [hz, hx]
      · simp [hj]

/-- `pushZones` adds consecutive new zone objects. -/
theorem pushZones_spec (names : List Str) (g : Grid F R) :
    ∃ zi zm zn ze zf zx, g.pushZones names = { g with
        zones := g.zones ++ List.range' g.zNext names.length, zId := zi, zName := zm, zNodes := zn,
        zEdges := ze, zFaces := zf, zFixed := zx, zNext := g.zNext + names.length } ∧
      (∀ z, z < g.zNext → zm z = g.zName z ∧ zf z = g.zFaces z ∧ zx z = g.zFixed z) ∧
      (∀ i nm, names[i]? = some nm → zm (g.zNext + i) = nm) ∧
      (∀ z, g.zNext ≤ z → z < g.zNext + names.length → zf z = [] ∧ zx z = false) := by
  induction names generalizing g with
  | nil => refine ⟨g.zId, g.zName, g.zNodes, g.zEdges, g.zFaces, g.zFixed, by simp [pushZones], ?_, ?_, ?_⟩ <;> simp; omega
  | cons nm names ih =>
    obtain ⟨zi, zm, zn, ze, zf, zx, h1, h2, h3, h4⟩ := ih (g.pushZone nm)
    have hnext : (g.pushZone nm).zNext = g.zNext + 1 := rfl
    refine ⟨zi, zm, zn, ze, zf, zx, ?_, ?_, ?_, ?_⟩
    · show (g.pushZone nm).pushZones names = _
      rw [h1]
      simp [pushZone, newZone, List.range'_succ, Nat.add_assoc, Nat.add_comm 1]
    · intro z hz
      have := h2 z (by omega)
      have hne : z ≠ g.zNext := by omega
      simpa [pushZone, newZone, upd_ne _ _ hne] using this
    · intro i nm' hi
      cases i with
      | zero =>
        have := (h2 g.zNext (by omega)).1
        simp at hi
        rw [Nat.add_zero, this, ← hi]
        simp [pushZone, newZone]
      | succ i =>
        have := h3 i nm' (by simpa using hi)
        rw [hnext] at this
        rw [← this]; congr 1; omega
    · intro z hz1 hz2
      by_cases e : z = g.zNext
      · subst e
        have := (h2 g.zNext (by omega)).2
        rw [this.1, this.2]
        simp [pushZone, newZone]
      · exact h4 z (by omega) (by simp only [List.length_cons] at hz2; omega)

/-! ### Linking nodes and edges to zones -/

theorem mem_dedup (l : List Int) (a : Int) : a ∈ dedup l ↔ a ∈ l := by
  induction l generalizing a with
  | nil => simp [dedup]
  | cons b t ih =>
    have e : dedup (b :: t) = if b ∈ dedup t then dedup t else b :: dedup t := rfl
    rw [e]
    split
    · rename_i h
      rw [ih] at h ⊢
      constructor
      · intro h2; exact List.mem_cons_of_mem _ h2
      · intro h2; rcases List.mem_cons.1 h2 with rfl | h2 <;> assumption
    · simp [ih]

theorem nodup_dedup (l : List Int) : (dedup l).Nodup := by
  induction l with
  | nil => simp [dedup]
  | cons b t ih =>
    have e : dedup (b :: t) = if b ∈ dedup t then dedup t else b :: dedup t := rfl
    rw [e]
    split
    · exact ih
    · rename_i h; exact List.nodup_cons.2 ⟨h, ih⟩

theorem foldl_upd_const {α : Type _} (l : List Nat) (m : Nat → α) (v : Nat → α) (j : Nat) :
    (l.foldl (fun m z => upd m z (v z)) m) j = if j ∈ l then v j else m j := by
  induction l generalizing m with
  | nil => simp
  | cons a t ih =>
    rw [List.foldl_cons, ih]
    by_cases h : j ∈ t
    · simp [h]
    · by_cases h2 : j = a
      · subst h2; simp
      · simp [h, h2, upd_ne]

theorem setZonesIds_apply (g : Grid F R) (hnd : g.zones.Nodup) (i z : Nat) (h : g.zones[i]? = some z) :
    (g.setZonesIds).zId z = i := by
  suffices H : ∀ (l : List Nat) (k : Nat) (m : Nat → Int) (i z : Nat), l.Nodup → l[i]? = some z →
      ((l.zipIdx k).foldl (fun ids p => upd ids p.1 (p.2 : Int)) m) z = ((k + i : Nat) : Int) by
    have := H g.zones 0 g.zId i z hnd h
    simpa [setZonesIds] using this
  intro l
  induction l with
  | nil => intro k m i z _ h; simp at h
  | cons a t ih =>
    intro k m i z hnd h
    rw [List.zipIdx_cons, List.foldl_cons]
    rw [List.nodup_cons] at hnd
    cases i with
    | zero =>
      simp at h; subst h
      have : ∀ (t : List Nat) (k : Nat) (m : Nat → Int), a ∉ t →
          ((t.zipIdx k).foldl (fun ids p => upd ids p.1 (p.2 : Int)) m) a = m a := by
        intro t
        induction t with
        | nil => intros; rfl
        | cons b t ih =>
          intro k m hm
          rw [List.zipIdx_cons, List.foldl_cons, ih _ _ (fun h => hm (List.mem_cons_of_mem _ h))]
          exact upd_ne _ _ (fun e => hm (e ▸ List.mem_cons_self ..))
      rw [this t _ _ hnd.1]; simp
    | succ i =>
      rw [ih (k + 1) _ i z hnd.2 (by simpa using h)]
      congr 1; omega

/-- The zone a face points to is one of the zones of the grid. -/
def PointsIn (g : Grid F R) (fs : List Nat) : Prop := ∀ f ∈ fs, ∃ z ∈ g.zones, g.fZone f = some z

theorem zoneIds_ok (g : Grid F R) (hid : ∀ (i z : Nat), g.zones[i]? = some z → g.zId z = i) (fs : List Nat)
    (h : g.PointsIn fs) :
    ∃ ids, g.zoneIds fs = .ok ids ∧
      ∀ a, a ∈ ids ↔ ∃ i z, a = ((i : Nat) : Int) ∧ g.zones[i]? = some z ∧ ∃ f ∈ fs, g.fZone f = some z := by
  induction fs with
  | nil => exact ⟨[], rfl, by simp⟩
  | cons f fs ih =>
    obtain ⟨ids, h1, h2⟩ := ih (fun f hf => h f (by simp [hf]))
    obtain ⟨z, hz, hfz⟩ := h f (by simp)
    obtain ⟨i, hi⟩ := List.mem_iff_getElem?.1 hz
    refine ⟨(i : Int) :: ids, ?_, ?_⟩
    · unfold zoneIds at h1 ⊢
      rw [List.mapM_cons]
      simp [hfz, h1, hid i z hi]
    · intro a
      rw [List.mem_cons, h2]
      constructor
      · rintro (rfl | ⟨i', z', ha, hz', f', hf', h'⟩)
        · exact ⟨i, z, rfl, hi, f, by simp, hfz⟩
        · exact ⟨i', z', ha, hz', f', by simp [hf'], h'⟩
      · rintro ⟨i', z', ha, hz', f', hf', h'⟩
        rcases List.mem_cons.1 hf' with rfl | hf'
        · left
          have : z' = z := by rw [hfz] at h'; exact (Option.some.inj h').symm
          subst this
          have := hid i z' hi
          have := hid i' z' hz'
          omega
        · exact Or.inr ⟨i', z', ha, hz', f', hf', h'⟩

/-- One step of the loop over zone numbers, on the lists only. -/
def appendStep (zones : List Nat) (n : Nat) (m : Nat → List Nat) (zid : Int) : Res (Nat → List Nat) := do
  let z ← Py.get zones zid
  .ok (upd m z (m z ++ [n]))

/-- One step of the loop over nodes (edges), on the lists only. -/
def listStep (zones : List Nat) (idsOf : Nat → Res (List Int)) (m : Nat → List Nat) (n : Nat) :
    Res (Nat → List Nat) := do
  let ids ← idsOf n
  (dedup ids).foldlM (appendStep zones n) m

/-- The loop appending an object to the lists of the zones with given (different) numbers. -/
theorem appendTo_spec (zones : List Nat) (hnd : zones.Nodup) (m : Nat → List Nat) (n : Nat)
    (ids : List Int) (hids : ids.Nodup) (hin : ∀ a ∈ ids, ∃ i z, a = ((i : Nat) : Int) ∧ zones[i]? = some z) :
    ∃ m', ids.foldlM (appendStep zones n) m = .ok m' ∧
      ∀ i z, zones[i]? = some z → m' z = if ((i : Nat) : Int) ∈ ids then m z ++ [n] else m z := by
  induction ids generalizing m with
  | nil => exact ⟨m, rfl, by simp⟩
  | cons a ids ih =>
    obtain ⟨i0, z0, ha, hz0⟩ := hin a (by simp)
    rw [List.nodup_cons] at hids
    obtain ⟨m', h1, h2⟩ := ih (upd m z0 (m z0 ++ [n])) hids.2 (fun b hb => hin b (by simp [hb]))
    refine ⟨m', ?_, ?_⟩
    · rw [List.foldlM_cons, appendStep, ha, get_ofNat, hz0]
      exact h1
    · intro i z hz
      rw [h2 i z hz]
      by_cases e : i = i0
      · subst e
        have : z = z0 := by rw [hz] at hz0; exact Option.some.inj hz0
        subst this
        rw [← ha]
        simp [hids.1]
      · have hne : z ≠ z0 := by
          rintro rfl
          have h1 : i < zones.length := (List.getElem?_eq_some_iff.1 hz).1
          exact e ((List.getElem?_inj h1 hnd).1 (hz.trans hz0.symm))
        have : ((i : Nat) : Int) ≠ a := by rw [ha]; exact_mod_cast e
        simp [this, upd_ne _ _ hne]

theorem foldlM_lift {α β γ : Type _} (emb : β → γ) (f : β → α → Res β) (h : γ → α → Res γ)
    (hc : ∀ b a, h (emb b) a = (f b a).map emb) (l : List α) (b : β) :
    l.foldlM h (emb b) = (l.foldlM f b).map emb := by
  induction l generalizing b with
  | nil => rfl
  | cons a l ih =>
    rw [List.foldlM_cons, List.foldlM_cons, hc]
    cases hf : f b a with
    | error e => rfl
    | ok b' => exact ih b'

/-- Linking the objects of a list `os` (nodes or edges) with incident faces `inc` to the zones. -/
theorem linkLoop (zones : List Nat) (hnd : zones.Nodup) (fz : Nat → Option Nat) (os : List Nat)
    (idsOf : Nat → Res (List Int)) (inc : Nat → List Nat)
    (hids : ∀ n ∈ os, ∃ ids, idsOf n = .ok ids ∧ ∀ a, a ∈ ids ↔ ∃ i z, a = ((i : Nat) : Int) ∧
      zones[i]? = some z ∧ ∃ f ∈ inc n, fz f = some z)
    (m : Nat → List Nat) (hm : ∀ z ∈ zones, m z = []) :
    ∃ m', os.foldlM (listStep zones idsOf) m = .ok m' ∧
      ∀ z ∈ zones, m' z = os.filter (fun n => (inc n).any (fun f => fz f = some z)) := by
  apply foldlM_total _ os (fun pre (m' : Nat → List Nat) =>
    ∀ z ∈ zones, m' z = pre.filter (fun n => (inc n).any (fun f => fz f = some z))) m
  · intro z hz; simpa using hm z hz
  · intro pre n post m1 hos hI
    obtain ⟨ids, h1, h2⟩ := hids n (by simp [hos])
    obtain ⟨m', h3, h4⟩ := appendTo_spec zones hnd m1 n (dedup ids) (nodup_dedup ids) (by
      intro a ha
      rw [mem_dedup, h2] at ha
      obtain ⟨i, z, e, hz, _⟩ := ha
      exact ⟨i, z, e, hz⟩)
    refine ⟨m', by rw [listStep, h1]; exact h3, ?_⟩
    intro z hz
    obtain ⟨i, hi⟩ := List.mem_iff_getElem?.1 hz
    rw [h4 i z hi, hI z hz, List.filter_append]
    have hiff : ((i : Nat) : Int) ∈ dedup ids ↔ (inc n).any (fun f => fz f = some z) = true := by
      rw [mem_dedup, h2]
      simp only [List.any_eq_true, decide_eq_true_eq]
      constructor
      · rintro ⟨i', z', e, hz', f, hf, hfz⟩
        have : i = i' := by exact_mod_cast e
        subst this
        rw [hi] at hz'
        exact ⟨f, hf, by rw [hfz, Option.some.inj hz']⟩
      · rintro ⟨f, hf, hfz⟩
        exact ⟨i, z, rfl, hi, f, hf, hfz⟩
    by_cases hc : (inc n).any (fun f => fz f = some z) = true
    · simp [hiff.2 hc, hc]
    · have := mt hiff.1 hc
      simp [this, hc]

/-- `link_nodes_and_edges_to_zones` on a grid whose faces point to its zones. -/
theorem link_spec (g : Grid F R) (hnd : g.zones.Nodup)
    (hn : ∀ n ∈ g.nodes, g.PointsIn (g.nFaces n)) (he : ∀ e ∈ g.edges, g.PointsIn (g.eFaces e)) :
    ∃ zn ze zi, g.linkNodesAndEdgesToZones = .ok { g with zNodes := zn, zEdges := ze, zId := zi } ∧
      (∀ z ∈ g.zones, zn z = g.nodes.filter (fun n => (g.nFaces n).any (fun f => g.fZone f = some z))) ∧
      (∀ z ∈ g.zones, ze z = g.edges.filter (fun e => (g.eFaces e).any (fun f => g.fZone f = some z))) := by
  let g0 : Grid F R := setZonesIds { g with
    zNodes := g.zones.foldl (fun m z => upd m z []) g.zNodes
    zEdges := g.zones.foldl (fun m z => upd m z []) g.zEdges }
  have hid : ∀ (i z : Nat), g0.zones[i]? = some z → g0.zId z = i := fun i z h =>
    setZonesIds_apply _ hnd i z h
  have hz0 : g0.zones = g.zones := rfl
  obtain ⟨zn, a1, a2⟩ := linkLoop g.zones hnd g.fZone g.nodes (fun n => g0.zoneIds (g.nFaces n)) g.nFaces
    (fun n hn' => zoneIds_ok g0 hid (g.nFaces n) (hn n hn')) g0.zNodes
    (fun z hz => by simp [g0, setZonesIds, foldl_upd_const _ _ (fun _ => []), hz])
  obtain ⟨ze, b1, b2⟩ := linkLoop g.zones hnd g.fZone g.edges (fun e => g0.zoneIds (g.eFaces e)) g.eFaces
    (fun e he' => zoneIds_ok g0 hid (g.eFaces e) (he e he')) g0.zEdges
    (fun z hz => by simp [g0, setZonesIds, foldl_upd_const _ _ (fun _ => []), hz])
  have c1 : g.nodes.foldlM linkNodeToZones g0 = .ok { g0 with zNodes := zn } := by
    have := foldlM_lift (fun m => ({ g0 with zNodes := m } : Grid F R))
      (listStep g.zones (fun n => g0.zoneIds (g.nFaces n))) linkNodeToZones (by
      intro m n
      unfold linkNodeToZones listStep
      show ((g0.zoneIds (g.nFaces n)) >>= _) = Except.map _ ((g0.zoneIds (g.nFaces n)) >>= _)
      cases hh : g0.zoneIds (g.nFaces n) with
      | error e => rfl
      | ok ids =>
        rw [res_bind_ok, res_bind_ok]
        exact foldlM_lift (fun m => ({ g0 with zNodes := m } : Grid F R)) (appendStep g.zones n) _ (by
          intro m zid
          unfold appendStep
          show (Py.get g.zones zid >>= _) = _
          cases Py.get g.zones zid <;> rfl) (dedup ids) m) g.nodes g0.zNodes
    rw [a1] at this
    exact this
  have c2 : g.edges.foldlM linkEdgeToZones { g0 with zNodes := zn } = .ok { g0 with zNodes := zn, zEdges := ze } := by
    have := foldlM_lift (fun m => ({ g0 with zNodes := zn, zEdges := m } : Grid F R))
      (listStep g.zones (fun n => g0.zoneIds (g.eFaces n))) linkEdgeToZones (by
      intro m n
      unfold linkEdgeToZones listStep
      show ((g0.zoneIds (g.eFaces n)) >>= _) = Except.map _ ((g0.zoneIds (g.eFaces n)) >>= _)
      cases hh : g0.zoneIds (g.eFaces n) with
      | error e => rfl
      | ok ids =>
        rw [res_bind_ok, res_bind_ok]
        exact foldlM_lift (fun m => ({ g0 with zNodes := zn, zEdges := m } : Grid F R)) (appendStep g.zones n) _ (by
          intro m zid
          unfold appendStep
          show (Py.get g.zones zid >>= _) = _
          cases Py.get g.zones zid <;> rfl) (dedup ids) m) g.edges g0.zEdges
    rw [b1] at this
    exact this
  refine ⟨zn, ze, g.zones.foldl (fun ids z => upd ids z (-1)) g0.zId, ?_, a2, b2⟩
  show (g.nodes.foldlM linkNodeToZones g0 >>= _) = _
  rw [c1, res_bind_ok]
  show (g.edges.foldlM linkEdgeToZones { g0 with zNodes := zn } >>= _) = _
  rw [c2, res_bind_ok]
  rfl

theorem check_spec (g : Grid F R) (h : ∀ f ∈ g.faces, g.fZone f ≠ none) : g.checkFacesLinked = .ok () := by
  unfold checkFacesLinked
  generalize g.faces = l at h
  induction l with
  | nil => rfl
  | cons f l ih =>
    rw [List.forM_eq_forM, List.forM_cons, if_neg (h f (by simp)), res_bind_ok, ← List.forM_eq_forM]
    exact ih (fun f hf => h f (by simp [hf]))

/-- `post_decompose` on a grid whose faces point to its zones. -/
theorem post_spec (g : Grid F R) (hm : Mesh g) (hnd : g.zones.Nodup) (hp : g.PointsIn g.faces) :
    ∃ zn ze zi, g.postDecompose = .ok { g with zNodes := zn, zEdges := ze, zId := zi } ∧
      (∀ z ∈ g.zones, zn z = g.nodes.filter (fun n => (g.nFaces n).any (fun f => g.fZone f = some z))) ∧
      (∀ z ∈ g.zones, ze z = g.edges.filter (fun e => (g.eFaces e).any (fun f => g.fZone f = some z))) ∧
      (∀ i z : Nat, g.zones[i]? = some z → zi z = i) := by
  obtain ⟨zn, ze, zi, h1, h2, h3⟩ := link_spec g hnd
    (fun n hn f hf => hp f ((hm.node_face n hn f).1 hf).1)
    (fun e he f hf => hp f ((hm.edge_face e he f).1 hf).1)
  refine ⟨zn, ze, _, ?_, h2, h3, fun i z h =>
    setZonesIds_apply { g with zNodes := zn, zEdges := ze, zId := zi } hnd i z h⟩
  unfold postDecompose
  rw [h1, res_bind_ok, check_spec]
  · rfl
  · intro f hf
    obtain ⟨z, _, hz⟩ := hp f hf
    show g.fZone f ≠ none
    rw [hz]; simp

end Grid
end Verif
