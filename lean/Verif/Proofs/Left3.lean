import Verif.Proofs.Left2
import Verif.Proofs.Sim3

/-! Which grids failing decompositions leave behind. -/

namespace Verif
open Grid
variable {F R : Type}

theorem plain_eq_ok {α : Type} {x : Left F R α} {a : α} (h : x.plain = .ok a) : x = .ok a := by
  cases x with
  | ok b => cases h; rfl
  | error e => cases h

theorem plain_eq_error {α : Type} {x : Left F R α} {e : Err} (h : x.plain = .error e) : ∃ g, x = .error (e, g) := by
  cases x with
  | ok b => cases h
  | error p => obtain ⟨e', g⟩ := p; cases h; exact ⟨g, rfl⟩

theorem postX_frame (g : Grid F R) :
    Ends (fun g' : Grid F R => ∃ zn ze zi, g' = { g with zNodes := zn, zEdges := ze, zId := zi }) id g.postDecomposeX := by
  let P : Grid F R → Prop := fun g' => ∃ zn ze zi, g' = { g with zNodes := zn, zEdges := ze, zId := zi }
  have hN : ∀ s z n, P s → P (s.zoneAddNode z n) := by
    rintro s z n ⟨zn, ze, zi, rfl⟩; exact ⟨_, ze, zi, rfl⟩
  have hE : ∀ s z n, P s → P (s.zoneAddEdge z n) := by
    rintro s z n ⟨zn, ze, zi, rfl⟩; exact ⟨zn, _, zi, rfl⟩
  show Ends P id _
  unfold postDecomposeX linkNodesAndEdgesToZonesX
  refine Ends.bind (pr := id) (Ends.bind (pr := id) ?_ (fun g1 h1 => Ends.bind (pr := id) ?_ (fun g2 h2 => ?_))) (fun g1 h1 => ?_)
  · refine Ends.foldlM (pr := id) ⟨_, _, _, rfl⟩ ?_
    intro s n _ hs
    refine Ends.bind_here hs (fun ids _ => Ends.foldlM (pr := id) hs ?_)
    intro s a _ hs
    exact Ends.bind_here hs (fun z _ => hN _ z n hs)
  · refine Ends.foldlM (pr := id) h1 ?_
    intro s n _ hs
    refine Ends.bind_here hs (fun ids _ => Ends.foldlM (pr := id) hs ?_)
    intro s a _ hs
    exact Ends.bind_here hs (fun z _ => hE _ z n hs)
  · obtain ⟨zn, ze, zi, rfl⟩ := h2
    exact ⟨zn, ze, _, rfl⟩
  · refine Ends.bind_here h1 (fun _ _ => ?_)
    obtain ⟨zn, ze, zi, h1⟩ := h1
    replace h1 : g1 = _ := h1
    subst h1
    exact ⟨zn, ze, _, rfl⟩

/-- Unlinking after all zones are removed. -/
theorem clearedX (g : Grid F R) (hw : Loose g) (nm : Option Str) :
    ∃ fz, unlinkFacesFromZonesX (cleared g nm g.fZone) = .ok (cleared g nm fz) ∧
      ∀ f ∈ g.faces, InFreeZone g f → fz f = none := by
  refine ⟨_, plain_eq_ok ((unlink_plain _).trans (Grid.unlink_spec _ hw.mesh.faces_nodup ?_)), ?_⟩
  · show ∀ f ∈ g.faces, g.fZone f ≠ none
    intro f hf
    obtain ⟨z, hz, _⟩ := hw.points f hf
    rw [hz]; simp
  · rintro f hf ⟨z, hz, hx⟩
    exact if_pos ⟨hf, z, hz, hx⟩

theorem randomX_zero (g : Grid F R) (hw : Loose g) (rand : Nat → Nat) (nm : Option Str) (hf : g.faces ≠ []) :
    ∃ fz, g.decomposeRandomX rand 0 nm = .error (.value, cleared g nm fz) ∧ ∀ f ∈ g.faces, InFreeZone g f → fz f = none := by
  obtain ⟨fz, h1, h2⟩ := clearedX g hw nm
  refine ⟨fz, ?_, h2⟩
  unfold decomposeRandomX
  show (unlinkFacesFromZonesX (cleared g nm g.fZone) >>= _) = _
  rw [h1, left_bind_ok]
  cases hl : g.faces with
  | nil => exact absurd hl hf
  | cons f l =>
    show (List.foldlM _ (cleared g nm fz) (cleared g nm fz).faces.zipIdx >>= _) = _
    rw [show (cleared g nm fz).faces = f :: l from hl, List.zipIdx_cons, List.foldlM_cons]
    rfl

theorem linearX_neg (g : Grid F R) (hw : Loose g) (count : Int) (hc : count < 0) (nm : Option Str) (hf : g.faces ≠ []) :
    ∃ fz, g.decomposeLinearX count nm = .error (.exc "Wrong linera distribution mathematics.", cleared g nm fz) ∧
      ∀ f ∈ g.faces, InFreeZone g f → fz f = none := by
  obtain ⟨fz, h1, h2⟩ := clearedX g hw nm
  refine ⟨fz, ?_, h2⟩
  have hn : count.toNat = 0 := by omega
  unfold decomposeLinearX
  simp only
  rw [if_neg (by omega)]
  show (unlinkFacesFromZonesX (cleared g nm g.fZone) >>= _) = _
  rw [h1, left_bind_ok, hn]
  have hz : ((cleared g nm fz).pushZones (numbered "linear ".toList 0)) = cleared g nm fz := rfl
  rw [hz, show (cleared g nm fz).zones = [] from rfl]
  simp only [List.zipIdx_nil, List.foldlM_nil, left_pure, left_bind_ok]
  rw [if_pos]
  intro h
  exact hf (List.length_eq_zero_iff.1 (by
    have h : 0 = g.faces.length := h
    omega))

theorem fixedClearedX (g : Grid F R) (hw : Wf g) (nm : Option Str) (names : List Str) :
    ∃ fz, unlinkFacesFromZonesX (fixedCleared g nm names g.fZone) = .ok (fixedCleared g nm names fz) ∧
      ∀ f ∈ g.faces, OutsideKept g names f → fz f = none := by
  obtain ⟨fz, u1, u2, _⟩ := fixedCleared_spec g hw nm names
  refine ⟨fz, plain_eq_ok ((unlink_plain _).trans u1), ?_⟩
  rintro f hf ⟨z, hz, hn⟩
  cases hc : fz f with
  | none => rfl
  | some z' =>
    obtain ⟨h1, h2⟩ := (u2 f hf z').1 hc
    rw [hz] at h1
    cases h1
    exact absurd (mem_kept.1 h2).2 hn

theorem hierX_zero {S : Type} [LT S] [LE S] [DecidableLT S] [DecidableLE S] (g : Grid F R) (hw : Wf g) (fns : List (Nat → S))
    (nm : Option Str) (names : List Str) :
    ∃ fz, g.decomposeHierarchicalX fns 0 nm names = .error (.exc "It must be at least 1 level.", fixedCleared g nm names fz) ∧
      ∀ f ∈ g.faces, OutsideKept g names f → fz f = none := by
  obtain ⟨fz, h1, h2⟩ := fixedClearedX g hw nm names
  refine ⟨fz, ?_, h2⟩
  have e : ({ (g.markFixed names).rename nm with
      zones := ((g.markFixed names).rename nm).zones.filter (fun z => ((g.markFixed names).rename nm).zFixed z) } : Grid F R) =
      fixedCleared g nm names g.fZone := by
    unfold fixedCleared rename markFixed; simp only; rw [← keep_eq]
  unfold decomposeHierarchicalX
  simp only
  rw [e, h1, left_bind_ok]
  rfl

theorem farhatX_zero (g : Grid F R) (hw : Wf g) (nm : Option Str) (names : List Str) (hf : ∃ f ∈ g.faces, OutsideKept g names f) :
    ∃ e fz zn ze zi, g.decomposeFarhatX 0 nm names =
        .error (e, { fixedCleared g nm names fz with zNodes := zn, zEdges := ze, zId := zi }) ∧
      ∀ f ∈ g.faces, OutsideKept g names f → fz f = none := by
  obtain ⟨fz, h1, h2⟩ := fixedClearedX g hw nm names
  have e : ({ (g.markFixed names).rename nm with
      zones := ((g.markFixed names).rename nm).zones.filter (fun z => ((g.markFixed names).rename nm).zFixed z) } : Grid F R) =
      fixedCleared g nm names g.fZone := by
    unfold fixedCleared rename markFixed; simp only; rw [← keep_eq]
  obtain ⟨f0, hf0, ho0⟩ := hf
  obtain ⟨st, hst⟩ : ∃ st, Py.get g.faces 0 = .ok st := by
    cases hl : g.faces with
    | nil => rw [hl] at hf0; cases hf0
    | cons a l => exact ⟨a, rfl⟩
  have r : g.decomposeFarhatX 0 nm names = (fixedCleared g nm names fz).postDecomposeX := by
    unfold decomposeFarhatX
    simp only
    rw [e, h1, left_bind_ok]
    have hz : ((fixedCleared g nm names fz).pushZones (numbered "farhat ".toList 0)) = fixedCleared g nm names fz := rfl
    rw [hz]
    have hst' : Py.get (fixedCleared g nm names fz).faces 0 = .ok st := hst
    rw [hst']
    simp only [here, List.range_zero, List.map_nil, List.zip_nil_right, List.foldlM_nil, left_pure, left_bind_ok]
  have hp := postX_frame (fixedCleared g nm names fz)
  cases hr : (fixedCleared g nm names fz).postDecomposeX with
  | ok g' =>
    exfalso
    have := post_plain (fixedCleared g nm names fz)
    rw [hr] at this
    exact post_linked this.symm f0 hf0 (h2 f0 hf0 ho0)
  | error x =>
    obtain ⟨e, g'⟩ := x
    rw [hr] at hp
    obtain ⟨zn, ze, zi, rfl⟩ := hp
    exact ⟨e, fz, zn, ze, zi, by rw [r, hr], h2⟩

theorem farhat_zero_returns (g : Grid F R) (hw : Wf g) (nm : Option Str) (names : List Str) (hf : g.faces ≠ [])
    (hall : ∀ f ∈ g.faces, ¬ OutsideKept g names f) : ∃ g', g.decomposeFarhat 0 nm names = .ok g' := by
  obtain ⟨fz, u1, u2, u3⟩ := fixedCleared_spec g hw nm names
  have e : ({ (g.markFixed names).rename nm with
      zones := ((g.markFixed names).rename nm).zones.filter (fun z => ((g.markFixed names).rename nm).zFixed z) } : Grid F R) =
      fixedCleared g nm names g.fZone := by
    unfold fixedCleared rename markFixed; simp only; rw [← keep_eq]
  have hl : ∀ f ∈ g.faces, fz f ≠ none := by
    intro f hf hc
    obtain ⟨z, hz, hfz⟩ := hw.zones.pointsIn f hf
    by_cases hn : g.zName z ∈ names
    · rw [(u2 f hf z).2 ⟨hfz, mem_kept.2 ⟨hz, hn⟩⟩] at hc
      cases hc
    · exact hall f hf ⟨z, hfz, hn⟩
  have hzo : ZonesOk (fixedCleared g nm names fz) := by
    refine ⟨hw.zones.zones_nodup.filter _, ?_, ?_⟩
    · have : g.faces.filter (fun f => fz f = none) = [] := by
        rw [List.filter_eq_nil_iff]; intro f hf; simpa using hl f hf
      rw [this, List.append_nil] at u3
      exact u3
    · intro z hz f hf
      have := (hw.zones.mem_iff (mem_kept.1 hz).1 f).1 hf
      exact (u2 f this.1 z).2 ⟨this.2, hz⟩
  obtain ⟨zn, ze, zi, f1, f2⟩ := finish (fixedCleared g nm names fz) (hw.mesh.congr (by constructor <;> rfl)) hzo
    (fun z hz => hw.alloc z (mem_kept.1 hz).1)
  refine ⟨_, Eq.trans ?_ f1⟩
  obtain ⟨st, hst⟩ : ∃ st, Py.get g.faces 0 = .ok st := by
    cases hl : g.faces with
    | nil => exact absurd hl hf
    | cons a l => exact ⟨a, rfl⟩
  unfold decomposeFarhat
  simp only
  rw [e, u1, res_bind_ok]
  have hz : ((fixedCleared g nm names fz).pushZones (numbered "farhat ".toList 0)) = fixedCleared g nm names fz := rfl
  rw [hz]
  have hst' : Py.get (fixedCleared g nm names fz).faces 0 = .ok st := hst
  rw [hst']
  simp only [List.range_zero, List.map_nil, List.zip_nil_right, List.foldlM_nil, res_pure, res_bind_ok]

theorem farhat_empty_raises (g : Grid F R) (hw : Wf g) (count : Nat) (nm : Option Str) (names : List Str) (hne : g.faces = [])
    {g' : Grid F R} (h : g.decomposeFarhat count nm names = .ok g') : False := by
  obtain ⟨fz, u1, u2, u3⟩ := fixedCleared_spec g hw nm names
  unfold decomposeFarhat at h
  simp only [res_bind_eq_ok] at h
  obtain ⟨g1, h1, st, h2, _⟩ := h
  have u1' : (fixedCleared g nm names g.fZone).unlinkFacesFromZones = .ok g1 := by
    rw [← h1]; congr 1; unfold fixedCleared rename markFixed; simp only; rw [← keep_eq]
  rw [u1] at u1'
  cases u1'
  obtain ⟨zi, zm, zn, ze, zf, zx, p1, _⟩ :=
    (fixedCleared g nm names fz).pushZones_spec (Grid.numbered "farhat ".toList count)
  rw [p1] at h2
  have h2' : Py.get g.faces 0 = .ok st := h2
  rw [hne] at h2'
  cases h2'

/-! ### Hierarchical decomposition with at least one level -/

/-- Every face has no zone or a zone as `Loose` asks. -/
def HalfLoose (g : Grid F R) : Prop :=
  ∀ f ∈ g.faces, ∀ z, g.fZone f = some z → z < g.zNext ∧ (g.zFixed z = true → f ∈ g.zFaces z)

theorem zoneAddFace_half {g g' : Grid F R} {z f : Nat} (h : HalfLoose g) (hz : z < g.zNext) (r : g.zoneAddFace z f = .ok g') :
    HalfLoose g' ∧ g'.faces = g.faces ∧ g'.zNext = g.zNext ∧ g'.zones = g.zones ∧ g'.zFixed = g.zFixed ∧
      (∀ f', f' ≠ f → g'.fZone f' = g.fZone f') ∧ g'.fZone f = some z := by
  obtain ⟨zf, e⟩ : ∃ zf : Nat → List Nat, g' = { g with zFaces := zf, fZone := upd g.fZone f (some z) } ∧ f ∈ zf z ∧
      ∀ z' f', f' ≠ f → f' ∈ g.zFaces z' → f' ∈ zf z' := by
    unfold zoneAddFace unlinkFromZone at r
    have happ : ∀ (m : Nat → List Nat), (∀ z' f', f' ≠ f → f' ∈ g.zFaces z' → f' ∈ m z') →
        f ∈ upd m z (m z ++ [f]) z ∧ ∀ z' f', f' ≠ f → f' ∈ g.zFaces z' → f' ∈ upd m z (m z ++ [f]) z' := by
      intro m hm
      refine ⟨by simp [upd], fun z' f' hne hin => ?_⟩
      have := hm z' f' hne hin
      unfold upd
      split
      · rename_i e; subst e; simp [this]
      · exact this
    cases hfz : g.fZone f with
    | none =>
      rw [hfz] at r
      cases r
      obtain ⟨h1, h2⟩ := happ g.zFaces (fun _ _ _ h => h)
      exact ⟨_, rfl, h1, h2⟩
    | some z0 =>
      rw [hfz] at r
      simp only [ne_eq, reduceCtorEq, not_false_eq_true, if_true, res_bind_eq_ok] at r
      obtain ⟨g1, ⟨l, hl, hg1⟩, r⟩ := r
      unfold Py.remove at hl
      split at hl
      · cases hl
        cases hg1
        cases r
        obtain ⟨h1, h2⟩ := happ (upd g.zFaces z0 ((g.zFaces z0).erase f)) (by
          intro z' f' hne hin
          unfold upd
          split
          · rename_i e; subst e
            exact (List.mem_erase_of_ne hne).2 hin
          · exact hin)
        refine ⟨_, ?_, h1, h2⟩
        congr 1
        funext x
        simp only [upd]
        split <;> rfl
      · cases hl
  obtain ⟨rfl, h1, h2⟩ := e
  refine ⟨?_, rfl, rfl, rfl, rfl, ?_, ?_⟩
  · intro f' hf' z' hz'
    replace hz' : upd g.fZone f (some z) f' = some z' := hz'
    unfold upd at hz'
    split at hz'
    · rename_i e
      cases hz'
      exact ⟨hz, fun _ => e ▸ h1⟩
    · rename_i e
      obtain ⟨k1, k2⟩ := h f' hf' z' hz'
      exact ⟨k1, fun hx => h2 z' f' e (k2 hx)⟩
  · intro f' hne
    show upd g.fZone f (some z) f' = _
    unfold upd; rw [if_neg hne]
  · show upd g.fZone f (some z) f = _
    unfold upd; rw [if_pos rfl]

/-- The invariant of the levels. -/
structure LooseZones (g : Grid F R) : Prop where
  points : ∀ f ∈ g.faces, g.fZone f ≠ none
  half : HalfLoose g
  alloc : ZonesAlloc g

theorem LooseZones.addFace {g g' : Grid F R} {z f : Nat} (h : LooseZones g) (hz : z < g.zNext) (r : g.zoneAddFace z f = .ok g') :
    LooseZones g' ∧ g'.zNext = g.zNext := by
  obtain ⟨h1, h2, h3, h4, _, h5, h6⟩ := zoneAddFace_half h.half hz r
  refine ⟨⟨?_, h1, ?_⟩, h3⟩
  · rw [h2]
    intro f' hf'
    by_cases e : f' = f
    · subst e; rw [h6]; simp
    · rw [h5 f' e]; exact h.points f' hf'
  · intro z' hz'; rw [h3]; rw [h4] at hz'; exact h.alloc z' hz'

theorem LooseZones.newZone {g : Grid F R} (nm : Str) (h : LooseZones g) : LooseZones (g.newZone nm) := by
  refine ⟨h.points, ?_, ?_⟩
  · intro f hf z hz
    obtain ⟨h1, h2⟩ := h.half f hf z hz
    have hne : z ≠ g.zNext := by omega
    refine ⟨Nat.lt_succ_of_lt h1, ?_⟩
    show upd g.zFixed g.zNext false z = true → f ∈ upd g.zFaces g.zNext [] z
    unfold upd
    rw [if_neg hne, if_neg hne]
    exact h2
  · intro z hz
    exact Nat.lt_succ_of_lt (h.alloc z hz)

theorem LooseZones.zones {g : Grid F R} (h : LooseZones g) (zs : List Nat) (hz : ∀ z ∈ zs, z < g.zNext) :
    LooseZones { g with zones := zs } := ⟨h.points, h.half, hz⟩

section
variable {S : Type} [LT S] [LE S] [DecidableLT S] [DecidableLE S]

theorem LooseZones.metrics (zone zl zr : Nat) (fns : List (Nat → S)) {g : Grid F R} (h : LooseZones g)
    (hl : zl < g.zNext ∧ g.zFixed zl = false) (hr : zr < g.zNext ∧ g.zFixed zr = false)
    (hz : zone < g.zNext ∧ g.zFixed zone = false) :
    Ends (fun g' => LooseZones g' ∧ g'.zNext = g.zNext) Prod.fst (splitMetricsX zone zl zr fns g) := by
  induction fns generalizing g with
  | nil => exact ⟨h, rfl⟩
  | cons fn fns ih =>
    unfold splitMetricsX
    refine Ends.bind_here ⟨h, rfl⟩ (fun ⟨g1, m⟩ r => ?_)
    obtain ⟨fz, e, hfz⟩ := metric_frame r
    simp only at e
    subst e
    have h' : LooseZones { g with fZone := fz } := by
      refine ⟨fun f hf => ?_, fun f hf z hz' => ?_, h.alloc⟩
      · show fz f ≠ none
        rcases hfz f with k | k | k | k
        · rw [k]; exact h.points f hf
        all_goals rw [k]; simp
      · replace hz' : fz f = some z := hz'
        rcases hfz f with k | k | k | k
        · exact h.half f hf z (by rw [← k]; exact hz')
        all_goals
          rw [k] at hz'; cases hz'
          first
          | exact ⟨hl.1, fun hx => by replace hx : g.zFixed zl = true := hx; rw [hl.2] at hx; cases hx⟩
          | exact ⟨hr.1, fun hx => by replace hx : g.zFixed zr = true := hx; rw [hr.2] at hx; cases hx⟩
          | exact ⟨hz.1, fun hx => by replace hx : g.zFixed zone = true := hx; rw [hz.2] at hx; cases hx⟩
    exact Ends.bind (ih h' hl hr hz) (fun ⟨_, _⟩ h2 => h2)

theorem mem_remove {l l' : List Nat} {x y : Nat} (h : Py.remove l x = .ok l') (hy : y ∈ l') : y ∈ l := by
  unfold Py.remove at h
  split at h
  · cases h; exact List.mem_of_mem_erase hy
  · cases h

theorem LooseZones.splitZone (zone : Nat) (fns : List (Nat → S)) {g : Grid F R} (h : LooseZones g) (hz : zone < g.zNext) :
    Ends LooseZones id (g.splitZoneX zone fns) := by
  have hmove : ∀ {g : Grid F R}, LooseZones g → zone < g.zNext → ∀ l, Py.remove g.zones zone = .ok l →
      LooseZones { g with zones := l ++ [zone] } := by
    intro g h hz l r
    refine h.zones _ ?_
    intro z hz'
    rcases List.mem_append.1 hz' with k | k
    · exact h.alloc z (mem_remove r k)
    · rw [List.mem_singleton.1 k]; exact hz
  unfold splitZoneX
  split
  · exact Ends.bind_here h (fun l r => hmove h hz l r)
  rename_i hx
  have hx' : g.zFixed zone = false := by simpa using hx
  split
  · exact Ends.bind_here h (fun l r => hmove h hz l r)
  have h2 := (h.newZone (g.zName zone ++ ['l'])).newZone ((g.newZone (g.zName zone ++ ['l'])).zName zone ++ ['r'])
  have hn : ((g.newZone (g.zName zone ++ ['l'])).newZone ((g.newZone (g.zName zone ++ ['l'])).zName zone ++ ['r'])).zNext = g.zNext + 2 := rfl
  have hfx : ∀ z, ((g.newZone (g.zName zone ++ ['l'])).newZone ((g.newZone (g.zName zone ++ ['l'])).zName zone ++ ['r'])).zFixed z =
      if z = g.zNext + 1 then false else if z = g.zNext then false else g.zFixed z := fun z => rfl
  refine Ends.bind_here h2 (fun l hl => ?_)
  have h3 := h2.zones (l ++ [g.zNext] ++ [(g.newZone (g.zName zone ++ ['l'])).zNext]) (by
    intro z hz'
    rw [List.append_assoc] at hz'
    rcases List.mem_append.1 hz' with k | k
    · exact h2.alloc z (mem_remove hl k)
    · rw [hn]
      have : (g.newZone (g.zName zone ++ ['l'])).zNext = g.zNext + 1 := rfl
      simp only [List.cons_append, List.nil_append, List.mem_cons, List.not_mem_nil, or_false, this] at k
      omega)
  have hm := h3.metrics zone g.zNext (g.newZone (g.zName zone ++ ['l'])).zNext fns
    ⟨by show g.zNext < g.zNext + 2; omega, by show _ = false; rw [hfx]; simp⟩
    ⟨by show g.zNext + 1 < g.zNext + 2; omega, by show _ = false; rw [hfx]; exact if_pos rfl⟩
    ⟨by show zone < g.zNext + 2; omega, by show _ = false; rw [hfx, if_neg (by omega), if_neg (by omega)]; exact hx'⟩
  have hm' : Ends (fun g' => LooseZones g' ∧ g'.zNext = g.zNext + 2) Prod.fst (splitMetricsX zone g.zNext
    (g.newZone (g.zName zone ++ ['l'])).zNext fns _) := hm
  suffices H : Ends (fun g' => LooseZones g' ∧ g'.zNext = g.zNext + 2) id
      (splitMetricsX zone g.zNext (g.newZone (g.zName zone ++ ['l'])).zNext fns _ >>= _) by
    exact Ends.weaken (fun _ h => h.1) H
  refine Ends.bind hm' (fun ⟨g1, ms⟩ h4 => ?_)
  replace h4 : LooseZones g1 ∧ g1.zNext = g.zNext + 2 := h4
  simp only
  split
  · exact h4
  split
  · exact Ends.bind_here h4 (fun l r => ⟨hmove h4.1 (by rw [h4.2]; omega) l r, h4.2⟩)
  · split
    · exact h4
    · refine Ends.bind_here h4 (fun _ _ => ?_)
      have hadd : ∀ z, z < g.zNext + 2 → ∀ (l : List Nat) (s : Grid F R), (LooseZones s ∧ s.zNext = g.zNext + 2) →
          Ends (fun g' => LooseZones g' ∧ g'.zNext = g.zNext + 2) id (l.foldlM (fun g f => g.here (g.zoneAddFace z f)) s) := by
        intro z hz l s hs
        refine Ends.foldlM (pr := id) hs ?_
        intro s f _ hs
        refine Ends.here hs (fun s' r => ?_)
        obtain ⟨k1, k2⟩ := LooseZones.addFace (g := s) hs.1 (by rw [show s.zNext = _ from hs.2]; exact hz) r
        exact ⟨k1, k2.trans hs.2⟩
      exact Ends.bind (hadd _ (by omega) _ _ h4) (fun g5 h5 => hadd (g.zNext + 1) (by omega) _ _ h5)

theorem LooseZones.level (fns : List (Nat → S)) (c : Nat) {g : Grid F R} (h : LooseZones g) :
    Ends LooseZones id (splitLevelX fns c g) := by
  induction c generalizing g with
  | zero => exact h
  | succ c ih =>
    unfold splitLevelX
    refine Ends.bind_here h (fun z hz => Ends.bind (pr := id) (h.splitZone z fns (h.alloc z ?_)) (fun g1 h1 => ih h1))
    cases hl : g.zones with
    | nil => rw [hl] at hz; cases hz
    | cons a l => rw [hl] at hz; cases hz; simp

theorem LooseZones.levels (fns : List (Nat → S)) (k : Nat) {g : Grid F R} (h : LooseZones g) :
    Ends LooseZones id (splitLevelsX fns k g) := by
  induction k generalizing g with
  | zero => exact h
  | succ c ih =>
    unfold splitLevelsX
    exact Ends.bind (pr := id) (h.level fns _) (fun g1 h1 => ih h1)

/-- Putting the faces without a zone into the new zone. -/
theorem fill_loose (z : Nat) (l : List Nat) {g : Grid F R} (h : HalfLoose g) (ha : ZonesAlloc g) (hz : z < g.zNext)
    (hl : ∀ f ∈ g.faces, f ∈ l ∨ g.fZone f ≠ none) :
    ∃ g', l.foldlM (fun (g : Grid F R) f => if g.fZone f = none then g.here (g.zoneAddFace z f) else .ok g) g = .ok g' ∧ LooseZones g' := by
  induction l generalizing g with
  | nil => exact ⟨g, rfl, ⟨fun f hf => (hl f hf).resolve_left (by simp), h, ha⟩⟩
  | cons a l ih =>
    rw [List.foldlM_cons]
    by_cases hc : g.fZone a = none
    · rw [if_pos hc]
      obtain ⟨g1, hg1⟩ : ∃ g1, g.zoneAddFace z a = .ok g1 := by
        unfold zoneAddFace
        rw [if_neg (by simp [hc])]
        exact ⟨_, rfl⟩
      obtain ⟨h1, h2, h3, h4, _, h5, h6⟩ := zoneAddFace_half h hz hg1
      rw [hg1]
      refine ih h1 (fun z' hz' => by rw [h3]; rw [h4] at hz'; exact ha z' hz') (by rw [h3]; exact hz) ?_
      intro f hf
      rw [h2] at hf
      by_cases e : f = a
      · subst e; right; rw [h6]; simp
      · rw [h5 f e]
        rcases hl f hf with k | k
        · rcases List.mem_cons.1 k with k | k
          · exact absurd k e
          · exact .inl k
        · exact .inr k
    · rw [if_neg hc]
      refine ih h ha hz ?_
      intro f hf
      rcases hl f hf with k | k
      · rcases List.mem_cons.1 k with k | k
        · subst k; exact .inr hc
        · exact .inl k
      · exact .inr k

/-- A hierarchical decomposition with at least one level leaves every face in a zone, whatever its outcome. -/
theorem hierX_loose (g : Grid F R) (hw : Wf g) (fns : List (Nat → S)) (levels : Nat) (hlv : 1 ≤ levels) (nm : Option Str)
    (names : List Str) : Ends LooseZones id (g.decomposeHierarchicalX fns levels nm names) := by
  obtain ⟨fz, u1, u2, _⟩ := fixedCleared_spec g hw nm names
  have h1 := plain_eq_ok ((unlink_plain _).trans u1)
  have e : ({ (g.markFixed names).rename nm with
      zones := ((g.markFixed names).rename nm).zones.filter (fun z => ((g.markFixed names).rename nm).zFixed z) } : Grid F R) =
      fixedCleared g nm names g.fZone := by
    unfold fixedCleared rename markFixed; simp only; rw [← keep_eq]
  unfold decomposeHierarchicalX
  simp only
  rw [e, h1, left_bind_ok, if_neg (by omega)]
  have hh : HalfLoose ((fixedCleared g nm names fz).pushZone "h".toList) := by
    intro f hf z hz
    obtain ⟨k1, k2⟩ := (u2 f hf z).1 hz
    have hm := mem_kept.1 k2
    have hlt := hw.alloc z hm.1
    refine ⟨Nat.lt_succ_of_lt hlt, fun _ => ?_⟩
    show f ∈ upd g.zFaces g.zNext [] z
    unfold upd
    rw [if_neg (by omega)]
    exact (hw.zones.mem_iff hm.1 f).2 ⟨hf, k1⟩
  have ha : ZonesAlloc ((fixedCleared g nm names fz).pushZone "h".toList) := by
    intro z hz
    show z < g.zNext + 1
    have hz : z ∈ keptZones g names ++ [g.zNext] := hz
    rcases List.mem_append.1 hz with k | k
    · have := hw.alloc z (mem_kept.1 k).1; omega
    · rw [List.mem_singleton.1 k]; omega
  obtain ⟨g2, f1, f2⟩ := fill_loose g.zNext g.faces hh ha (by show g.zNext < g.zNext + 1; omega) (fun f hf => .inl hf)
  have f1' : List.foldlM (fun (g' : Grid F R) f => if g'.fZone f = none then g'.here (g'.zoneAddFace (fixedCleared g nm names fz).zNext f) else .ok g')
      ((fixedCleared g nm names fz).pushZone "h".toList) ((fixedCleared g nm names fz).pushZone "h".toList).faces = .ok g2 := f1
  rw [f1', left_bind_ok]
  refine Ends.bind (pr := id) (f2.levels fns _) (fun g3 h3 => ?_)
  refine Ends.weaken ?_ (postX_frame g3)
  rintro g4 ⟨zn, ze, zi, rfl⟩
  exact ⟨h3.points, h3.half, h3.alloc⟩
end

end Verif
