import Verif.Proofs.Sim3
import Verif.Proofs.Sample

/-! Property C108: decompositions forget earlier decompositions. -/

namespace Verif.Props
open Verif Grid
variable {F R : Type} {S : Type} [LinearOrder S]

/-- Two grids with the same surface, decomposed before in different ways.  If the zones a call is told to keep have the same names and
faces in both, the call gives the same zones: same names, identifiers, nodes, edges and faces, all in the same order. -/
theorem C108_forgets {g h g' : Grid F R} (wg : Wf g) (wh : Wf h) (sm : SameMesh g h) (c : DecompCall S) (hp : c.Possible)
    (kt : keptTable h c.fixed = keptTable g c.fixed) (r : c.run g = .ok g') :
    ∃ h', c.run h = .ok h' ∧ SameMesh g' h' ∧ zoneTable h' = zoneTable g' := call_forgets wg wh sm c hp kt r

/-- A call returns on one of the grids exactly when it returns on the other. -/
theorem C108_returns_iff {g h : Grid F R} (wg : Wf g) (wh : Wf h) (sm : SameMesh g h) (c : DecompCall S) (hp : c.Possible)
    (kt : keptTable h c.fixed = keptTable g c.fixed) : (∃ g', c.run g = .ok g') ↔ ∃ h', c.run h = .ok h' := by
  constructor
  · rintro ⟨g', r⟩
    obtain ⟨h', q, _⟩ := call_forgets wg wh sm c hp kt r
    exact ⟨h', q⟩
  · rintro ⟨h', r⟩
    obtain ⟨g', q, _⟩ := call_forgets wh wg ((SameMesh.refl g).both sm (SameMesh.refl g)) c hp kt.symm r
    exact ⟨g', q⟩

/-- The name of the grid after the call is the new name, or the old one if none is given. -/
theorem C108_name {g g' : Grid F R} (wg : Wf g) (c : DecompCall S) (hp : c.Possible) (r : c.run g = .ok g') :
    g'.name = c.newName.getD g.name := call_name wg c hp r

/-- The files written after the call are the same for both grids: the files for the processes in any case, the file of the grid if the
names of the grids agree or the call gives a new one. -/
theorem C108_files {g h g' h' : Grid F R} (wg : Wf g) (wh : Wf h) (sm : SameMesh g h) (c : DecompCall S) (hp : c.Possible)
    (kt : keptTable h c.fixed = keptTable g c.fixed) (r : c.run g = .ok g') (q : c.run h = .ok h') (dflt : F) :
    h'.storeMpi dflt = g'.storeMpi dflt ∧
    (c.newName.getD h.name = c.newName.getD g.name → ∀ cd : Codec F, h'.storeText cd dflt = g'.storeText cd dflt) := by
  obtain ⟨h2, q2, sm', zt⟩ := call_forgets wg wh sm c hp kt r
  rw [q] at q2
  cases q2
  have dg := call_ok g g' wg c hp r
  have dh := call_ok h h' wh c hp q
  refine ⟨storeMpi_forgets (dg.wf wg.mesh).mesh sm' dg.zones dh.zones dg.lists zt dflt, ?_⟩
  intro hn cd
  refine storeText_forgets sm' zt ?_ cd dflt
  rw [call_name wg c hp r, call_name wh c hp q, hn]

/-- A call gives the same when it is repeated, if the zones it is told to keep are the same as before. -/
theorem C108_repeat {g g' : Grid F R} (wg : Wf g) (c : DecompCall S) (hp : c.Possible)
    (kt : keptTable g' c.fixed = keptTable g c.fixed) (r : c.run g = .ok g') :
    ∃ g'', c.run g' = .ok g'' ∧ SameMesh g' g'' ∧ zoneTable g'' = zoneTable g' := by
  have dg := call_ok g g' wg c hp r
  exact call_forgets wg (dg.wf wg.mesh) dg.same c hp kt r

/-- A call which keeps no zones asks for nothing. -/
theorem C108_nothing_kept (g h : Grid F R) : keptTable h [] = keptTable g [] := by
  unfold keptTable keptZones
  simp

/-- A loaded grid decomposed any number of times in any way, and then by a call which keeps no zones: the zones and the files
for the processes are those of the call on the loaded grid. -/
theorem C108_history [DecidableEq R] (rc : Vec F → R) (g0 g g1 : Grid F R)
    (blocks : List (ZoneBlock F)) (hd : NonDegenerate rc true blocks) (h0 : loadBlocks rc true g0 blocks = .ok g)
    (cs : List (DecompCall S)) (hps : ∀ c ∈ cs, c.Possible) (h : cs.foldlM DecompCall.run g = .ok g1)
    (c : DecompCall S) (hp : c.Possible) (hf : c.fixed = []) :
    ((∃ g', c.run g = .ok g') ↔ ∃ h', c.run g1 = .ok h') ∧
    ∀ g' h', c.run g = .ok g' → c.run g1 = .ok h' → SameMesh g' h' ∧ zoneTable h' = zoneTable g' ∧
      (∀ dflt, h'.storeMpi dflt = g'.storeMpi dflt) ∧
      (c.newName.isSome → ∀ dflt (cd : Codec F), h'.storeText cd dflt = g'.storeText cd dflt) := by
  rcases load_spec rc true g0 blocks (load_valid rc true g0 g blocks h0) hd (by intro h; cases h) with ⟨_, h2⟩ | ⟨_, g2, h2, h3⟩
  · rw [h0] at h2; cases h2
  · rw [h0] at h2; obtain rfl := Except.ok.inj h2
    have wg : Wf g := ⟨h3.mesh, h3.zones, h3.alloc⟩
    have k := calls_ok cs hps g g1 wg h3.lists h
    have kt : keptTable g1 c.fixed = keptTable g c.fixed := by rw [hf]; exact C108_nothing_kept g g1
    refine ⟨C108_returns_iff wg k.2.1 k.1 c hp kt, ?_⟩
    intro g' h' r q
    obtain ⟨h'', q2, sm', zt⟩ := call_forgets wg k.2.1 k.1 c hp kt r
    rw [q] at q2
    cases q2
    refine ⟨sm', zt, fun dflt => (C108_files wg k.2.1 k.1 c hp kt r q dflt).1, ?_⟩
    intro hn dflt cd
    refine (C108_files wg k.2.1 k.1 c hp kt r q dflt).2 ?_ cd
    obtain ⟨x, hx⟩ := Option.isSome_iff_exists.1 hn
    rw [hx]
    rfl

/-- Told to keep a zone with the name it gives itself, a call gives something else when it is repeated: the zones are one more. -/
theorem C108_repeat_kept_violation : ∃ g1 g2 : Grid Int (Int × Int × Int),
    (.farhat 2 none ["farhat 0".toList] : DecompCall Int).run Sample.grid = .ok g1 ∧
    (.farhat 2 none ["farhat 0".toList] : DecompCall Int).run g1 = .ok g2 ∧ g1.zones.length = 2 ∧ g2.zones.length = 3 := by
  have h : (match (.farhat 2 none ["farhat 0".toList] : DecompCall Int).run Sample.grid with
    | .ok g1 => match (.farhat 2 none ["farhat 0".toList] : DecompCall Int).run g1 with
      | .ok g2 => decide (g1.zones.length = 2 ∧ g2.zones.length = 3)
      | .error _ => false
    | .error _ => false) = true := by decide +kernel
  split at h
  · rename_i g1 r1
    split at h
    · rename_i g2 r2
      exact ⟨g1, g2, r1, r2, of_decide_eq_true h⟩
    · cases h
  · cases h

/-- Two grids with the same surface and different objects as zones, and a call which keeps a zone both have with the same faces. -/
example : ∃ g1 g2 : Grid Int (Int × Int × Int), Wf g1 ∧ Wf g2 ∧ SameMesh g1 g2 ∧ g1.zones ≠ g2.zones ∧
    keptTable g2 ["linear 0".toList] = keptTable g1 ["linear 0".toList] ∧ keptTable g1 ["linear 0".toList] ≠ [] ∧
    ∃ g3, (.farhat 2 none ["linear 0".toList] : DecompCall Int).run g1 = .ok g3 := by
  have h : (match (.linear 2 none : DecompCall Int).run Sample.grid with
    | .ok g1 => match (.farhat 1 none ["linear 0".toList] : DecompCall Int).run g1 with
      | .ok g2 => decide (g1.zones ≠ g2.zones ∧ keptTable g2 ["linear 0".toList] = keptTable g1 ["linear 0".toList] ∧
          keptTable g1 ["linear 0".toList] ≠ []) && ((.farhat 2 none ["linear 0".toList] : DecompCall Int).run g1).isOk
      | .error _ => false
    | .error _ => false) = true := by decide +kernel
  split at h
  · rename_i g1 r1
    split at h
    · rename_i g2 r2
      rw [Bool.and_eq_true] at h
      have d1 := call_ok Sample.grid g1 Sample.wf (.linear 2 none : DecompCall Int) trivial r1
      have w1 := d1.wf Sample.wf.mesh
      have d2 := call_ok g1 g2 w1 (.farhat 1 none ["linear 0".toList] : DecompCall Int) trivial r2
      obtain ⟨a, b, c⟩ := of_decide_eq_true h.1
      refine ⟨g1, g2, w1, d2.wf w1.mesh, d2.same, a, b, c, ?_⟩
      cases hr : (.farhat 2 none ["linear 0".toList] : DecompCall Int).run g1 with
      | ok g3 => exact ⟨g3, rfl⟩
      | error e => rw [hr] at h; cases h.2
    · cases h
  · cases h

end Verif.Props
