import Verif.Proofs.Left3
import Verif.Spec.Forget
import Verif.Props.Text

/-! Property C111: decompositions that raise. -/

namespace Verif.Props
open Verif Grid
variable {F R : Type} {S : Type} [LinearOrder S]

/-! ## C111 A decomposition that fails

The property would be: a decomposition call that raises leaves the grid as it was, or at least usable. It does not hold. -/

/-- The model with the grid left behind gives the values and the exceptions of the model used everywhere else. -/
theorem C111_agrees (c : DecompCall S) (g : Grid F R) : (c.runX g).plain = c.run g := call_plain c g

/-- Whatever the outcome, on any grid: nodes, edges, faces, their links, positions, data and identifiers are untouched, and the
name is the new one if one is given, also when the call raises. -/
theorem C111_surface (c : DecompCall S) (g : Grid F R) :
    SameMesh g (c.after g) ∧ (c.after g).name = c.newName.getD g.name := by
  have h := (blind_mesh g (c.newName.getD g.name)).call c c.newName (by cases c <;> rfl) (g := g)
    ⟨by constructor <;> rfl, rfl⟩
  unfold DecompCall.after
  cases hr : c.runX g with
  | ok g' => rw [hr] at h; exact h
  | error x => rw [hr] at h; exact h

/-- Which calls raise: `decompose_mono` never does. -/
theorem C111_mono_returns (g : Grid F R) (hw : Wf g) (nm : Option Str) :
    ∃ g', (.mono nm : DecompCall S).runX g = .ok g' := by
  obtain ⟨g', h, _⟩ := mono_spec g hw nm
  exact ⟨g', plain_eq_ok ((call_plain (.mono nm : DecompCall S) g).trans h)⟩

/-- `decompose_random` raises exactly for no zones and at least one face, after all zones are gone: if a face was in a zone not
marked as fixed, it is in no zone then. -/
theorem C111_random_raises_iff (g : Grid F R) (hw : Wf g) (rand : Nat → Nat) (count : Nat) (nm : Option Str)
    (hp : (.random rand count nm : DecompCall S).Possible) :
    (∃ e h, (.random rand count nm : DecompCall S).runX g = .error (e, h)) ↔ count = 0 ∧ g.faces ≠ [] := by
  constructor
  · rintro ⟨e, h, r⟩
    by_contra hc
    have hr : ∀ i, i < g.faces.length → rand i < count := by
      intro i hi
      refine hp i ?_
      by_contra h0
      exact hc ⟨by omega, fun k => by rw [k] at hi; simp at hi⟩
    obtain ⟨g', k, _⟩ := random_spec g hw rand count nm hr
    have := call_plain (.random rand count nm : DecompCall S) g
    rw [r, show (DecompCall.run g (.random rand count nm : DecompCall S)) = _ from k] at this
    cases this
  · rintro ⟨rfl, hf⟩
    obtain ⟨fz, h, _⟩ := randomX_zero g hw rand nm hf
    exact ⟨_, _, h⟩

/-- `decompose_linear` raises exactly for no zones, and for a negative number of zones if there is a face. -/
theorem C111_linear_raises_iff (g : Grid F R) (hw : Wf g) (count : Int) (nm : Option Str) :
    (∃ e h, (.linear count nm : DecompCall S).runX g = .error (e, h)) ↔ count = 0 ∨ (count < 0 ∧ g.faces ≠ []) := by
  constructor
  · rintro ⟨e, h, r⟩
    by_contra hc
    have hk : ∃ g', g.decomposeLinear count nm = .ok g' := by
      by_cases h0 : 0 < count
      · obtain ⟨n, rfl⟩ : ∃ n : Nat, count = n := ⟨count.toNat, by omega⟩
        obtain ⟨g', k, _⟩ := linear_spec g hw n (by omega) nm
        exact ⟨g', k⟩
      · have hneg : count < 0 := by omega
        have hf : g.faces = [] := by
          by_contra hf
          exact hc (.inr ⟨hneg, hf⟩)
        obtain ⟨g', k, _⟩ := linear_none hw count hneg hf nm
        exact ⟨g', k⟩
    obtain ⟨g', k⟩ := hk
    have := call_plain (.linear count nm : DecompCall S) g
    rw [r, show (DecompCall.run g (.linear count nm : DecompCall S)) = _ from k] at this
    cases this
  · rintro (rfl | ⟨hneg, hf⟩)
    · exact ⟨_, _, rfl⟩
    · obtain ⟨fz, h, _⟩ := linearX_neg g hw count hneg nm hf
      exact ⟨_, _, h⟩

/-- `decompose_farhat` raises exactly for a grid without faces, and for no zones if some face is outside the kept zones. -/
theorem C111_farhat_raises_iff (g : Grid F R) (hw : Wf g) (count : Nat) (nm : Option Str) (names : List Str) :
    (∃ e h, (.farhat count nm names : DecompCall S).runX g = .error (e, h)) ↔
      g.faces = [] ∨ (count = 0 ∧ ∃ f ∈ g.faces, OutsideKept g names f) := by
  have hx := call_plain (.farhat count nm names : DecompCall S) g
  constructor
  · rintro ⟨e, h, r⟩
    by_contra hc
    have hf : g.faces ≠ [] := fun k => hc (.inl k)
    have hk : ∃ g', g.decomposeFarhat count nm names = .ok g' := by
      by_cases h0 : 0 < count
      · obtain ⟨g', k, _⟩ := farhat_spec g hw count h0 hf nm names
        exact ⟨g', k⟩
      · obtain rfl : count = 0 := by omega
        have hall : ∀ f ∈ g.faces, ¬ OutsideKept g names f := fun f hf k => hc (.inr ⟨rfl, f, hf, k⟩)
        exact farhat_zero_returns g hw nm names hf hall
    obtain ⟨g', k⟩ := hk
    rw [r, show (DecompCall.run g (.farhat count nm names : DecompCall S)) = _ from k] at hx
    cases hx
  · rintro (hf | ⟨rfl, hf⟩)
    · cases hr : (.farhat count nm names : DecompCall S).runX g with
      | error x => exact ⟨x.1, x.2, rfl⟩
      | ok g' =>
        exfalso
        rw [hr] at hx
        exact farhat_empty_raises g hw count nm names hf hx.symm
    · obtain ⟨e, fz, zn, ze, zi, h, _⟩ := farhatX_zero g hw nm names hf
      exact ⟨_, _, h⟩

/-- Asked for no zones, `decompose_linear` raises before it does anything but setting the name. -/
theorem C111_linear_zero (g : Grid F R) (nm : Option Str) :
    (.linear 0 nm : DecompCall S).runX g = .error (.zeroDiv, { g with name := nm.getD g.name }) := rfl

/-- Asked for no zones (or for less than none, or for no levels), the other calls first take the faces out of their zones and
then raise: the grid is left with faces in no zone, and, but for kept ones, without zones. -/
theorem C111_stuck_violation (g : Grid F R) (hw : Wf g) (nm : Option Str) :
    (∀ rand, (∃ f ∈ g.faces, InFreeZone g f) → ∃ e h, (.random rand 0 nm : DecompCall S).runX g = .error (e, h) ∧
      Stuck h ∧ h.zones = []) ∧
    (∀ count < 0, (∃ f ∈ g.faces, InFreeZone g f) → ∃ e h, (.linear count nm : DecompCall S).runX g = .error (e, h) ∧
      Stuck h ∧ h.zones = []) ∧
    (∀ names, (∃ f ∈ g.faces, OutsideKept g names f) → ∃ e h, (.farhat 0 nm names : DecompCall S).runX g = .error (e, h) ∧
      Stuck h ∧ h.zones = keptZones g names) ∧
    (∀ fns names, (∃ f ∈ g.faces, OutsideKept g names f) → ∃ e h, (.hierarchical fns 0 nm names : DecompCall S).runX g = .error (e, h) ∧
      Stuck h ∧ h.zones = keptZones g names) := by
  refine ⟨?_, ?_, ?_, ?_⟩
  · rintro rand ⟨f, hf, ho⟩
    obtain ⟨fz, h, k⟩ := randomX_zero g hw rand nm (List.ne_nil_of_mem hf)
    exact ⟨_, _, h, ⟨f, hf, k f hf ho⟩, rfl⟩
  · rintro count hc ⟨f, hf, ho⟩
    obtain ⟨fz, h, k⟩ := linearX_neg g hw count hc nm (List.ne_nil_of_mem hf)
    exact ⟨_, _, h, ⟨f, hf, k f hf ho⟩, rfl⟩
  · rintro names ⟨f, hf, ho⟩
    obtain ⟨e, fz, zn, ze, zi, h, k⟩ := farhatX_zero g hw nm names ⟨f, hf, ho⟩
    exact ⟨_, _, h, ⟨f, hf, k f hf ho⟩, rfl⟩
  · rintro fns names ⟨f, hf, ho⟩
    obtain ⟨fz, h, k⟩ := hierX_zero g hw fns nm names
    exact ⟨_, _, h, ⟨f, hf, k f hf ho⟩, rfl⟩

/-- A grid with a face in no zone stays so: every later decomposition call raises, in whatever order they are tried, also those
that would be right otherwise. -/
theorem C111_stuck_forever (g : Grid F R) (h : Stuck g) (cs : List (DecompCall S)) :
    Stuck (cs.foldl DecompCall.after g) ∧ ∀ c : DecompCall S, ∃ e h', c.runX (cs.foldl DecompCall.after g) = .error (e, h') ∧
      (e = .attr ∨ (e = .zeroDiv ∧ ∃ nm, c = .linear 0 nm)) := by
  have hs : Stuck (cs.foldl DecompCall.after g) := by
    induction cs generalizing g with
    | nil => exact h
    | cons c cs ih =>
      refine ih (c.after g) ?_
      obtain ⟨e, g', r, k, _⟩ := call_stuck c h
      unfold DecompCall.after
      rw [r]
      exact k
  refine ⟨hs, fun c => ?_⟩
  obtain ⟨e, g', r, _, k⟩ := call_stuck c hs
  exact ⟨e, g', r, k⟩

/-- A call of `decompose_hierarchical` with at least one level that raises can be caught: a call after it which makes only new
zones gives the same zones as on the grid before the failure: same names, identifiers, nodes, edges and faces in the same
order. (Partial: not after the failures above.) -/
theorem C111_recovers_partial {g h g' : Grid F R} (hw : Wf g) (fns : List (Nat → S)) (levels : Nat) (hlv : 1 ≤ levels) (nm : Option Str)
    (names : List Str) (e : Err) (r : (.hierarchical fns levels nm names : DecompCall S).runX g = .error (e, h)) (c : DecompCall S)
    (hp : c.Possible)
    (hc : (∃ nm', c = .mono nm') ∨ (∃ rand count nm', c = .random rand count nm') ∨ (∃ count nm', c = .linear count nm'))
    (q : c.run g = .ok g') :
    ∃ h', c.run h = .ok h' ∧ Wf h' ∧ SameMesh g' h' ∧ zoneTable h' = zoneTable g' := by
  have hsm : SameMesh g h := by
    have := (C111_surface (.hierarchical fns levels nm names : DecompCall S) g).1
    unfold DecompCall.after at this
    rw [r] at this
    exact this
  have hl := hierX_loose g hw fns levels hlv nm names
  have r' : g.decomposeHierarchicalX fns levels nm names = .error (e, h) := r
  rw [r'] at hl
  have hl : LooseZones h := hl
  have lh : Loose h := by
    refine ⟨hw.mesh.congr hsm, fun f hf => ?_⟩
    cases hz : h.fZone f with
    | none => exact absurd hz (hl.points f hf)
    | some z =>
      obtain ⟨k1, k2⟩ := hl.half f hf z hz
      exact ⟨z, rfl, k1, k2⟩
  have hg' : SameMesh g g' := (call_ok g g' hw c hp q).same
  rcases hc with ⟨nm', rfl⟩ | ⟨rand, count, nm', rfl⟩ | ⟨count, nm', rfl⟩
  · obtain ⟨h', k1, k2, k3⟩ := mono_forgets hw lh hsm nm' q
    obtain ⟨h2, k4, k5, _⟩ := mono_spec h lh nm'
    rw [k1] at k4; cases k4
    exact ⟨h', k1, k5.wf lh.mesh, k2, k3⟩
  · obtain ⟨h', k1, k2, k3⟩ := random_forgets hw lh hsm rand count nm' hp q
    have hpos := random_positive lh rand count nm' k1
    obtain ⟨h2, k4, k5, _⟩ := random_spec h lh rand count nm' (by
      intro i hi
      rcases hpos with k | k
      · exact hp i k
      · rw [k] at hi; simp at hi)
    rw [k1] at k4; cases k4
    exact ⟨h', k1, k5.wf lh.mesh, k2, k3⟩
  · obtain ⟨h', k1, k2, k3⟩ := linear_forgets hw lh hsm count nm' q
    refine ⟨h', k1, ?_, k2, k3⟩
    by_cases h0 : 0 < count
    · obtain ⟨n, rfl⟩ : ∃ n : Nat, count = n := ⟨count.toNat, by omega⟩
      obtain ⟨h2, k4, k5, _⟩ := linear_spec h lh n (by omega) nm'
      rw [k1] at k4; cases k4
      exact k5.wf lh.mesh
    · obtain ⟨c1, c2⟩ := linear_neg lh count h0 nm' k1
      obtain ⟨h2, k4, k5, _⟩ := linear_none lh count c1 c2 nm'
      rw [k1] at k4; cases k4
      exact k5.wf lh.mesh

/-- After such a failure the file written has the head only; all zones and faces are missing, without complaint. -/
theorem C111_store_violation (g : Grid F R) (hw : Wf g) (nm : Option Str) (rand : Nat → Nat) (hf : g.faces ≠ []) (cd : Codec F) (dflt : F) :
    ∃ ls, ((.random rand 0 nm : DecompCall S).after g).storeLines cd dflt = .ok ls ∧ ls.length = 3 := by
  obtain ⟨fz, h, _⟩ := randomX_zero g hw rand nm hf
  have h : (.random rand 0 nm : DecompCall S).runX g = .error (.value, cleared g nm fz) := h
  unfold DecompCall.after
  rw [h]
  cases hl : g.faces with
  | nil => exact absurd hl hf
  | cons f l =>
    have hh : (cleared g nm fz).storeLines cd dflt = .ok (headLines (nm.getD g.name)
        (["X".toList, "Y".toList, "Z".toList] ++ (g.fData f).map Prod.fst)) := by
      unfold storeLines
      rw [show (cleared g nm fz).faces = f :: l from hl]
      rfl
    exact ⟨_, hh, rfl⟩

/-- The file written after a failure is loaded as a grid without faces. -/
theorem C111_reload_violation : ∃ (text : Str) (g' : Grid Int (Int × Int × Int)),
    ((.random (fun _ => 0) 0 none : DecompCall Int).after Sample.grid).storeText intCodec 0 = .ok text ∧
    loadText Sample.rc intCodec true Sample.new text = .ok g' ∧ g'.faces = [] ∧ Sample.grid.faces.length = 3 := by
  have h : (match ((.random (fun _ => 0) 0 none : DecompCall Int).after Sample.grid).storeText intCodec 0 with
    | .ok text => match loadText Sample.rc intCodec true Sample.new text with
      | .ok g' => decide (g'.faces = [] ∧ Sample.grid.faces.length = 3)
      | .error _ => false
    | .error _ => false) = true := by decide +kernel
  split at h
  · rename_i text r1
    split at h
    · rename_i g' r2
      exact ⟨text, g', r1, r2, of_decide_eq_true h⟩
    · cases h
  · cases h

/-- Faces of the sample are in a zone which is not marked as fixed and whose name is not kept. -/
example : (∃ f ∈ Sample.grid.faces, InFreeZone Sample.grid f) ∧ (∃ f ∈ Sample.grid.faces, OutsideKept Sample.grid [] f) ∧
    Wf Sample.grid := by
  have hz : ∃ f ∈ Sample.grid.faces, ∃ z, Sample.grid.fZone f = some z ∧ Sample.grid.zFixed z = false :=
    ⟨0, by decide +kernel, 0, by decide +kernel, by decide +kernel⟩
  obtain ⟨f, hf, z, h1, h2⟩ := hz
  exact ⟨⟨f, hf, z, h1, h2⟩, ⟨f, hf, z, h1, by simp⟩, Sample.wf⟩

/-- A hierarchical decomposition of the sample with two levels and no sign functions raises; afterwards
`decompose_linear` returns. -/
example : ∃ (e : Err) (h g' : Grid Int (Int × Int × Int)),
    (.hierarchical [] 2 none [] : DecompCall Int).runX Sample.grid = .error (e, h) ∧
    (.linear 2 none : DecompCall Int).run Sample.grid = .ok g' := by
  have h : (match (.hierarchical [] 2 none [] : DecompCall Int).runX Sample.grid with
    | .ok _ => false
    | .error _ => ((.linear 2 none : DecompCall Int).run Sample.grid).isOk) = true := by decide +kernel
  split at h
  · cases h
  · rename_i x r
    cases hr : (.linear 2 none : DecompCall Int).run Sample.grid with
    | ok g' => exact ⟨x.1, x.2, g', r, rfl⟩
    | error e => rw [hr] at h; cases h

end Verif.Props
