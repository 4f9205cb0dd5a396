import Verif.Proofs.Left

/-! What holds of the grid after a decomposition call whatever its outcome. -/

namespace Verif
open Grid
variable {F R : Type}

/-- `P` holds of the grid in the value, and of the grid left behind if there is none. -/
def Ends {α : Type} (P : Grid F R → Prop) (pr : α → Grid F R) : Left F R α → Prop
  | .ok a => P (pr a)
  | .error (_, g) => P g

theorem Ends.bind {α β : Type} {P : Grid F R → Prop} {pr : α → Grid F R} {pr' : β → Grid F R} {x : Left F R α}
    {f : α → Left F R β} (h : Ends P pr x) (hf : ∀ a, P (pr a) → Ends P pr' (f a)) : Ends P pr' (x >>= f) := by
  cases x with
  | ok a => exact hf a h
  | error e => exact h

theorem Ends.bind_here {α β : Type} {P : Grid F R → Prop} {pr' : β → Grid F R} {g : Grid F R} {r : Res α}
    {f : α → Left F R β} (h : P g) (hf : ∀ a, r = .ok a → Ends P pr' (f a)) : Ends P pr' (g.here r >>= f) := by
  cases r with
  | ok a => exact hf a rfl
  | error e => exact h

theorem Ends.here {α : Type} {P : Grid F R → Prop} {pr : α → Grid F R} {g : Grid F R} {r : Res α}
    (h : P g) (hf : ∀ a, r = .ok a → P (pr a)) : Ends P pr (g.here r) := by
  cases r with
  | ok a => exact hf a rfl
  | error e => exact h

theorem Ends.foldlM {α β : Type} {P : Grid F R → Prop} {pr : β → Grid F R} {f : β → α → Left F R β} {l : List α} {s : β}
    (h : P (pr s)) (hf : ∀ s, ∀ a ∈ l, P (pr s) → Ends P pr (f s a)) : Ends P pr (l.foldlM f s) := by
  induction l generalizing s with
  | nil => exact h
  | cons a l ih =>
    rw [List.foldlM_cons]
    exact Ends.bind (hf s a (by simp) h) (fun s' hs' => ih hs' (fun s b hb => hf s b (by simp [hb])))

theorem Ends.weaken {α : Type} {P Q : Grid F R → Prop} {pr : α → Grid F R} (h : ∀ g, P g → Q g) {x : Left F R α} (hx : Ends P pr x) :
    Ends Q pr x := by
  cases x with
  | ok a => exact h _ hx
  | error e => exact h _ hx

/-- A property of grids which only concerns what decompositions do not touch. -/
structure Blind (P : Grid F R → Prop) : Prop where
  /-- changes of zones, and of the marks of faces -/
  blind : ∀ (g : Grid F R) zs fz zi zm zn ze zf zx nx fm, P g → P { g with
    zones := zs, fZone := fz, zId := zi, zName := zm, zNodes := zn, zEdges := ze, zFaces := zf, zFixed := zx, zNext := nx,
    fMark := fm }

theorem blind_mesh (g0 : Grid F R) (N : Str) : Blind (fun g : Grid F R => SameMesh g0 g ∧ g.name = N) := by
  constructor
  rintro g zs fz zi zm zn ze zf zx nx fm ⟨h, e⟩
  exact ⟨h.trans (by constructor <;> rfl), e⟩

variable {P : Grid F R → Prop}

theorem Blind.addFace (b : Blind P) {g g' : Grid F R} {z f : Nat} (h : P g) (r : g.zoneAddFace z f = .ok g') : P g' := by
  obtain ⟨zf, fz, rfl⟩ := zoneAddFace_frame r
  exact b.blind g g.zones fz g.zId g.zName g.zNodes g.zEdges zf g.zFixed g.zNext g.fMark h

theorem Blind.unlinkStep (b : Blind P) {g g' : Grid F R} {f : Nat} (h : P g) (r : g.unlinkStep f = .ok g') : P g' := by
  unfold Grid.unlinkStep at r
  split at r
  · cases r
  · cases r
    split
    · exact b.blind g g.zones _ g.zId g.zName g.zNodes g.zEdges g.zFaces g.zFixed g.zNext g.fMark h
    · exact h

theorem Blind.unlink (b : Blind P) {g : Grid F R} (h : P g) : Ends P id g.unlinkFacesFromZonesX :=
  Ends.foldlM h (fun _ _ _ hs => Ends.here hs (fun _ r => b.unlinkStep hs r))

theorem Blind.newZone (b : Blind P) {g : Grid F R} (nm : Str) (h : P g) : P (g.newZone nm) :=
  b.blind g g.zones g.fZone _ _ _ _ _ _ _ g.fMark h

theorem Blind.pushZone (b : Blind P) {g : Grid F R} (nm : Str) (h : P g) : P (g.pushZone nm) :=
  b.blind g _ g.fZone _ _ _ _ _ _ _ g.fMark h

theorem Blind.pushZones (b : Blind P) {g : Grid F R} (nms : List Str) (h : P g) : P (g.pushZones nms) := by
  unfold Grid.pushZones
  induction nms generalizing g with
  | nil => exact h
  | cons a l ih => exact ih (b.pushZone a h)

theorem Blind.zones (b : Blind P) {g : Grid F R} (zs : List Nat) (h : P g) : P { g with zones := zs } :=
  b.blind g zs g.fZone g.zId g.zName g.zNodes g.zEdges g.zFaces g.zFixed g.zNext g.fMark h

theorem Blind.setIds (b : Blind P) {g : Grid F R} (h : P g) : P g.setZonesIds :=
  b.blind g g.zones g.fZone _ g.zName g.zNodes g.zEdges g.zFaces g.zFixed g.zNext g.fMark h

theorem Blind.resetIds (b : Blind P) {g : Grid F R} (h : P g) : P g.resetZonesIds :=
  b.blind g g.zones g.fZone _ g.zName g.zNodes g.zEdges g.zFaces g.zFixed g.zNext g.fMark h

theorem Blind.markFixed (b : Blind P) {g : Grid F R} (names : List Str) (h : P g) : P (g.markFixed names) :=
  b.blind g g.zones g.fZone g.zId g.zName g.zNodes g.zEdges g.zFaces _ g.zNext g.fMark h

theorem Blind.addNode (b : Blind P) {g : Grid F R} (z n : Nat) (h : P g) : P (g.zoneAddNode z n) :=
  b.blind g g.zones g.fZone g.zId g.zName _ g.zEdges g.zFaces g.zFixed g.zNext g.fMark h

theorem Blind.addEdge (b : Blind P) {g : Grid F R} (z n : Nat) (h : P g) : P (g.zoneAddEdge z n) :=
  b.blind g g.zones g.fZone g.zId g.zName g.zNodes _ g.zFaces g.zFixed g.zNext g.fMark h

theorem Blind.post (b : Blind P) {g : Grid F R} (h : P g) : Ends P id g.postDecomposeX := by
  unfold postDecomposeX linkNodesAndEdgesToZonesX
  refine Ends.bind (pr := id) (Ends.bind (pr := id) ?_ (fun g1 h1 => Ends.bind (pr := id) ?_ (fun g2 h2 => b.resetIds h2))) (fun g1 h1 => ?_)
  · refine Ends.foldlM (pr := id) (b.setIds (b.blind g g.zones g.fZone g.zId g.zName _ _ g.zFaces g.zFixed g.zNext g.fMark h)) ?_
    intro s n _ hs
    refine Ends.bind_here hs (fun ids _ => Ends.foldlM (pr := id) hs ?_)
    intro s a _ hs
    exact Ends.bind_here hs (fun z _ => b.addNode z n hs)
  · refine Ends.foldlM (pr := id) h1 ?_
    intro s n _ hs
    refine Ends.bind_here hs (fun ids _ => Ends.foldlM (pr := id) hs ?_)
    intro s a _ hs
    exact Ends.bind_here hs (fun z _ => b.addEdge z n hs)
  · exact Ends.bind_here h1 (fun _ _ => b.setIds h1)

theorem Blind.mono (b : Blind P) {g : Grid F R} (nm : Option Str) (h : P (g.rename nm)) : Ends P id (g.decomposeMonoX nm) := by
  unfold decomposeMonoX
  refine Ends.bind (pr := id) (b.unlink (b.zones [] h)) (fun g1 h1 => ?_)
  refine Ends.bind (pr := id) (Ends.foldlM (pr := id) (b.pushZone _ h1) ?_) (fun g2 h2 => b.post h2)
  intro s f _ hs
  exact Ends.here hs (fun _ r => b.addFace hs r)

theorem Blind.random (b : Blind P) {g : Grid F R} (rand : Nat → Nat) (count : Nat) (nm : Option Str) (h : P (g.rename nm)) :
    Ends P id (g.decomposeRandomX rand count nm) := by
  unfold decomposeRandomX
  refine Ends.bind (pr := id) (b.unlink (b.zones [] h)) (fun g1 h1 => ?_)
  refine Ends.bind (pr := id) (Ends.foldlM (pr := id) (b.pushZones _ h1) ?_) (fun g2 h2 => b.post h2)
  intro s f _ hs
  split
  · exact hs
  · exact Ends.bind_here hs (fun z _ => Ends.here hs (fun _ r => b.addFace hs r))

theorem Blind.linear (b : Blind P) {g : Grid F R} (count : Int) (nm : Option Str) (h : P (g.rename nm)) :
    Ends P id (g.decomposeLinearX count nm) := by
  unfold decomposeLinearX
  simp only
  split
  · exact h
  · refine Ends.bind (pr := id) (b.unlink (b.zones [] h)) (fun g1 h1 => ?_)
    refine Ends.bind (pr := Prod.fst) (Ends.foldlM (pr := Prod.fst) (b.pushZones _ h1) ?_) ?_
    · intro s p _ hs
      refine Ends.bind (pr := id) (Ends.foldlM (pr := id) hs ?_) (fun g2 h2 => h2)
      intro s j _ hs
      exact Ends.bind_here hs (fun z _ => Ends.here hs (fun _ r => b.addFace hs r))
    · rintro ⟨g2, cur⟩ h2
      simp only
      split
      · exact h2
      · exact b.post h2

theorem Blind.bfs (b : Blind P) {g : Grid F R} {st : Nat} {pred : Nat → Bool} {x : Grid F R × List Nat} (h : P g)
    (r : g.bfsPath st pred = .ok x) : P x.1 := by
  unfold bfsPath at r
  simp only [res_bind_eq_ok] at r
  obtain ⟨⟨m, p⟩, _, r⟩ := r
  cases r
  exact b.blind g g.zones g.fZone g.zId g.zName g.zNodes g.zEdges g.zFaces g.zFixed g.zNext m h

theorem Blind.farhat (b : Blind P) {g : Grid F R} (count : Nat) (nm : Option Str) (names : List Str)
    (h : P (g.rename nm)) : Ends P id (g.decomposeFarhatX count nm names) := by
  unfold decomposeFarhatX
  refine Ends.bind (pr := id) (b.unlink (b.zones _ (b.markFixed names h))) (fun g1 h1 => ?_)
  refine Ends.bind_here (b.pushZones _ h1) (fun st _ => ?_)
  refine Ends.bind (pr := Prod.fst) (Ends.foldlM (pr := Prod.fst) (b.pushZones _ h1) ?_) (fun ⟨g2, _⟩ h2 => b.post h2)
  intro s p _ hs
  refine Ends.bind_here hs (fun ⟨g3, path⟩ r => ?_)
  refine Ends.bind (pr := id) (Ends.foldlM (pr := id) (b.bfs hs r) ?_) (fun g2 h2 => h2)
  intro s j _ hs
  exact Ends.bind_here hs (fun z _ => Ends.here hs (fun _ r => b.addFace hs r))

section
variable {S : Type} [LT S] [LE S] [DecidableLT S] [DecidableLE S]

theorem metric_frame {g : Grid F R} {zone zl zr : Nat} {fn : Nat → S} {x : Grid F R × Option Nat}
    (r : g.splitZoneMetric zone zl zr fn = .ok x) : ∃ fz, x.1 = { g with fZone := fz } ∧
      ∀ f, fz f = g.fZone f ∨ fz f = some zl ∨ fz f = some zr ∨ fz f = some zone := by
  unfold splitZoneMetric at r
  simp only [res_bind_eq_ok] at r
  obtain ⟨blade, _, r⟩ := r
  have key : ∀ f, ((g.zFaces zone).foldl (fun m f => upd m f (some (if fn f < blade then zl else zr))) g.fZone) f =
      if f ∈ g.zFaces zone then some (if fn f < blade then zl else zr) else g.fZone f :=
    fun f => foldl_upd_const (g.zFaces zone) g.fZone (fun f => some (if fn f < blade then zl else zr)) f
  split at r
  · cases r
    refine ⟨_, rfl, fun f => ?_⟩
    rw [key f]
    split
    · split <;> simp
    · exact .inl rfl
  · cases r
    refine ⟨_, rfl, fun f => ?_⟩
    rw [foldl_upd_const (g.zFaces zone) _ (fun _ => some zone) f]
    split
    · simp
    · rename_i hc
      rw [key f, if_neg hc]
      exact .inl rfl

theorem Blind.metrics (b : Blind P) (zone zl zr : Nat) (fns : List (Nat → S)) {g : Grid F R} (h : P g) :
    Ends P Prod.fst (splitMetricsX zone zl zr fns g) := by
  induction fns generalizing g with
  | nil => exact h
  | cons fn fns ih =>
    unfold splitMetricsX
    refine Ends.bind_here h (fun ⟨g1, m⟩ r => ?_)
    obtain ⟨fz, e, _⟩ := metric_frame r
    simp only at e
    subst e
    exact Ends.bind (ih (b.blind g g.zones fz g.zId g.zName g.zNodes g.zEdges g.zFaces g.zFixed g.zNext g.fMark h)) (fun ⟨_, _⟩ h2 => h2)

theorem Blind.splitZone (b : Blind P) (zone : Nat) (fns : List (Nat → S)) {g : Grid F R} (h : P g) :
    Ends P id (g.splitZoneX zone fns) := by
  unfold splitZoneX
  split
  · exact Ends.bind_here h (fun l _ => b.zones _ h)
  split
  · exact Ends.bind_here h (fun l _ => b.zones _ h)
  have h2 := b.newZone ((g.newZone (g.zName zone ++ ['l'])).zName zone ++ ['r']) (b.newZone (g.zName zone ++ ['l']) h)
  refine Ends.bind_here h2 (fun l _ => ?_)
  refine Ends.bind (b.metrics zone _ _ fns (b.zones _ h2)) (fun ⟨g1, ms⟩ h3 => ?_)
  replace h3 : P g1 := h3
  simp only
  split
  · exact h3
  split
  · exact Ends.bind_here h3 (fun l _ => b.zones _ h3)
  · split
    · exact h3
    · refine Ends.bind_here h3 (fun _ _ => ?_)
      refine Ends.bind (pr := id) (Ends.foldlM (pr := id) h3 ?_) (fun g4 h4 => Ends.foldlM (pr := id) h4 ?_)
      · intro s f _ hs
        exact Ends.here hs (fun _ r => b.addFace hs r)
      · intro s f _ hs
        exact Ends.here hs (fun _ r => b.addFace hs r)

theorem levelX_ends (fns : List (Nat → S)) (hz : ∀ g zone, P g → Ends P id (g.splitZoneX zone fns)) (c : Nat) {g : Grid F R} (h : P g) :
    Ends P id (splitLevelX fns c g) := by
  induction c generalizing g with
  | zero => exact h
  | succ c ih =>
    unfold splitLevelX
    exact Ends.bind_here h (fun z _ => Ends.bind (pr := id) (hz g z h) (fun g1 h1 => ih h1))

theorem levelsX_ends (fns : List (Nat → S)) (hz : ∀ g zone, P g → Ends P id (g.splitZoneX zone fns)) (k : Nat) {g : Grid F R} (h : P g) :
    Ends P id (splitLevelsX fns k g) := by
  induction k generalizing g with
  | zero => exact h
  | succ c ih =>
    unfold splitLevelsX
    exact Ends.bind (pr := id) (levelX_ends fns hz _ h) (fun g1 h1 => ih h1)

theorem Blind.hier (b : Blind P) {g : Grid F R} (fns : List (Nat → S)) (levels : Nat) (nm : Option Str) (names : List Str)
    (h : P (g.rename nm)) : Ends P id (g.decomposeHierarchicalX fns levels nm names) := by
  unfold decomposeHierarchicalX
  refine Ends.bind (pr := id) (b.unlink (b.zones _ (b.markFixed names h))) (fun g1 h1 => ?_)
  simp only
  split
  · exact h1
  · refine Ends.bind (pr := id) (Ends.foldlM (pr := id) (b.pushZone _ h1) ?_) (fun g2 h2 => ?_)
    · intro s f _ hs
      split
      · exact Ends.here hs (fun _ r => b.addFace hs r)
      · exact hs
    · exact Ends.bind (pr := id) (levelsX_ends fns (fun g z h => b.splitZone z fns h) _ h2) (fun g3 h3 => b.post h3)

/-- A property of what decompositions do not touch, true after setting the name, is true after the call whatever its outcome. -/
theorem Blind.call (b : Blind P) (c : DecompCall S) (nm : Option Str)
    (hn : nm = match c with | .mono n => n | .random _ _ n => n | .linear _ n => n | .farhat _ n _ => n | .hierarchical _ _ n _ => n)
    {g : Grid F R} (h : P (g.rename nm)) : Ends P id (c.runX g) := by
  subst hn
  cases c with
  | mono nm => exact b.mono nm h
  | random rand count nm => exact b.random rand count nm h
  | linear count nm => exact b.linear count nm h
  | farhat count nm fixed => exact b.farhat count nm fixed h
  | hierarchical fns levels nm fixed => exact b.hier fns levels nm fixed h
end

/-! ### Grids with a face in no zone -/

theorem unlinkX_stuck {g : Grid F R} {f0 : Nat} (hf : f0 ∈ g.faces) (hz : g.fZone f0 = none) :
    ∃ g', g.unlinkFacesFromZonesX = .error (.attr, g') ∧ g'.fZone f0 = none ∧ g'.faces = g.faces := by
  unfold unlinkFacesFromZonesX
  suffices H : ∀ (l : List Nat) (s : Grid F R), s.faces = g.faces → s.fZone f0 = none → f0 ∈ l →
      ∃ g', l.foldlM (fun g f => g.here (g.unlinkStep f)) s = .error (.attr, g') ∧ g'.fZone f0 = none ∧ g'.faces = g.faces by
    exact H g.faces g rfl hz hf
  intro l
  induction l with
  | nil => intro s _ _ h; cases h
  | cons a l ih =>
    intro s h1 h2 h3
    rw [List.foldlM_cons]
    cases ha : s.fZone a with
    | none =>
      refine ⟨s, ?_, h2, h1⟩
      have : s.unlinkStep a = .error .attr := by unfold Grid.unlinkStep; rw [ha]
      rw [this]; rfl
    | some z =>
      have hne : f0 ≠ a := fun e => by rw [e, ha] at h2; cases h2
      have h3' : f0 ∈ l := by
        rcases List.mem_cons.1 h3 with h | h
        · exact absurd h hne
        · exact h
      have : s.unlinkStep a = .ok (if s.zFixed z = false then { s with fZone := upd s.fZone a none } else s) := by
        unfold Grid.unlinkStep; rw [ha]
      rw [this]
      show ∃ g', List.foldlM _ (if s.zFixed z = false then { s with fZone := upd s.fZone a none } else s) l = _ ∧ _
      split
      · refine ih _ h1 ?_ h3'
        show upd s.fZone a none f0 = none
        unfold upd
        rw [if_neg hne]
        exact h2
      · exact ih _ h1 h2 h3'

section
variable {S : Type} [LT S] [LE S] [DecidableLT S] [DecidableLE S]

theorem call_stuck (c : DecompCall S) {g : Grid F R} (h : Stuck g) : ∃ e g', c.runX g = .error (e, g') ∧ Stuck g' ∧
    (e = .attr ∨ (e = .zeroDiv ∧ ∃ nm, c = .linear 0 nm)) := by
  obtain ⟨f, hf, hz⟩ := h
  cases c with
  | mono nm =>
    obtain ⟨g', r, h1, h2⟩ := unlinkX_stuck (g := { g.rename nm with zones := [] }) hf hz
    refine ⟨.attr, g', ?_, ⟨f, by rw [h2]; exact hf, h1⟩, .inl rfl⟩
    show g.decomposeMonoX nm = _
    unfold decomposeMonoX
    simp only
    rw [r]; rfl
  | random rand count nm =>
    obtain ⟨g', r, h1, h2⟩ := unlinkX_stuck (g := { g.rename nm with zones := [] }) hf hz
    refine ⟨.attr, g', ?_, ⟨f, by rw [h2]; exact hf, h1⟩, .inl rfl⟩
    show g.decomposeRandomX rand count nm = _
    unfold decomposeRandomX
    simp only
    rw [r]; rfl
  | linear count nm =>
    by_cases h0 : count = 0
    · subst h0
      exact ⟨.zeroDiv, g.rename nm, rfl, ⟨f, hf, hz⟩, .inr ⟨rfl, nm, rfl⟩⟩
    · obtain ⟨g', r, h1, h2⟩ := unlinkX_stuck (g := { g.rename nm with zones := [] }) hf hz
      refine ⟨.attr, g', ?_, ⟨f, by rw [h2]; exact hf, h1⟩, .inl rfl⟩
      show g.decomposeLinearX count nm = _
      unfold decomposeLinearX
      simp only
      rw [if_neg h0, r]; rfl
  | farhat count nm fixed =>
    obtain ⟨g', r, h1, h2⟩ := unlinkX_stuck (g := { (g.markFixed fixed).rename nm with
      zones := ((g.markFixed fixed).rename nm).zones.filter (fun z => ((g.markFixed fixed).rename nm).zFixed z) }) hf hz
    refine ⟨.attr, g', ?_, ⟨f, by rw [h2]; exact hf, h1⟩, .inl rfl⟩
    show g.decomposeFarhatX count nm fixed = _
    unfold decomposeFarhatX
    simp only
    rw [r]; rfl
  | hierarchical fns levels nm fixed =>
    obtain ⟨g', r, h1, h2⟩ := unlinkX_stuck (g := { (g.markFixed fixed).rename nm with
      zones := ((g.markFixed fixed).rename nm).zones.filter (fun z => ((g.markFixed fixed).rename nm).zFixed z) }) hf hz
    refine ⟨.attr, g', ?_, ⟨f, by rw [h2]; exact hf, h1⟩, .inl rfl⟩
    show g.decomposeHierarchicalX fns levels nm fixed = _
    unfold decomposeHierarchicalX
    simp only
    rw [r]; rfl

end

end Verif
