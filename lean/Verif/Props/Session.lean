import Verif.Proofs.Session
import Verif.Props.Text

/-! Property C100: sessions of decompositions, transformations, changes of data, storing and loading. -/

namespace Verif.Props
open Verif Grid
variable {F R : Type} [DecidableEq R] {S : Type} [LinearOrder S] {w : World F R} {g g' : Grid F R} {b : Bool}

/-- After any session the grid is consistent, and the lists of its zones are exact unless zones were crossed. -/
theorem C100_consistent (hw : w.codec.Lawful) (G : Good w.rc g) (L : ZoneLists g) (h : Session w S g b g') :
    Good w.rc g' ∧ (b = true → ZoneLists g') := by
  induction h with
  | start => exact ⟨G, fun _ => L⟩
  | decompose c _ hp hr ih =>
    have := call_ok _ _ ⟨ih.1.mesh, ih.1.zones, ih.1.zalloc⟩ c hp hr
    exact ⟨this.good ih.1, fun _ => this.lists⟩
  | inside o _ ha hi hr ih =>
    obtain ⟨g2, h1, h2, -⟩ := step_ok w.mid w.dist w.gt ih.1 o ha
    obtain rfl := Except.ok.inj (h1.symm.trans hr)
    exact ⟨h2, fun hb => (step_kin w.mid w.dist w.gt ih.1 o ha hi hr).lists (ih.2 hb)⟩
  | across o _ ha hr ih =>
    obtain ⟨g2, h1, h2, -⟩ := step_ok w.mid w.dist w.gt ih.1 o ha
    obtain rfl := Except.ok.inj (h1.symm.trans hr)
    exact ⟨h2, fun hb => by cases hb⟩
  | data d _ ih => exact ⟨ih.1.withData d, fun hb => (ih.2 hb).withData d⟩
  | reload text old _ hn hs hl ih =>
    have L1 := ih.2 rfl
    have hw1 : Wf _ := ⟨ih.1.mesh, ih.1.zones, ih.1.zalloc⟩
    obtain ⟨text', h1, h2⟩ := load_store hw w.dflt hw1 L1 ih.1.glo hn.faces hn.name hn.zoneNames hn.vars hn.dict
    obtain rfl := Except.ok.inj (hs.symm.trans h1)
    obtain ⟨g2, h3, h4⟩ := store_loaded w.rc true w.dflt hw1 L1 (keysApart_of_good ih.1 L1 true) { old with name := _ }
    rw [h2, h3] at hl
    obtain rfl := Except.ok.inj hl
    obtain ⟨h5, h6, -⟩ := reload_good ih.1 L1 h4
    exact ⟨h5, fun _ => h6⟩

/-- If every node is a corner of a face, this stays so, and the Euler characteristic of the surface is the same after any
session. -/
theorem C100_euler (hw : w.codec.Lawful) (G : Good w.rc g) (L : ZoneLists g) (hc : Covered g) (h : Session w S g b g') :
    Covered g' ∧ euler g' = euler g := by
  induction h with
  | start => exact ⟨hc, rfl⟩
  | decompose c h0 hp hr ih =>
    have G1 := (C100_consistent hw G L h0).1
    have := (call_ok _ _ ⟨G1.mesh, G1.zones, G1.zalloc⟩ c hp hr).same
    refine ⟨?_, ?_⟩
    · unfold Covered
      rw [this.nodes, this.faces, this.fNodes]; exact ih.1
    · rw [← ih.2]; unfold euler
      rw [this.nodes, this.edges, this.faces]
  | inside o h0 ha hi hr ih =>
    have G1 := (C100_consistent hw G L h0).1
    obtain ⟨g2, h1, h2, h3⟩ := step_ok w.mid w.dist w.gt G1 o ha
    obtain rfl := Except.ok.inj (h1.symm.trans hr)
    exact ⟨(step_more w.mid w.dist w.gt G1 o ha hr).1 ih.1, h3.trans ih.2⟩
  | across o h0 ha hr ih =>
    have G1 := (C100_consistent hw G L h0).1
    obtain ⟨g2, h1, h2, h3⟩ := step_ok w.mid w.dist w.gt G1 o ha
    obtain rfl := Except.ok.inj (h1.symm.trans hr)
    exact ⟨(step_more w.mid w.dist w.gt G1 o ha hr).1 ih.1, h3.trans ih.2⟩
  | data d _ ih => exact ih
  | reload text old h0 hn hs hl ih =>
    obtain ⟨G1, L1⟩ := C100_consistent hw G L h0
    have L1 := L1 rfl
    have hw1 : Wf _ := ⟨G1.mesh, G1.zones, G1.zalloc⟩
    obtain ⟨text', h1, h2⟩ := load_store hw w.dflt hw1 L1 G1.glo hn.faces hn.name hn.zoneNames hn.vars hn.dict
    obtain rfl := Except.ok.inj (hs.symm.trans h1)
    obtain ⟨g2, h3, h4⟩ := store_loaded w.rc true w.dflt hw1 L1 (keysApart_of_good G1 L1 true) { old with name := _ }
    rw [h2, h3] at hl
    obtain rfl := Except.ok.inj hl
    obtain ⟨-, -, h7, h8, h9⟩ := reload_good G1 L1 h4
    obtain ⟨h10, h11⟩ := h9 ih.1
    refine ⟨h8, ?_⟩
    rw [← ih.2]
    unfold euler
    rw [h7, h10, h11]

/-- A surface without border stays without border. -/
theorem C100_closed (hw : w.codec.Lawful) (G : Good w.rc g) (L : ZoneLists g) (hc : Covered g) (hb : ClosedSurface g)
    (h : Session w S g b g') : ClosedSurface g' := by
  induction h with
  | start => exact hb
  | decompose c h0 hp hr ih =>
    have G1 := (C100_consistent hw G L h0).1
    have := (call_ok _ _ ⟨G1.mesh, G1.zones, G1.zalloc⟩ c hp hr).same
    unfold ClosedSurface
    rw [this.edges, this.eFaces]; exact ih
  | inside o h0 ha hi hr ih =>
    have G1 := (C100_consistent hw G L h0).1
    obtain ⟨g2, h1, h2, h3⟩ := step_ok w.mid w.dist w.gt G1 o ha
    obtain rfl := Except.ok.inj (h1.symm.trans hr)
    have := (step_more w.mid w.dist w.gt G1 o ha hr).2 ih
    rw [closed_iff_count G1.mesh] at ih
    rw [closed_iff_count h2.mesh]
    omega
  | across o h0 ha hr ih =>
    have G1 := (C100_consistent hw G L h0).1
    obtain ⟨g2, h1, h2, h3⟩ := step_ok w.mid w.dist w.gt G1 o ha
    obtain rfl := Except.ok.inj (h1.symm.trans hr)
    have := (step_more w.mid w.dist w.gt G1 o ha hr).2 ih
    rw [closed_iff_count G1.mesh] at ih
    rw [closed_iff_count h2.mesh]
    omega
  | data d _ ih => exact ih
  | reload text old h0 hn hs hl ih =>
    obtain ⟨G1, L1⟩ := C100_consistent hw G L h0
    have L1 := L1 rfl
    have hw1 : Wf _ := ⟨G1.mesh, G1.zones, G1.zalloc⟩
    obtain ⟨text', h1, h2⟩ := load_store hw w.dflt hw1 L1 G1.glo hn.faces hn.name hn.zoneNames hn.vars hn.dict
    obtain rfl := Except.ok.inj (hs.symm.trans h1)
    obtain ⟨g2, h3, h4⟩ := store_loaded w.rc true w.dflt hw1 L1 (keysApart_of_good G1 L1 true) { old with name := _ }
    rw [h2, h3] at hl
    obtain rfl := Except.ok.inj hl
    obtain ⟨h5, -, h7, -, h9⟩ := reload_good G1 L1 h4
    have h11 := (h9 (C100_euler hw G L hc h0).1).2
    rw [closed_iff_count G1.mesh] at ih
    rw [closed_iff_count h5.mesh, h7, h11]
    exact ih

/-- A session can always go on: an applicable transformation succeeds; and when the lists of zones are exact and the names can be
written, the grid can be stored and the file can be loaded again. -/
theorem C100_goes_on (hw : w.codec.Lawful) (G : Good w.rc g) (L : ZoneLists g) (h : Session w S g b g') :
    (∀ o : Op F, o.Applicable w.rc w.mid w.dist w.gt g' → ∃ g2, o.run w.rc w.mid w.dist w.gt g' = .ok g2) ∧
    (b = true → Named g' → ∃ text, g'.storeText w.codec w.dflt = .ok text ∧
      ∀ old : Grid F R, ∃ g2, loadText w.rc w.codec true old text = .ok g2) := by
  obtain ⟨G1, L1⟩ := C100_consistent hw G L h
  refine ⟨fun o ha => ?_, fun hb hn => ?_⟩
  · obtain ⟨g2, h1, -⟩ := step_ok w.mid w.dist w.gt G1 o ha
    exact ⟨g2, h1⟩
  · have L1 := L1 hb
    have hw1 : Wf _ := ⟨G1.mesh, G1.zones, G1.zalloc⟩
    obtain ⟨text, h1, h2⟩ := load_store hw w.dflt hw1 L1 G1.glo hn.faces hn.name hn.zoneNames hn.vars hn.dict
    refine ⟨text, h1, fun old => ?_⟩
    obtain ⟨g2, h3, -⟩ := store_loaded w.rc true w.dflt hw1 L1 (keysApart_of_good G1 L1 true) { old with name := g'.name }
    exact ⟨g2, by rw [h2, h3]⟩

/-- The starting grids of these theorems: those loaded with merging from files without degenerate or repeated faces, each of
whose points is a corner of a face of its zone. -/
theorem C100_loaded (rc : Vec F → R) (old : Grid F R) (blocks : List (ZoneBlock F)) (hd : NonDegenerate rc true blocks)
    (ht : NoTwins rc blocks) (hu : ∀ z ∈ blocks, ∀ p ∈ z.pts, ∃ f ∈ z.faces, ∃ s ∈ f.2, ∃ q, z.point? s = some q ∧ rc q = rc p)
    (h : loadBlocks rc true old blocks = .ok g) : Good rc g ∧ ZoneLists g ∧ Covered g := by
  rcases load_spec rc true old blocks (load_valid rc true old g blocks h) hd (by intro h; cases h) with ⟨_, h2⟩ | ⟨_, g2, h2, h3⟩
  · rw [h] at h2; cases h2
  · rw [h] at h2
    obtain rfl := Except.ok.inj h2
    refine ⟨h3.good ht, h3.lists, ?_⟩
    intro n hn
    obtain ⟨z, hz, p, hp, hk⟩ := h3.used n hn
    obtain ⟨f, hf, s, hs, q, hq, hqp⟩ := hu z hz p hp
    obtain ⟨y, hy, hr⟩ := forall₂_left h3.rep hz
    obtain ⟨f', hf', -, hn'⟩ := forall₂_left hr.faces hf
    obtain ⟨m, hm, hmn, q', hq', hmk, -⟩ := forall₂_left hn' hs
    rw [hq] at hq'
    obtain rfl := Option.some.inj hq'
    refine ⟨f', (h3.zones.partition.mem_iff).1 (List.mem_flatMap.2 ⟨y, hy, hf'⟩), ?_⟩
    rw [← h3.merged rfl m hmn n hn (by rw [hmk, hk, hqp])]
    exact hm

/-- A triangle and a point which is not a corner of it. -/
def loose : List (ZoneBlock Int) :=
  [ { name := "a".toList, pts := [⟨0, 0, 0⟩, ⟨1, 0, 0⟩, ⟨0, 1, 0⟩, ⟨5, 5, 5⟩], faces := [([], [1, 2, 3])] } ]

/-- The functions of the sample session. -/
def sampleWorld : World Int (Int × Int × Int) :=
  ⟨Sample.rc, Sample.mid, Sample.dist, fun x y => decide (y < x), intCodec, 0⟩

/-- `Covered` is needed in `C100_euler`: a point of the file which is not a corner of a face becomes a node of the grid, but it is
not stored, so that after storing and loading the Euler characteristic is another one. -/
theorem C100_loose_violation : ∃ g g' : Grid Int (Int × Int × Int), loadBlocks Sample.rc true Sample.new loose = .ok g ∧
    Good Sample.rc g ∧ ZoneLists g ∧ Session sampleWorld Int g true g' ∧ g.nodes.length = 4 ∧ g'.nodes.length = 3 ∧
    euler g' ≠ euler g := by
  have hc : (match loadBlocks Sample.rc true Sample.new loose with
    | .error _ => false
    | .ok g => decide (g.nodes.length = 4) && decide (euler g = 2) && decide (g.faces = [0]) && decide (g.name = []) &&
      decide (∀ z ∈ g.zones, g.zName z = "a".toList) && decide (g.vars = []) &&
      match loadBlocks Sample.rc true Sample.new (g.zones.map (zoneBlock g 0)) with
      | .error _ => false
      | .ok g' => decide (g'.nodes.length = 3) && decide (euler g' = 1)) = true := by decide +kernel
  split at hc
  · cases hc
  · rename_i g hg
    simp only [Bool.and_eq_true, decide_eq_true_eq] at hc
    obtain ⟨⟨⟨⟨⟨⟨h1, h2⟩, h3⟩, h4⟩, h5⟩, h6⟩, hc⟩ := hc
    split at hc
    · cases hc
    · rename_i g' hg'
      simp only [Bool.and_eq_true, decide_eq_true_eq] at hc
      obtain ⟨h7, h8⟩ := hc
      obtain ⟨G, L⟩ := Sample.good_of (by decide +kernel) (by decide +kernel) (by decide +kernel) hg
      have hn : Named g := ⟨by rw [h3]; simp, by rw [h4]; simp [PlainName], fun z hz => by rw [h5 z hz]; unfold PlainName; decide,
        by rw [h6]; simp, by rw [h6]; simp⟩
      obtain ⟨text, e1, e2⟩ := load_store intCodec_lawful (0 : Int) ⟨G.mesh, G.zones, G.zalloc⟩ L G.glo hn.faces hn.name hn.zoneNames
        hn.vars hn.dict
      refine ⟨g, g', hg, G, L, .reload text Sample.new .start hn e1 ?_, h1, h7, by rw [h2, h8]; decide⟩
      have := e2 Sample.rc true Sample.new
      rw [h4, show { Sample.new with name := [] } = Sample.new from rfl, hg'] at this
      exact this

/-! A session on a tetrahedron: it is decomposed into two zones, a face is divided, data is set, and the grid is stored and loaded. -/

instance (s : Str) : Decidable (PlainName s) := by unfold PlainName; infer_instance
instance (s : Str) : Decidable (PlainVar s) := by unfold PlainVar; infer_instance

/-- What has to be checked of the sample session up to the change of data. -/
def sampleSession : Bool :=
  match Sample.tetraGrid.decomposeLinear 2 (some "m".toList) with
  | .error _ => false
  | .ok g1 =>
    decide (0 ∈ g1.faces) && decide (∀ n ∈ g1.nodes, Sample.rc (g1.nP n) ≠ Sample.rc ⟨9, 9, 9⟩) &&
    match g1.divideFace Sample.rc 0 ⟨9, 9, 9⟩ with
    | .error _ => false
    | .ok g2 => decide (g2.faces.length = 6) && decide (PlainName g2.name) && decide (∀ z ∈ g2.zones, PlainName (g2.zName z)) &&
      decide (g2.zones.length = 2)

theorem sampleSession_ok : sampleSession = true := by decide +kernel

theorem sample_session : ∃ g' : Grid Int (Int × Int × Int), Session sampleWorld Int Sample.tetraGrid true g' ∧ g'.faces.length = 6 := by
  have h := sampleSession_ok
  unfold sampleSession at h
  split at h
  · cases h
  · rename_i g1 h1
    simp only [Bool.and_eq_true, decide_eq_true_eq] at h
    obtain ⟨⟨hf, hp⟩, h⟩ := h
    split at h
    · cases h
    · rename_i g2 h2
      simp only [Bool.and_eq_true, decide_eq_true_eq] at h
      obtain ⟨⟨⟨h3, h4⟩, h5⟩, -⟩ := h
      have s1 : Session sampleWorld Int Sample.tetraGrid true g1 := .decompose (.linear 2 (some "m".toList)) .start trivial h1
      have s2 : Session sampleWorld Int Sample.tetraGrid true g2 := .inside (.divide 0 ⟨9, 9, 9⟩) s1 ⟨hf, hp⟩ trivial h2
      have s3 := Session.data (fun f => [("T".toList, (f : Int))]) s2
      have hl : intCodec.Lawful := intCodec_lawful
      have hv : Grid.vars { g2 with fData := fun f => [("T".toList, (f : Int))] } = ["T".toList] := by
        unfold Grid.vars
        cases h6 : g2.faces with
        | nil => rw [h6] at h3; cases h3
        | cons a l => rfl
      have hn : Named { g2 with fData := fun f => [("T".toList, (f : Int))] } := by
        refine ⟨fun h => ?_, h4, h5, by rw [hv]; decide, by rw [hv]; decide⟩
        rw [show g2.faces = [] from h] at h3
        cases h3
      obtain ⟨G3, L3⟩ := C100_consistent hl Sample.tetra_good.1 Sample.tetra_good.2 s3
      obtain ⟨text, h7, h8⟩ := (C100_goes_on hl Sample.tetra_good.1 Sample.tetra_good.2 s3).2 rfl hn
      obtain ⟨g4, h9⟩ := h8 Sample.new
      refine ⟨g4, .reload text Sample.new s3 hn h7 h9, ?_⟩
      have hw1 : Wf _ := ⟨G3.mesh, G3.zones, G3.zalloc⟩
      obtain ⟨text', e1, e2⟩ := load_store hl (0 : Int) hw1 (L3 rfl) G3.glo hn.faces hn.name hn.zoneNames hn.vars hn.dict
      obtain rfl := Except.ok.inj (h7.symm.trans e1)
      obtain ⟨g5, e3, e4⟩ := store_loaded Sample.rc true (0 : Int) hw1 (L3 rfl) (keysApart_of_good G3 (L3 rfl) true) { Sample.new with name := g2.name }
      have h9' : loadText Sample.rc intCodec true Sample.new text = .ok g4 := h9
      rw [e2, e3] at h9'
      obtain rfl := Except.ok.inj h9'
      exact (reload_good G3 (L3 rfl) e4).2.2.1.trans h3

example : ∃ g' : Grid Int (Int × Int × Int), Session sampleWorld Int Sample.tetraGrid true g' ∧ g'.faces.length = 6 ∧ euler g' = 2 ∧ ClosedSurface g' := by
  obtain ⟨g', h, hl⟩ := sample_session
  have hc : Covered Sample.tetraGrid := by unfold Covered; decide +kernel
  have hb : ClosedSurface Sample.tetraGrid := by unfold ClosedSurface; decide +kernel
  have he : euler Sample.tetraGrid = 2 := by decide +kernel
  have hw : sampleWorld.codec.Lawful := intCodec_lawful
  exact ⟨g', h, hl, (C100_euler hw Sample.tetra_good.1 Sample.tetra_good.2 hc h).2.trans he,
    C100_closed hw Sample.tetra_good.1 Sample.tetra_good.2 hc hb h⟩

end Verif.Props
