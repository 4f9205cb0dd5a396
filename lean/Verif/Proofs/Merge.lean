import Verif.Proofs.Calc
import Verif.Proofs.History
import Verif.Props.Utils
import Verif.Props.Mpi
import Verif.Props.Text

/-! Merging results. -/

namespace Verif
open Grid
variable {F R : Type}

/-! ### Face data is independent of everything else -/

theorem Wf.withData {g : Grid F R} (h : Wf g) (d : Nat → List (Str × F)) : Wf { g with fData := d } := by
  obtain ⟨h1, h2, h3⟩ := h
  refine ⟨?_, ?_, h3⟩
  · cases h1; constructor <;> assumption
  · cases h2; constructor <;> assumption

theorem ZoneLists.withData {g : Grid F R} (h : ZoneLists g) (d : Nat → List (Str × F)) : ZoneLists { g with fData := d } := by
  cases h; constructor <;> assumption

theorem GloIds.withData {g : Grid F R} (h : GloIds g) (d : Nat → List (Str × F)) : GloIds { g with fData := d } := by
  cases h; constructor <;> assumption

/-! ### File names -/

theorem stamp_mpiName (nm : Str) (i t : Nat) (ht : t < 10 ^ 12) :
    Utils.stampOf (Utils.mpiName nm i (Py.natStrPad 12 t) "txt".toList) = Py.natStrPad 12 t := by
  unfold Utils.stampOf Utils.mpiName
  rw [show nm ++ ['_'] ++ Py.natStrPad 5 i ++ ['_'] ++ Py.natStrPad 12 t ++ ['.'] ++ "txt".toList =
    (nm ++ ['_'] ++ Py.natStrPad 5 i ++ ['_']) ++ Py.natStrPad 12 t ++ (['.'] ++ "txt".toList) by simp]
  exact Py.slice_mid_neg _ _ _ 16 4 (by omega) (by simp) (by simp; exact Py.natStrPad_length 12 t (by omega) ht)

theorem pad_inj {w a b : Nat} (h : Py.natStrPad w a = Py.natStrPad w b) : a = b := by
  have h2 := Py.int_natStrPad w a
  rw [h, Py.int_natStrPad] at h2
  have := Except.ok.inj h2
  omega

theorem matchFiles_ok {nm : Str} {all : List Str} (p : Str → Bool) (h : ∀ fn ∈ all, Utils.isCorrectTxt fn nm = .ok (p fn)) :
    matchFiles nm all = .ok (all.filter p) := by
  unfold matchFiles
  rw [mapM_ok (fun fn => Utils.isCorrectTxt fn nm) p all h, res_bind_ok]
  show Except.ok _ = _
  congr 1
  rw [zip_map_self, List.filter_map, List.map_map]
  have : (Prod.fst ∘ fun a => (a, p a)) = id := rfl
  rw [this, List.map_id]
  rfl

variable {c : Codec F} {vars : List Str} {nm : Str} {files : List (MpiFile F)} {times : List Nat}
  {res : Nat → Nat → List F} {dir : List (Str × Str)}

/-- Which names are accepted. -/
theorem ResultDir.accepted (h : ResultDir c vars nm files times res dir) (hf : files.length ≤ 100000) (ht : ∀ t ∈ times, t < 10 ^ 12) :
    ∃ p : Str → Bool, matchFiles nm (dir.map Prod.fst) = .ok ((dir.map Prod.fst).filter p) ∧
      (∀ t ∈ times, ∀ (i : Nat) (m : MpiFile F), files[i]? = some m → p (Utils.mpiName nm i (Py.natStrPad 12 t) "txt".toList) = true) ∧
      ∀ fn ∈ dir.map Prod.fst, p fn = true → ∃ t ∈ times, ∃ (i : Nat) (m : MpiFile F), files[i]? = some m ∧
        fn = Utils.mpiName nm i (Py.natStrPad 12 t) "txt".toList := by
  have key : ∀ t ∈ times, ∀ (i : Nat) (m : MpiFile F), files[i]? = some m →
      Utils.isCorrectTxt (Utils.mpiName nm i (Py.natStrPad 12 t) "txt".toList) nm = .ok true := by
    intro t h1 i m h2
    have := Props.C27_accept nm nm i t "txt".toList "txt".toList
      (by have := (List.getElem?_eq_some_iff.1 h2).1; omega) (ht t h1) rfl
    unfold Utils.isCorrectTxt
    rw [this]
    simp
  refine ⟨fun fn => match Utils.isCorrectTxt fn nm with | .ok b => b | .error _ => false, ?_, ?_, ?_⟩
  · apply matchFiles_ok
    intro fn hfn
    obtain ⟨q, hq, rfl⟩ := List.mem_map.1 hfn
    rcases h.only q hq with e | ⟨t, h1, i, m, h2, rfl⟩
    · simp only [e]
    · simp only [key t h1 i m h2]
  · intro t h1 i m h2
    simp only [key t h1 i m h2]
  · intro fn hfn hp
    obtain ⟨q, hq, rfl⟩ := List.mem_map.1 hfn
    rcases h.only q hq with e | ⟨t, h1, i, m, h2, rfl⟩
    · simp only [e] at hp; cases hp
    · exact ⟨t, h1, i, m, h2, rfl⟩

theorem ResultDir.read (h : ResultDir c vars nm files times res dir) {t : Nat} (ht : t ∈ times) {i : Nat} {m : MpiFile F}
    (hi : files[i]? = some m) :
    readFile dir (Utils.mpiName nm i (Py.natStrPad 12 t) "txt".toList) = .ok (resultText c vars (res t) m) := by
  unfold readFile
  rw [Py.dictGet?_of_nodup h.names (h.all t ht i m hi)]

/-- The groups are the times. -/
theorem ResultDir.groups (h : ResultDir c vars nm files times res dir) (hf : files.length ≤ 100000) (ht : ∀ t ∈ times, t < 10 ^ 12)
    (h0 : files ≠ []) : ∃ fs, matchFiles nm (dir.map Prod.fst) = .ok fs ∧ ((Utils.group fs).map Prod.fst).Nodup ∧
      (∀ k, k ∈ (Utils.group fs).map Prod.fst ↔ ∃ t ∈ times, k = Py.natStrPad 12 t) ∧
      ∀ p ∈ Utils.group fs, ∃ t ∈ times, p.1 = Py.natStrPad 12 t ∧
        (∀ fn ∈ p.2, ∃ (i : Nat) (m : MpiFile F), files[i]? = some m ∧ fn = Utils.mpiName nm i (Py.natStrPad 12 t) "txt".toList) ∧
        (∀ (i : Nat) (m : MpiFile F), files[i]? = some m → Utils.mpiName nm i (Py.natStrPad 12 t) "txt".toList ∈ p.2) := by
  obtain ⟨p, h1, h2, h3⟩ := h.accepted hf ht
  refine ⟨_, h1, (Props.C26_group _).1, ?_, ?_⟩
  · intro k
    constructor
    · intro hk
      obtain ⟨⟨k', v⟩, hm, rfl⟩ := List.mem_map.1 hk
      obtain ⟨hv0, hv⟩ := ((Props.C26_group _).2 k' v).1 hm
      obtain ⟨fn, hfn⟩ := List.exists_mem_of_ne_nil _ hv0
      rw [hv] at hfn
      obtain ⟨a1, a2⟩ := List.mem_filter.1 hfn
      obtain ⟨b1, b2⟩ := List.mem_filter.1 a1
      obtain ⟨t, q1, i, m, q2, rfl⟩ := h3 fn b1 b2
      refine ⟨t, q1, ?_⟩
      rw [stamp_mpiName _ _ _ (ht t q1)] at a2
      exact (of_decide_eq_true a2).symm
    · rintro ⟨t, q1, rfl⟩
      obtain ⟨m, hm⟩ := List.exists_mem_of_ne_nil _ h0
      obtain ⟨i, hi⟩ := List.getElem?_of_mem hm
      have hmem : Utils.mpiName nm i (Py.natStrPad 12 t) "txt".toList ∈
          ((dir.map Prod.fst).filter p).filter (fun f => decide (Utils.stampOf f = Py.natStrPad 12 t)) := by
        refine List.mem_filter.2 ⟨List.mem_filter.2 ⟨List.mem_map.2 ⟨_, h.all t q1 i m hi, rfl⟩, h2 t q1 i m hi⟩, ?_⟩
        exact decide_eq_true (stamp_mpiName _ _ _ (ht t q1))
      exact List.mem_map.2 ⟨(_, _), ((Props.C26_group _).2 _ _).2 ⟨List.ne_nil_of_mem hmem, rfl⟩, rfl⟩
  · rintro ⟨k, v⟩ hm
    obtain ⟨hv0, hv⟩ := ((Props.C26_group _).2 k v).1 hm
    have hall : ∀ fn ∈ v, ∃ t ∈ times, k = Py.natStrPad 12 t ∧ ∃ (i : Nat) (m : MpiFile F), files[i]? = some m ∧
        fn = Utils.mpiName nm i (Py.natStrPad 12 t) "txt".toList := by
      intro fn hfn
      rw [hv] at hfn
      obtain ⟨a1, a2⟩ := List.mem_filter.1 hfn
      obtain ⟨b1, b2⟩ := List.mem_filter.1 a1
      obtain ⟨t, q1, i, m, q2, rfl⟩ := h3 fn b1 b2
      rw [stamp_mpiName _ _ _ (ht t q1)] at a2
      exact ⟨t, q1, (of_decide_eq_true a2).symm, i, m, q2, rfl⟩
    obtain ⟨fn, hfn⟩ := List.exists_mem_of_ne_nil _ hv0
    obtain ⟨t, q1, q2, -⟩ := hall fn hfn
    refine ⟨t, q1, q2, ?_, ?_⟩
    · intro fn hfn
      obtain ⟨t', r1, r2, i, m, r3, rfl⟩ := hall fn hfn
      obtain rfl := pad_inj (q2.symm.trans r2)
      exact ⟨i, m, r3, rfl⟩
    · intro i m hi
      simp only
      rw [hv]
      refine List.mem_filter.2 ⟨List.mem_filter.2 ⟨List.mem_map.2 ⟨_, h.all t q1 i m hi, rfl⟩, h2 t q1 i m hi⟩, ?_⟩
      rw [q2]
      exact decide_eq_true (stamp_mpiName _ _ _ (ht t q1))

/-! ### One time -/

/-- A loaded grid with new data on every face can be stored, and what is read back has the data. -/
theorem stored_data [DecidableEq R] (hc : c.Lawful) (dflt : F) {rc : Vec F → R} {blocks : List (ZoneBlock F)} {a g : Grid F R}
    (hL : Loaded rc true blocks a g) (h0 : g.faces ≠ []) (hn : PlainName g.name) (hz : ∀ b ∈ blocks, PlainName b.name)
    (hv : ∀ v ∈ vars, PlainVar v) (hnd : vars.Nodup) (d : Nat → List (Str × F)) (hd : ∀ f ∈ g.faces, (d f).map Prod.fst = vars) :
    ∃ text, storeText { g with fData := d } c dflt = .ok text ∧ ∀ g0 : Grid F R, ∃ g', loadText rc c true g0 text = .ok g' ∧
      List.Forall₂ (fun f f' => g'.fData f' = d f ∧ (g'.fNodes f').map g'.nP = (g.fNodes f).map g.nP) g.faces g'.faces := by
  have hw : Wf g := ⟨hL.mesh, hL.zones, hL.alloc⟩
  obtain ⟨G, hG⟩ : ∃ G, G = { g with fData := d } := ⟨_, rfl⟩
  have hvars : G.vars = vars := by
    rw [hG]
    unfold Grid.vars
    cases hf : g.faces with
    | nil => exact absurd hf h0
    | cons f t => exact hd f (by rw [hf]; simp)
  have hsame : SameVars G := by
    intro f hf
    rw [hvars]
    rw [hG] at hf ⊢
    exact hd f hf
  have hst : Storable G := by
    refine ⟨by rw [hG]; exact hw.withData d, by rw [hG]; exact hL.lists.withData d, by rw [hG]; exact (hL.glo.withData d).perm,
      by rw [hG]; exact h0, by rw [hG]; exact hn, ?_, by rw [hvars]; exact hv, by rw [hvars]; exact hnd⟩
    rw [hG]
    intro z hzz
    obtain ⟨b, hb, r⟩ := forall₂_right hL.rep hzz
    show PlainName (g.zName z)
    rw [r.name]
    exact hz b hb
  have hk : KeysApart rc true G := by
    simp only [KeysApart, if_true]
    rw [hG]
    intro n hn m hm e
    exact hL.merged rfl n hn m hm (by rw [hL.keys n hn, hL.keys m hm]; exact e)
  obtain ⟨text, h1, h2⟩ := load_store hc dflt hst.wf hst.lists hst.ids hst.faces hst.name hst.zoneNames hst.vars hst.dict
  refine ⟨text, by rw [← hG]; exact h1, fun g0 => ?_⟩
  obtain ⟨g', h3, h4⟩ := store_loaded rc true dflt hst.wf hst.lists hk { g0 with name := G.name }
  refine ⟨g', by rw [h2, h3], ?_⟩
  rw [h4.order, hL.order]
  apply forall₂_flatMap
  have h5 := reload_same hst.wf hst.lists hk h4
  rw [hG] at h5
  refine forall₂_mem h5 ?_
  rintro z hz z' _ ⟨-, e2⟩
  refine forall₂_mem e2 ?_
  rintro f hf f' _ ⟨e3, e4⟩
  have hfm : f ∈ G.faces := hst.wf.face_mem (g := G) (by rw [hG]; exact hz) (by rw [hG]; exact hf)
  have e5 := Props.dict_eq G dflt hsame hst.dict hfm
  refine ⟨?_, forall₂_eq_map (e4.imp fun _ _ h => h.2)⟩
  rw [← hG] at e3
  rw [e3, e5, hG]

/-- Loading the results of all zones, in whatever way they are read. -/
theorem own_results [DecidableEq R] (hc : c.Lawful) {rc : Vec F → R} {blocks : List (ZoneBlock F)} {a b g1 gd g2 : Grid F R}
    (L1 : Loaded rc true blocks a g1) (L2 : Loaded rc true blocks b g2) (hs : SameMesh g1 gd) (hw : Wf gd) (hl : ZoneLists gd)
    (dflt : F) (hm : gd.storeMpi dflt = .ok files) (hv : ∀ v ∈ vars, PlainVar v) (hnd : vars.Nodup) (r : Nat → List F)
    {α : Type} (l : List α) (step : Grid F R → α → Res (Grid F R)) (ids : α → MpiFile F) (h1 : ∀ x ∈ l, ids x ∈ files)
    (h2 : ∀ m ∈ files, ∃ x ∈ l, ids x = m)
    (hstep : ∀ x ∈ l, ∀ g : Grid F R, step g x = g.loadCalc c (resultText c vars r (ids x))) :
    ∃ d, l.foldlM step g2 = .ok { g2 with fData := d } ∧
      List.Forall₂ (fun fd f => d f = vars.zip (r (gd.fGlo fd)) ∧ (g2.fNodes f).map g2.nP = (gd.fNodes fd).map gd.nP)
        gd.faces g2.faces := by
  have hg : GloIds gd := hs.gloIds L1.glo
  have h12 := two_loads L1 L2
  have hlen : gd.faces.length = g2.faces.length := by rw [hs.faces]; exact h12.length_eq
  have hperm := (Props.C21_partition gd hw hl hg.perm dflt files hm).2
  obtain ⟨d, e1, -, e2⟩ := calc_fold hc vars hv hnd r g2 L2.mesh.faces_nodup l step (fun x => (ids x).gloIds) (by
    intro x hx k hk
    have : k ∈ files.flatMap MpiFile.gloIds := List.mem_flatMap.2 ⟨_, h1 x hx, hk⟩
    rw [hperm.mem_iff, List.mem_range, hlen] at this
    exact this) hstep
  refine ⟨d, e1, ?_⟩
  rw [List.forall₂_iff_get]
  refine ⟨hlen, fun i i1 i2 => ?_⟩
  simp only [List.get_eq_getElem]
  rw [List.forall₂_iff_get] at h12
  have hi := e2 i g2.faces[i] (List.getElem?_eq_getElem i2)
  have hglo := hg.faces i gd.faces[i] (List.getElem?_eq_getElem i1)
  refine ⟨?_, ?_⟩
  · rw [hi, if_pos, hglo]
    have : i ∈ files.flatMap MpiFile.gloIds := by rw [hperm.mem_iff, List.mem_range]; exact i1
    obtain ⟨m, hm1, hm2⟩ := List.mem_flatMap.1 this
    obtain ⟨x, hx, rfl⟩ := h2 m hm1
    exact List.mem_flatMap.2 ⟨x, hx, hm2⟩
  · have := h12.2 i (by rw [← hs.faces]; exact i1) i2
    simp only [List.get_eq_getElem] at this
    rw [← this, hs.fNodes, hs.nP]
    simp only [hs.faces]

theorem loaded_of [DecidableEq R] {rc : Vec F → R} {blocks : List (ZoneBlock F)} (hd : NonDegenerate rc true blocks) {a g : Grid F R}
    (h : loadBlocks rc true a blocks = .ok g) : Loaded rc true blocks a g := by
  rcases load_spec rc true a blocks (load_valid rc true a g blocks h) hd (by intro h; cases h) with ⟨_, h2⟩ | ⟨_, g2, h2, h3⟩
  · rw [h] at h2; cases h2
  · rw [h] at h2; obtain rfl := Except.ok.inj h2; exact h3

theorem loads_again [DecidableEq R] {rc : Vec F → R} {blocks : List (ZoneBlock F)} (hd : NonDegenerate rc true blocks) {a g : Grid F R}
    (h : loadBlocks rc true a blocks = .ok g) (b : Grid F R) : ∃ g', loadBlocks rc true b blocks = .ok g' ∧ Loaded rc true blocks b g' := by
  have hv := load_valid rc true a g blocks h
  rcases load_spec rc true b blocks hv hd (by intro h; cases h) with ⟨h1, _⟩ | ⟨_, g2, h2, h3⟩
  · rcases load_spec rc true a blocks hv hd (by intro h; cases h) with ⟨_, h2⟩ | ⟨h2, _⟩
    · rw [h] at h2; cases h2
    · exact absurd h1 h2
  · exact ⟨g2, h2, h3⟩

theorem GridFile.load [DecidableEq R] {text title : Str} {blocks : List (ZoneBlock F)} (h : GridFile c text title blocks)
    (rc : Vec F → R) (g : Grid F R) : loadText rc c true g text = loadBlocks rc true { g with name := title } blocks := by
  unfold loadText
  obtain ⟨vs, h1⟩ := h g.name
  show (parseFile c (Py.readlines text).length ⟨g.name, [], []⟩ (Py.readlines text) >>= _) = _
  rw [h1, res_bind_ok]

end Verif
