import Verif.Proofs.Missing
import Verif.Props.Calc

/-! # C117 Results of some zones are missing -/

namespace Verif.Props
open Grid
variable {F R : Type}

theorem valuesFor_zip (dflt : F) (vars : List Str) (hnd : vars.Nodup) (r : List F) (h : r.length = vars.length) :
    valuesFor dflt vars (vars.zip r) = vars.zip r := by
  unfold valuesFor
  apply List.ext_getElem
  · simp [h]
  · intro i h1 h2
    have hi : i < vars.length := by simpa using h1
    rw [List.getElem_map, List.getElem_zip]
    have hnd' : ((vars.zip r).map Prod.fst).Nodup := by rw [List.map_fst_zip (by omega)]; exact hnd
    have : Py.dictGet? (vars.zip r) vars[i] = some (r[i]'(by omega)) :=
      Py.dictGet?_of_nodup hnd' (by rw [← List.getElem_zip (h := h2)]; exact List.getElem_mem _)
    rw [this]
    rfl

/-- What `merge` does with the results of some of the zones: it always returns and writes one file for each time for which
there is any result. The variables in that file are those of the first face of the grid: the computed ones if the zone
of that face has results for this time, otherwise those of the grid file. Every face has for these variables the
computed values if its zone has results, and what the grid file says otherwise; zero where there is none. -/
theorem C117_merge_partial {S : Type} [LinearOrder S] [DecidableEq R] [Inhabited F] [Inhabited R] (c : Codec F) (hc : c.Lawful)
    (rc : Vec F → R) (gridText title : Str) (blocks : List (ZoneBlock F)) (hfile : GridFile c gridText title blocks)
    (htitle : PlainName title) (hnames : ∀ b ∈ blocks, PlainName b.name) (hd : NonDegenerate rc true blocks)
    (a g1 gd : Grid F R) (h1 : loadText rc c true a gridText = .ok g1) (f0 : Nat) (rest : List Nat) (h0 : g1.faces = f0 :: rest)
    (hold : ∀ v ∈ (g1.fData f0).map Prod.fst, PlainVar v) (holdn : ((g1.fData f0).map Prod.fst).Nodup)
    (calls : List (DecompCall S)) (hp : ∀ c ∈ calls, c.Possible) (hcalls : calls.foldlM DecompCall.run g1 = .ok gd)
    (dflt : F) (files : List (MpiFile F)) (hm : gd.storeMpi dflt = .ok files) (hmax : files.length ≤ 100000)
    (vars : List Str) (hv : ∀ v ∈ vars, PlainVar v) (hnd : vars.Nodup)
    (nm dst : Str) (times : List Nat) (htn : times.Nodup) (ht : ∀ t ∈ times, t < 10 ^ 12) (has : Nat → Nat → Prop)
    (res : Nat → Nat → List F) (hres : ∀ t i, (res t i).length = vars.length) (dir : List (Str × Str))
    (hdir : SomeResults c vars nm files times has res dir) :
    ∃ outs, merge (R := R) rc c dflt gridText dst nm dir = .ok outs ∧
      (outs.map Prod.fst).Perm (times.map (fun t => dst ++ ['/'] ++ nm ++ "_r_".toList ++ Py.natStrPad 12 t ++ ".dat".toList)) ∧
      ∀ t ∈ times, ∀ text, (dst ++ ['/'] ++ nm ++ "_r_".toList ++ Py.natStrPad 12 t ++ ".dat".toList, text) ∈ outs →
        ∃ vs, (HasResult files has t (g1.fGlo f0) → vs = vars) ∧ (¬ HasResult files has t (g1.fGlo f0) → vs = (g1.fData f0).map Prod.fst) ∧
        ∀ g0 : Grid F R, ∃ g', loadText rc c true g0 text = .ok g' ∧
          List.Forall₂ (fun fd f =>
            (HasResult files has t (g1.fGlo fd) → g'.fData f = valuesFor dflt vs (vars.zip (res t (g1.fGlo fd)))) ∧
            (¬ HasResult files has t (g1.fGlo fd) → g'.fData f = valuesFor dflt vs (g1.fData fd)) ∧
            (g'.fNodes f).map g'.nP = (g1.fNodes fd).map g1.nP) g1.faces g'.faces := by
  rw [hfile.load] at h1
  have L1 := loaded_of hd h1
  obtain ⟨hs, hw, hl⟩ := calls_ok calls hp g1 gd ⟨L1.mesh, L1.zones, L1.alloc⟩ L1.lists hcalls
  obtain ⟨name, hname⟩ : ∃ name : Str → Str, name = fun s => dst ++ ['/'] ++ nm ++ "_r_".toList ++ s ++ ".dat".toList := ⟨_, rfl⟩
  have hinj : ∀ s s', name s = name s' → s = s' := by
    intro s s' h
    rw [hname] at h
    simpa using h
  have hname' : ∀ s, dst ++ ['/'] ++ nm ++ "_r_".toList ++ s ++ ".dat".toList = name s := fun s => by rw [hname]
  simp only [hname']
  have hf0 : files ≠ [] := by
    rintro rfl
    have := (C21_partition gd hw hl (hs.gloIds L1.glo).perm dflt [] hm).2.length_eq
    rw [hs.faces, h0] at this
    simp at this
  obtain ⟨fs, q1, q2, q3, q4⟩ := hdir.groups hmax ht
  obtain ⟨Good, hGood⟩ : ∃ Good : Str × Str → Prop, Good = fun o => ∃ t ∈ times, o.1 = name (Py.natStrPad 12 t) ∧
      ∃ vs, (HasResult files has t (g1.fGlo f0) → vs = vars) ∧ (¬ HasResult files has t (g1.fGlo f0) → vs = (g1.fData f0).map Prod.fst) ∧
        ∀ g0 : Grid F R, ∃ g', loadText rc c true g0 o.2 = .ok g' ∧
          List.Forall₂ (fun fd f =>
            (HasResult files has t (g1.fGlo fd) → g'.fData f = valuesFor dflt vs (vars.zip (res t (g1.fGlo fd)))) ∧
            (¬ HasResult files has t (g1.fGlo fd) → g'.fData f = valuesFor dflt vs (g1.fData fd)) ∧
            (g'.fNodes f).map g'.nP = (g1.fNodes fd).map g1.nP) g1.faces g'.faces := ⟨_, rfl⟩
  obtain ⟨⟨gl, outs⟩, r1, r2, r3⟩ := foldlM_total (mergeStamp rc c dflt gridText dst nm dir) (Utils.group fs)
    (fun pre s => s.2.map Prod.fst = pre.map (fun p => name p.1) ∧ ∀ o ∈ s.2, Good o) ((Grid.empty : Grid F R), [])
    ⟨rfl, by simp⟩ (by
    rintro pre p post ⟨g, outs⟩ hsplit ⟨i1, i2⟩
    obtain ⟨t, t1, t2, t3, t4⟩ := q4 p (by rw [hsplit]; simp)
    obtain ⟨g2, e1, L2⟩ := loads_again hd h1 { g with name := title }
    have hch : ∀ fn, ∃ m, fn ∈ p.2 → ∃ i : Nat, files[i]? = some m ∧ has t i ∧ fn = Utils.mpiName nm i (Py.natStrPad 12 t) "txt".toList := by
      intro fn
      by_cases hfn : fn ∈ p.2
      · obtain ⟨i, m, m1, m2⟩ := t3 fn hfn
        exact ⟨m, fun _ => ⟨i, m1, m2⟩⟩
      · obtain ⟨m, _⟩ := List.exists_mem_of_ne_nil _ hf0
        exact ⟨m, fun h => absurd h hfn⟩
    choose ids hids using hch
    have hiff : ∀ k, (∃ x ∈ p.2, k ∈ (ids x).gloIds) ↔ HasResult files has t k := by
      intro k
      constructor
      · rintro ⟨x, hx, hk⟩
        obtain ⟨i, w1, w2, -⟩ := hids x hx
        exact ⟨i, _, w1, w2, hk⟩
      · rintro ⟨i, m, hi, hh, hk⟩
        refine ⟨_, t4 i m hi hh, ?_⟩
        obtain ⟨j, w1, -, w2⟩ := hids _ (t4 i m hi hh)
        have hj := (List.getElem?_eq_some_iff.1 w1).1
        have hi' := (List.getElem?_eq_some_iff.1 hi).1
        obtain ⟨rfl, -⟩ := C27_injective nm i j t t "txt".toList (by omega) (by omega) (ht t t1) (ht t t1) rfl w2
        rw [hi] at w1
        rw [← Option.some.inj w1]
        exact hk
    obtain ⟨d, u1, u2⟩ := some_results hc L1 L2 hs hw hl dflt hm hv hnd (res t) p.2 (mergeFile c dir) ids
      (fun x hx => by obtain ⟨i, w1, -⟩ := hids x hx; exact List.mem_of_getElem? w1) (by
        intro fn hfn g
        obtain ⟨i, w1, w3, w2⟩ := hids fn hfn
        unfold mergeFile
        have := hdir.read t1 w1 w3
        rw [← w2] at this
        rw [this, res_bind_ok])
    simp only [hiff, hs.fGlo, hs.fData, hs.fNodes, hs.nP] at u2
    rw [hs.faces] at u2
    obtain ⟨f0', rest', h0'⟩ : ∃ f0' rest', g2.faces = f0' :: rest' := by
      rw [h0] at u2
      cases h : g2.faces with
      | nil => rw [h] at u2; cases u2
      | cons x y => exact ⟨x, y, rfl⟩
    have hfirst := u2
    rw [h0, h0'] at hfirst
    obtain ⟨⟨k1, k2, -⟩, -⟩ := List.forall₂_cons.1 hfirst
    obtain ⟨vs, hvs⟩ : ∃ vs, (d f0').map Prod.fst = vs := ⟨_, rfl⟩
    have hvs1 : HasResult files has t (g1.fGlo f0) → vs = vars := by
      intro h
      rw [← hvs, k1 h, List.map_fst_zip (by rw [hres])]
    have hvs2 : ¬ HasResult files has t (g1.fGlo f0) → vs = (g1.fData f0).map Prod.fst := by
      intro h
      rw [← hvs, k2 h]
    obtain ⟨text, v1, v2⟩ := stored_values hc dflt L2 f0' rest' h0' (by rw [L2.name]; exact htitle) hnames d vs hvs
      (by by_cases h : HasResult files has t (g1.fGlo f0)
          · rw [hvs1 h]; exact hv
          · rw [hvs2 h]; exact hold)
      (by by_cases h : HasResult files has t (g1.fGlo f0)
          · rw [hvs1 h]; exact hnd
          · rw [hvs2 h]; exact holdn)
    refine ⟨({ g2 with fData := d }, outs ++ [(name p.1, text)]), ?_, ?_, ?_⟩
    · unfold mergeStamp
      rw [hfile.load, e1, res_bind_ok, u1, res_bind_ok, v1, res_bind_ok, hname']
      rfl
    · simp only [List.map_append, i1, List.map_cons, List.map_nil]
    · intro o hom
      rcases List.mem_append.1 hom with hom | hom
      · exact i2 o hom
      · rw [List.mem_singleton] at hom
        subst hom
        rw [hGood]
        refine ⟨t, t1, by rw [t2], vs, hvs1, hvs2, fun g0 => ?_⟩
        obtain ⟨g', x1, x2⟩ := v2 g0
        refine ⟨g', x1, ?_⟩
        refine (forall₂_trans u2 x2).imp ?_
        rintro fd f' ⟨f, ⟨y1, y2, y3⟩, y4, y5⟩
        exact ⟨fun h => by rw [y4, y1 h], fun h => by rw [y4, y2 h], by rw [y5, y3]⟩)
  refine ⟨outs, ?_, ?_, ?_⟩
  · unfold merge
    rw [q1, res_bind_ok, r1, res_bind_ok]
    rfl
  · simp only at r2
    rw [r2]
    have : (Utils.group fs).map (fun p => name p.1) = ((Utils.group fs).map Prod.fst).map name := by rw [List.map_map]; rfl
    rw [this]
    have e : times.map (fun t => name (Py.natStrPad 12 t)) = (times.map (Py.natStrPad 12)).map name := by rw [List.map_map]; rfl
    rw [e]
    apply List.Perm.map
    rw [List.perm_ext_iff_of_nodup q2 (htn.map (fun _ _ h => pad_inj h))]
    intro k
    rw [q3]
    simp only [List.mem_map]
    exact ⟨fun ⟨t, h1, h2⟩ => ⟨t, h1, h2.symm⟩, fun ⟨t, h1, h2⟩ => ⟨t, h1, h2.symm⟩⟩
  · intro t ht' text hmem
    have := r3 _ hmem
    rw [hGood] at this
    obtain ⟨t', w1, w2, w3⟩ := this
    obtain rfl := pad_inj (hinj _ _ w2)
    exact w3

/-- So nobody is told that a result is missing, and when it is the one of the zone of the first face, nothing computed for
new variables at this time gets into the file, though the results of all other zones are there. -/
theorem C117_lost_violation {S : Type} [LinearOrder S] [DecidableEq R] [Inhabited F] [Inhabited R] (c : Codec F) (hc : c.Lawful)
    (rc : Vec F → R) (gridText title : Str) (blocks : List (ZoneBlock F)) (hfile : GridFile c gridText title blocks)
    (htitle : PlainName title) (hnames : ∀ b ∈ blocks, PlainName b.name) (hd : NonDegenerate rc true blocks)
    (a g1 gd : Grid F R) (h1 : loadText rc c true a gridText = .ok g1) (f0 : Nat) (rest : List Nat) (h0 : g1.faces = f0 :: rest)
    (hold : ∀ v ∈ (g1.fData f0).map Prod.fst, PlainVar v) (holdn : ((g1.fData f0).map Prod.fst).Nodup)
    (calls : List (DecompCall S)) (hp : ∀ c ∈ calls, c.Possible) (hcalls : calls.foldlM DecompCall.run g1 = .ok gd)
    (dflt : F) (files : List (MpiFile F)) (hm : gd.storeMpi dflt = .ok files) (hmax : files.length ≤ 100000)
    (vars : List Str) (hv : ∀ v ∈ vars, PlainVar v) (hnd : vars.Nodup)
    (nm dst : Str) (times : List Nat) (htn : times.Nodup) (ht : ∀ t ∈ times, t < 10 ^ 12) (has : Nat → Nat → Prop)
    (res : Nat → Nat → List F) (hres : ∀ t i, (res t i).length = vars.length) (dir : List (Str × Str))
    (hdir : SomeResults c vars nm files times has res dir) (t : Nat) (htt : t ∈ times)
    (hmiss : ¬ HasResult files has t (g1.fGlo f0)) (v : Str) (hnew : v ∉ (g1.fData f0).map Prod.fst) :
    ∃ outs text, merge (R := R) rc c dflt gridText dst nm dir = .ok outs ∧
      (dst ++ ['/'] ++ nm ++ "_r_".toList ++ Py.natStrPad 12 t ++ ".dat".toList, text) ∈ outs ∧
      ∀ g0 : Grid F R, ∃ g', loadText rc c true g0 text = .ok g' ∧ ∀ f ∈ g'.faces, v ∉ (g'.fData f).map Prod.fst := by
  obtain ⟨outs, e1, e2, e3⟩ := C117_merge_partial c hc rc gridText title blocks hfile htitle hnames hd a g1 gd h1 f0 rest h0 hold holdn
    calls hp hcalls dflt files hm hmax vars hv hnd nm dst times htn ht has res hres dir hdir
  have hmem := (e2.mem_iff).2 (List.mem_map.2 ⟨t, htt, rfl⟩)
  obtain ⟨⟨fn, text⟩, hin, rfl⟩ := List.mem_map.1 hmem
  refine ⟨outs, text, e1, hin, fun g0 => ?_⟩
  obtain ⟨vs, -, hvs, hg⟩ := e3 t htt text hin
  obtain ⟨g', l1, l2⟩ := hg g0
  refine ⟨g', l1, fun f hf => ?_⟩
  obtain ⟨fd, -, a1, a2, -⟩ := forall₂_right l2 hf
  have key : ∀ d : List (Str × F), (valuesFor dflt vs d).map Prod.fst = vs := by
    intro d; unfold valuesFor; rw [List.map_map]; exact List.map_id _
  by_cases h : HasResult files has t (g1.fGlo fd)
  · rw [a1 h, key, hvs hmiss]; exact hnew
  · rw [a2 h, key, hvs hmiss]; exact hnew

/-- When the zone of the first face has results, all faces with results have their own values; the other faces have for the same
variables what the grid file says, or zero: nothing in the file tells them apart. -/
theorem C117_stale_violation {S : Type} [LinearOrder S] [DecidableEq R] [Inhabited F] [Inhabited R] (c : Codec F) (hc : c.Lawful)
    (rc : Vec F → R) (gridText title : Str) (blocks : List (ZoneBlock F)) (hfile : GridFile c gridText title blocks)
    (htitle : PlainName title) (hnames : ∀ b ∈ blocks, PlainName b.name) (hd : NonDegenerate rc true blocks)
    (a g1 gd : Grid F R) (h1 : loadText rc c true a gridText = .ok g1) (f0 : Nat) (rest : List Nat) (h0 : g1.faces = f0 :: rest)
    (hold : ∀ v ∈ (g1.fData f0).map Prod.fst, PlainVar v) (holdn : ((g1.fData f0).map Prod.fst).Nodup)
    (calls : List (DecompCall S)) (hp : ∀ c ∈ calls, c.Possible) (hcalls : calls.foldlM DecompCall.run g1 = .ok gd)
    (dflt : F) (files : List (MpiFile F)) (hm : gd.storeMpi dflt = .ok files) (hmax : files.length ≤ 100000)
    (vars : List Str) (hv : ∀ v ∈ vars, PlainVar v) (hnd : vars.Nodup)
    (nm dst : Str) (times : List Nat) (htn : times.Nodup) (ht : ∀ t ∈ times, t < 10 ^ 12) (has : Nat → Nat → Prop)
    (res : Nat → Nat → List F) (hres : ∀ t i, (res t i).length = vars.length) (dir : List (Str × Str))
    (hdir : SomeResults c vars nm files times has res dir) (t : Nat) (htt : t ∈ times)
    (hfirst : HasResult files has t (g1.fGlo f0)) :
    ∃ outs text, merge (R := R) rc c dflt gridText dst nm dir = .ok outs ∧
      (dst ++ ['/'] ++ nm ++ "_r_".toList ++ Py.natStrPad 12 t ++ ".dat".toList, text) ∈ outs ∧
      ∀ g0 : Grid F R, ∃ g', loadText rc c true g0 text = .ok g' ∧
        List.Forall₂ (fun fd f =>
          (HasResult files has t (g1.fGlo fd) → g'.fData f = vars.zip (res t (g1.fGlo fd))) ∧
          (¬ HasResult files has t (g1.fGlo fd) → g'.fData f = vars.map (fun v => (v, (Py.dictGet? (g1.fData fd) v).getD dflt))))
          g1.faces g'.faces := by
  obtain ⟨outs, e1, e2, e3⟩ := C117_merge_partial c hc rc gridText title blocks hfile htitle hnames hd a g1 gd h1 f0 rest h0 hold holdn
    calls hp hcalls dflt files hm hmax vars hv hnd nm dst times htn ht has res hres dir hdir
  have hmem := (e2.mem_iff).2 (List.mem_map.2 ⟨t, htt, rfl⟩)
  obtain ⟨⟨fn, text⟩, hin, rfl⟩ := List.mem_map.1 hmem
  refine ⟨outs, text, e1, hin, fun g0 => ?_⟩
  obtain ⟨vs, hvs, -, hg⟩ := e3 t htt text hin
  obtain ⟨g', l1, l2⟩ := hg g0
  refine ⟨g', l1, l2.imp ?_⟩
  rintro fd f ⟨a1, a2, -⟩
  rw [hvs hfirst] at a1 a2
  exact ⟨fun h => by rw [a1 h, valuesFor_zip dflt vars hnd _ (hres _ _)], fun h => a2 h⟩

/-- A directory with the results of the second of two zones only. -/
example : ∃ files dir, Sample.grid.storeMpi 0 = .ok files ∧
    SomeResults intCodec ["T".toList] "bunny".toList files [7] (fun _ i => i = 1) (fun t i => [((t * i : Nat) : Int)]) dir ∧
    files.length = 2 ∧ dir.length = 1 := by
  have h := storeMpi_spec Sample.wf Sample.loaded.2.lists Sample.loaded.2.glo.perm (0 : Int)
  obtain ⟨files, hf⟩ : ∃ files, files = Sample.grid.zones.zipIdx.map (fun p => mpiFileOf Sample.grid (0 : Int) p.1 p.2) := ⟨_, rfl⟩
  rw [← hf] at h
  have hl : files.length = 2 := by rw [hf, Sample.zones]; rfl
  obtain ⟨m0, m1, rfl⟩ := List.length_eq_two.1 hl
  refine ⟨[m0, m1], [(Utils.mpiName "bunny".toList 1 (Py.natStrPad 12 7) "txt".toList,
      resultText intCodec ["T".toList] (fun i => [((7 * i : Nat) : Int)]) m1)], h, ⟨?_, ?_, ?_, ?_⟩, rfl, rfl⟩
  · simp
  · intro t _
    exact ⟨1, m1, rfl, rfl⟩
  · intro t ht i m hi hh
    obtain rfl := List.mem_singleton.1 ht
    subst hh
    obtain rfl := Option.some.inj hi
    exact List.mem_singleton.2 rfl
  · intro p hp
    right
    exact ⟨7, by simp, 1, m1, rfl, rfl, List.mem_singleton.1 hp⟩

end Verif.Props
