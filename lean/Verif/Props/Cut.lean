import Verif.Proofs.CutLoad
import Verif.Props.Calc

/-! Property C110: files cut short. -/

namespace Verif.Props
open Verif Grid
variable {F R : Type} [DecidableEq R]

/-! ## C110 A grid file that ends too early

The property would be: any proper beginning of a stored file is refused. It does not hold. -/

/-- What any beginning of a stored file, cut at any character, can be loaded as: the first zones of the grid, complete (the
same names, and face by face the same data and exactly the same corner coordinates), and possibly one zone more that is
complete too except that the very last number read has lost some of its last digits. No other wrong grid can come out:
in all other places the cut makes `load` raise. (Partial: a beginning is not always refused, see below.) -/
theorem C110_cut_partial (c : Codec F) (hc : c.Lawful) (dflt : F) (rc : Vec F → R) (merge : Bool) (g g1 g' : Grid F R) (hg : Storable g)
    (hv : SameVars g) (hk : KeysApart rc merge g) (text p : Str) (hs : g.storeText c dflt = .ok text) (hp : p <+: text)
    (h : loadText rc c merge g1 p = .ok g') :
    ∃ j, List.Forall₂ (KeptZone g g') (g.zones.take j) g'.zones ∨
      ∃ z zs' z', g.zones[j]? = some z ∧ g'.zones = zs' ++ [z'] ∧ List.Forall₂ (KeptZone g g') (g.zones.take j) zs' ∧
        ShortZone g g' z z' :=
  load_cut hc hg.wf hg.lists hg.ids hg.faces hg.name hg.zoneNames hg.vars hg.dict hk
    (fun _ hf => dict_eq g dflt hv hg.dict hf) hs hp h

/-- A file cut after any number of its zones, even right after the head, is loaded without complaint as a consistent
grid with the same title and these zones only. -/
theorem C110_boundary_violation (c : Codec F) (hc : c.Lawful) (dflt : F) (rc : Vec F → R) (merge : Bool) (g : Grid F R) (hg : Storable g)
    (hv : SameVars g) (hk : KeysApart rc merge g) (text : Str) (hs : g.storeText c dflt = .ok text) (j : Nat) (hj : j < g.zones.length) :
    ∃ p, p <+: text ∧ p.length < text.length ∧ ∀ g1 : Grid F R, ∃ g', loadText rc c merge g1 p = .ok g' ∧ g'.name = g.name ∧
      Wf g' ∧ List.Forall₂ (KeptZone g g') (g.zones.take j) g'.zones :=
  load_boundary hc hg.wf hg.lists hg.ids hg.faces hg.name hg.zoneNames hg.vars hg.dict hk
    (fun _ hf => dict_eq g dflt hv hg.dict hf) hs hj

/-- Four triangles without common corners: twelve nodes. -/
def cutBlocks : List (ZoneBlock Int) :=
  [{ name := "z".toList, pts := (List.range 12).map (fun i => ⟨(i : Int), (i * i : Int), 0⟩),
     faces := [([("T".toList, 1)], [1, 2, 3]), ([("T".toList, 2)], [4, 5, 6]), ([("T".toList, 3)], [7, 8, 9]),
       ([("T".toList, 4)], [10, 11, 12])] }]

def cutSample : Grid Int (Int × Int × Int) :=
  match loadBlocks Sample.rc true Sample.new cutBlocks with
  | .ok g => g
  | .error _ => Sample.new

theorem cutSample_loaded : Loaded Sample.rc true cutBlocks Sample.new cutSample := by
  have ho : (loadBlocks Sample.rc true Sample.new cutBlocks).isOk = true := by decide +kernel
  have hl : loadBlocks Sample.rc true Sample.new cutBlocks = .ok cutSample := by
    unfold cutSample
    split
    · assumption
    · rename_i e he; rw [he] at ho; cases ho
  rcases load_spec Sample.rc true Sample.new cutBlocks (by decide +kernel) (by decide +kernel) (by intro h; cases h) with
    ⟨_, h⟩ | ⟨_, g, h2, h3⟩
  · rw [hl] at h; cases h
  · rw [hl] at h2
    obtain rfl := Except.ok.inj h2
    exact h3

theorem cutSample_storable : Storable cutSample ∧ SameVars cutSample ∧ KeysApart Sample.rc true cutSample :=
  ⟨⟨⟨cutSample_loaded.mesh, cutSample_loaded.zones, cutSample_loaded.alloc⟩, cutSample_loaded.lists, cutSample_loaded.glo.perm,
    by decide +kernel, by decide +kernel, by decide +kernel, by decide +kernel, by decide +kernel⟩,
    by unfold SameVars; decide +kernel, by simp only [KeysApart]; decide +kernel⟩

/-- There is a result and it passes the test. -/
def okAnd {α : Type} (r : Res α) (q : α → Bool) : Bool :=
  match r with
  | .ok a => q a
  | .error _ => false

theorem okAnd_elim {α : Type} {r : Res α} {q : α → Bool} (h : okAnd r q = true) : ∃ a, r = .ok a ∧ q a = true := by
  cases r with
  | ok a => exact ⟨a, rfl, h⟩
  | error e => cases h

/-- A file of four triangles without its last two characters is loaded without complaint, and the last triangle has a
corner of the first one instead of its own third corner. -/
theorem C110_digit_violation : ∃ (g : Grid Int (Int × Int × Int)) (text p : Str), Storable g ∧ SameVars g ∧ KeysApart Sample.rc true g ∧
    g.storeText intCodec 0 = .ok text ∧ p <+: text ∧ text.length = p.length + 2 ∧
    ∃ g', loadText Sample.rc intCodec true Sample.new p = .ok g' ∧
      (g.faces.map (fun f => (g.fNodes f).map g.nP)).getLast? = some [⟨9, 81, 0⟩, ⟨10, 100, 0⟩, ⟨11, 121, 0⟩] ∧
      (g'.faces.map (fun f => (g'.fNodes f).map g'.nP)).getLast? = some [⟨9, 81, 0⟩, ⟨10, 100, 0⟩, ⟨0, 0, 0⟩] := by
  obtain ⟨h1, h2, h3⟩ := cutSample_storable
  obtain ⟨text, ht, hq⟩ := okAnd_elim (r := cutSample.storeText intCodec 0) (q := fun text => decide (2 ≤ text.length) &&
    okAnd (loadText Sample.rc intCodec true Sample.new (text.take (text.length - 2))) (fun g' =>
      decide ((g'.faces.map (fun f => (g'.fNodes f).map g'.nP)).getLast? = some [⟨9, 81, 0⟩, ⟨10, 100, 0⟩, ⟨0, 0, 0⟩])))
    (by decide +kernel)
  simp only [Bool.and_eq_true, decide_eq_true_eq] at hq
  obtain ⟨g', hg', h4⟩ := okAnd_elim hq.2
  refine ⟨cutSample, text, text.take (text.length - 2), h1, h2, h3, ht, List.take_prefix _ _, by rw [List.length_take]; omega, g', hg', ?_,
    of_decide_eq_true h4⟩
  decide +kernel

omit [DecidableEq R] in
/-- The other end of the range: when the last number of the zone has one digit, a cut inside of the last zone is either
refused or costs the last line end only. -/
theorem C110_few_nodes (g g' : Grid F R) (z z' : Nat) (hz : (g.zNodes z).length < 10) (h : ShortZone g g' z z') : KeptZone g g' z z' := by
  obtain ⟨h1, fs, f, fs', f', a, b, m, n, k, i, e1, e2, e3, e4, e5, e6, e7, e8, e9, e10⟩ := h
  have hk : k < 10 := by
    have := (List.getElem?_eq_some_iff.1 e7).1
    omega
  have hi : i = 0 := by
    by_contra hi
    have h10 : 10 ^ 1 ≤ 10 ^ i := Nat.pow_le_pow_right (by omega) (by omega)
    have : k / 10 ^ i = 0 := Nat.div_eq_of_lt (by omega)
    omega
  subst hi
  rw [Nat.pow_zero, Nat.div_one, e7] at e9
  obtain rfl := Option.some.inj e9
  refine ⟨h1, ?_⟩
  rw [e1, e2]
  exact List.rel_append e3 (.cons ⟨e4, by rw [e10, e5]; rfl⟩ .nil)

/-! ### Results of calculations -/

omit [DecidableEq R] in
/-- A file with calculation results cut after any of its lines is loaded without complaint: the faces of the missing
lines keep the data they had. -/
theorem C110_results_violation (c : Codec F) (hc : c.Lawful) (g : Grid F R) (hn : g.faces.Nodup) (hg : GloIds g) (val : Nat → Str → F)
    (k : Nat) (hk : k < g.faces.length) :
    ∃ p, p <+: g.storeCalc c val ∧ p.length < (g.storeCalc c val).length ∧ ∃ d, g.loadCalc c p = .ok { g with fData := d } ∧
      ∀ (i f : Nat), g.faces[i]? = some f → d f = if i < k then ["T".toList, "Hw".toList, "Hi".toList].map (fun v => (v, val f v))
        else g.fData f := by
  obtain ⟨vars, hvars⟩ : ∃ vars, vars = ["T".toList, "Hw".toList, "Hi".toList] := ⟨_, rfl⟩
  have hplain : ∀ v ∈ vars, PlainVar v := by rw [hvars]; decide
  have hnd : vars.Nodup := by rw [hvars]; decide
  obtain ⟨row, hrow⟩ : ∃ row : Nat → Nat × List F, row = fun f => (g.fGlo f, vars.map (val f)) := ⟨_, rfl⟩
  have htext : g.storeCalc c val = calcText c vars ((g.faces.take k).map row) ++ ((g.faces.drop k).map (fun f => calcLine c (row f))).flatten := by
    unfold storeCalc calcText
    rw [← hvars, ← List.flatten_append, List.cons_append, List.map_map, List.map_map]
    congr 2
    rw [show (calcLine c ∘ row) = fun f => calcLine c (row f) from rfl, ← List.map_append, List.take_append_drop, hrow, hvars]
    rfl
  refine ⟨calcText c vars ((g.faces.take k).map row), by rw [htext]; exact List.prefix_append _ _, ?_, ?_⟩
  · rw [htext, List.length_append, List.drop_eq_getElem_cons hk, List.map_cons, List.flatten_cons, List.length_append]
    have : 0 < (calcLine c (row g.faces[k])).length := by simp [calcLine]
    omega
  · have hin : ∀ r ∈ ((g.faces.take k).map row).map (fun p => ((p.1 : Int), p.2)), ∃ i < g.faces.length, Names g.faces.length r.1 i := by
      intro r hr
      simp only [List.mem_map] at hr
      obtain ⟨_, ⟨f, hf, rfl⟩, rfl⟩ := hr
      obtain ⟨i, hi⟩ := List.getElem?_of_mem (List.mem_of_mem_take hf)
      exact ⟨i, (List.getElem?_eq_some_iff.1 hi).1, .inl (by rw [hrow]; simp only [hg.faces i f hi])⟩
    obtain ⟨d, h1, -, h2⟩ := recs_ok vars g hn _ hin
    refine ⟨d, by rw [loadCalc_calcText hc vars hplain, h1], ?_⟩
    intro i f hi
    rw [h2 i f hi]
    have hlt := (List.getElem?_eq_some_iff.1 hi).1
    by_cases hik : i < k
    · rw [if_pos hik]
      have : lastFor g.faces.length (((g.faces.take k).map row).map (fun p => ((p.1 : Int), p.2))) i = some (vars.map (val f)) := by
        unfold lastFor
        cases hfi : List.find? _ _ with
        | none =>
          rw [List.find?_eq_none] at hfi
          refine absurd ?_ (hfi ((g.fGlo f : Int), vars.map (val f)) ?_)
          · simp [Names, hg.faces i f hi]
          · rw [List.mem_reverse, List.map_map]
            refine List.mem_map.2 ⟨f, ?_, by rw [hrow]; rfl⟩
            exact List.mem_of_getElem? (i := i) (by rw [List.getElem?_take, if_pos hik, hi])
        | some r =>
          have hr := List.mem_of_find?_eq_some hfi
          have hN := List.find?_some hfi
          simp only [decide_eq_true_eq] at hN
          rw [List.mem_reverse, List.map_map] at hr
          obtain ⟨f', hf', rfl⟩ := List.mem_map.1 hr
          obtain ⟨i', hi'⟩ := List.getElem?_of_mem (List.mem_of_mem_take hf')
          have hlt' := (List.getElem?_eq_some_iff.1 hi').1
          rw [hrow] at hN ⊢
          simp only [Function.comp, hg.faces i' f' hi'] at hN ⊢
          have : i' = i := names_inj hlt' hlt (.inl rfl) hN
          rw [this, hi] at hi'
          rw [Option.some.inj hi']
          rfl
      rw [this]
      simp only
      rw [zip_map_self, ← hvars, Py.dictOf_nodup]
      rw [List.map_map]
      simpa [Function.comp_def] using hnd
    · rw [if_neg hik]
      have : lastFor g.faces.length (((g.faces.take k).map row).map (fun p => ((p.1 : Int), p.2))) i = none := by
        unfold lastFor
        rw [Option.map_eq_none_iff, List.find?_eq_none]
        intro r hr
        rw [List.mem_reverse, List.map_map] at hr
        obtain ⟨f', hf', rfl⟩ := List.mem_map.1 hr
        obtain ⟨i', hi'⟩ := List.getElem?_of_mem hf'
        have hk' : i' < k := by
          have := (List.getElem?_eq_some_iff.1 hi').1
          rw [List.length_take] at this
          omega
        rw [List.getElem?_take, if_pos hk'] at hi'
        rw [hrow]
        simp only [Function.comp, hg.faces i' f' hi', decide_eq_true_eq]
        unfold Names
        omega
      rw [this]

/-- Cut inside of a line, the face of this line loses variables or gets a number without its last digits. -/
theorem C110_results_line_violation : ∃ (text p q : Str), p <+: text ∧ q <+: text ∧
    (do let g ← Sample.grid.loadCalc intCodec text; pure (g.faces.map g.fData)) =
      .ok [[("T".toList, 5)], [("T".toList, 11), ("Hw".toList, 21)], [("T".toList, 75), ("Hw".toList, 86)]] ∧
    (do let g ← Sample.grid.loadCalc intCodec p; pure (g.faces.map g.fData)) =
      .ok [[("T".toList, 5)], [("T".toList, 11), ("Hw".toList, 21)], [("T".toList, 75)]] ∧
    (do let g ← Sample.grid.loadCalc intCodec q; pure (g.faces.map g.fData)) =
      .ok [[("T".toList, 5)], [("T".toList, 11), ("Hw".toList, 21)], [("T".toList, 75), ("Hw".toList, 8)]] :=
  ⟨"VARIABLES=\"GloId\", \"T\", \"Hw\"\n1 11 21\n2 75 86\n".toList, "VARIABLES=\"GloId\", \"T\", \"Hw\"\n1 11 21\n2 75".toList,
    "VARIABLES=\"GloId\", \"T\", \"Hw\"\n1 11 21\n2 75 8".toList, by decide, by decide, by decide +kernel, by decide +kernel,
    by decide +kernel⟩

/-! ### The hypotheses can be met -/

/-- The file of the sample grid of two zones, 325 characters long, cut at some places: numbers of zones loaded. -/
example : (do
    let t ← Sample.grid.storeText intCodec 0
    pure (t.length, [49, 193, 194, 195, 260, 323, 324].map (fun k =>
      match loadText Sample.rc intCodec true Sample.new (t.take k) with
      | .ok g => some g.zones.length
      | .error _ => none))) =
    Except.ok (325, [some 0, some 1, some 1, none, none, none, some 2]) := by decide +kernel

end Verif.Props
