import Verif.Spec.RemeshMain
import Verif.Model.RemeshMain
import Verif.Props.SplitMain
import Verif.Props.Remesh
import Verif.Props.Convert
import Verif.Proofs.Store
import Verif.Proofs.DropsFile2
import Verif.Props.DropsFile

/-! Properties C83, C84: the remeshing program. -/

namespace Verif.Props
open Verif Grid
variable {F R : Type}

theorem optInt_ok {data : Json F} {key : Str} {d v : Int} (h : OptInt (some data) key d v) : data.optInt key d = .ok v := by
  unfold Json.optInt
  rcases h with h | ⟨h, rfl⟩
  · rw [has_item h, orKey_ok]
  · rw [lacks_item h, orKey_key]

theorem optNum_ok [IntCast F] {data : Json F} {key : Str} {d v : F} (h : OptNum (some data) key d v) : data.optNum key d = .ok v := by
  unfold Json.optNum
  rcases h with h | ⟨i, h, rfl⟩ | ⟨h, rfl⟩
  · rw [has_item h, orKey_ok]
  · rw [has_item h, orKey_ok]
  · rw [lacks_item h, orKey_key]

theorem optBool_ok [Zero F] [DecidableEq F] {data : Json F} {key : Str} {d v : Bool} (h : OptBool (some data) key d v) :
    data.optBool key d = .ok v := by
  unfold Json.optBool
  rcases h with h | ⟨h, rfl⟩
  · rw [has_item h, orKey_ok]; rfl
  · rw [lacks_item h, orKey_key]; rfl

section
variable [Field F] [LinearOrder F]

/-- The options that the JSON file gives are taken under their documented names, all others have their defaults; other entries of the
file do not matter. -/
theorem C83_options [CharZero F] {json : Option (Json F)} {P : RemeshPar F} (h : OptionsOf json P) :
    remeshOptions P.sqrt P.trunc json = .ok P := by
  have e1 : (5 / 100 : F) = 1 / 20 := by norm_num
  have e2 : (2 / 10 : F) = 1 / 5 := by norm_num
  cases json with
  | none =>
    obtain ⟨h1, h2, h3, h4, h5, h6, h7, h8, h9, h10, h11, h12, h13, h14⟩ := h
    simp only [OptInt, OptNum, OptBool] at *
    obtain ⟨a1, a2, a3, a4, a5, a6, a7, a8, a9, a10, a11, a12, a13, a14, a15, a16⟩ := P
    simp only at *
    subst h1 h2 h3 h4 h5 h6 h7 h8 h9 h10 h11 h12 h13 h14
    unfold remeshOptions defaultOptions
    simp only [e1, e2]
  | some data =>
    show readOptions data (defaultOptions P.sqrt P.trunc) = _
    unfold readOptions defaultOptions
    simp only [e1, e2]
    rw [optInt_ok h.nstepsMin, res_bind_ok, optInt_ok h.nstepsMax, res_bind_ok, optNum_ok h.hiSideFact, res_bind_ok,
      optNum_ok h.ignorePart, res_bind_ok, optInt_ok h.nsmoothSteps, res_bind_ok, optNum_ok h.nsmoothS, res_bind_ok,
      optNum_ok h.nsmoothK, res_bind_ok, optInt_ok h.hsmoothSteps, res_bind_ok, optNum_ok h.hsmoothAlfa, res_bind_ok,
      optNum_ok h.hsmoothBeta, res_bind_ok, optBool_ok h.redistr, res_bind_ok, optInt_ok h.nssSteps, res_bind_ok,
      optBool_ok h.nssFixNodes, res_bind_ok, optBool_ok h.pseudo2d, res_bind_ok]

theorem moved_storable {g q : Grid F R} (hS : Storable g) {p b c D} (hq : q = { g with nP := p, nBorder := b, borderCnt := c, fData := D }) :
    Wf q ∧ ZoneLists q ∧ GloPerm q := by
  subst hq
  obtain ⟨⟨h1, h2, h3⟩, h4, h5, -⟩ := hS
  refine ⟨⟨?_, ?_, h3⟩, ?_, ?_⟩
  · cases h1; constructor <;> assumption
  · cases h2; constructor <;> assumption
  · cases h4; constructor <;> assumption
  · cases h5; constructor <;> assumption

theorem remeshed_file [DecidableEq R] [Inhabited F] {rc : Vec F → R} {c : Codec F} (hc : c.Lawful) {P : RemeshPar F} {out : Str}
    {g : Grid F R} (hS : Storable g) {r : Ice F R} (h1 : Ice.run P g = .ok r) (h : r.g.storeText c 0 = .ok out) (merge : Bool)
    (hk : KeysApart rc merge r.g) (g1 : Grid F R) : ∃ g', loadText rc c merge g1 out = .ok g' ∧ g'.name = g.name ∧
      List.Forall₂ (fun z z' => g'.zName z' = g.zName z ∧ List.Forall₂ (fun f f' =>
        g'.fData f' = (iceVars g.vars).map (fun v => (v, if v = "Hi".toList then 0 else g.getData 0 f v)) ∧
        (g'.fNodes f').map g'.nP = (g.fNodes f).map r.g.nP) (g.zFaces z) (g'.zFaces z')) g.zones g'.zones := by
  obtain ⟨p, b, k, D, e, -, -, hD⟩ := C64_changes hS.wf.mesh h1
  obtain ⟨q, hq⟩ : ∃ q, q = r.g := ⟨_, rfl⟩
  rw [← hq] at e hk h
  obtain ⟨w1, w2, w3⟩ := moved_storable hS e
  obtain ⟨f0, fs, hfs⟩ := List.exists_cons_of_ne_nil hS.faces
  have hqv : q.vars = iceVars g.vars := by
    rw [e]
    unfold Grid.vars
    dsimp only
    rw [hfs]
    exact (hD f0 (by rw [hfs]; simp)).2.1
  have hmem : ∀ v ∈ iceVars g.vars, v ∈ g.vars ∨ v = "Hi".toList := by
    intro v hv
    unfold iceVars at hv
    rcases List.mem_append.1 hv with hv | hv
    · exact Or.inl hv
    · split_ifs at hv
      · cases hv
      · exact Or.inr (List.mem_singleton.1 hv)
  obtain ⟨text', t1, t2⟩ := load_store hc 0 w1 w2 w3 (by rw [e]; exact hS.faces)
    (by rw [e]; exact hS.name) (by rw [e]; exact hS.zoneNames) (by
      rw [hqv]
      intro v hv
      rcases hmem v hv with a | rfl
      · exact hS.vars v a
      · unfold PlainVar; decide) (by
      rw [hqv]
      unfold iceVars
      split_ifs with hi
      · rw [List.append_nil]; exact hS.dict
      · refine List.nodup_append.2 ⟨hS.dict, by simp, ?_⟩
        intro a ha b hb
        rw [List.mem_singleton] at hb
        rintro rfl
        exact hi (hb ▸ ha))
  rw [h] at t1
  obtain rfl := Except.ok.inj t1
  obtain ⟨g', t3, t4⟩ := store_loaded rc merge 0 w1 w2 hk { g1 with name := q.name }
  have t5 := reload_same w1 w2 hk t4
  refine ⟨g', by rw [t2, t3], by rw [t4.name, e], ?_⟩
  rw [hqv] at t5
  rw [← hq]
  subst e
  refine forall₂_mem t5 ?_
  rintro z hz z' _ ⟨e1, e2⟩
  refine ⟨e1, forall₂_mem e2 ?_⟩
  rintro f hf f' _ ⟨e3, e4⟩
  refine ⟨?_, forall₂_eq_map (e4.imp fun _ _ h => h.2)⟩
  rw [e3]
  apply List.map_congr_left
  intro v hv
  have hf' : f ∈ g.faces := hS.wf.face_mem hz hf
  congr 1
  show (Py.dictGet? (D f) v).getD 0 = _
  split_ifs with hv
  · rw [hv, (hD f hf').1]; rfl
  · rw [(hD f hf').2.2 v hv]; rfl

/-- Whenever remeshing of a file ends, the result read again (merging or not) has the title, the zones and the triangles of the given
grid in the same order. The corners are where the remesher moved the nodes. The variables are those of the given grid and `Hi`, which is
zero everywhere; the values of the others are as given. -/
theorem C83_file [CharZero F] [DecidableEq R] [Inhabited F] [Inhabited R] {rc : Vec F → R} {c : Codec F} (hc : c.Lawful) {json : Option (Json F)}
    {P : RemeshPar F} (hP : OptionsOf json P) {text out : Str} {g : Grid F R} (hg : loadText rc c true empty text = .ok g)
    (hS : Storable g) (h : remeshText (R := R) rc c P.sqrt P.trunc json text = .ok out) :
    ∃ r : Ice F R, Ice.run P g = .ok r ∧ ∀ merge, KeysApart rc merge r.g → ∀ g1 : Grid F R, ∃ g', loadText rc c merge g1 out = .ok g' ∧
      g'.name = g.name ∧
      List.Forall₂ (fun z z' => g'.zName z' = g.zName z ∧ List.Forall₂ (fun f f' =>
        g'.fData f' = (iceVars g.vars).map (fun v => (v, if v = "Hi".toList then 0 else g.getData 0 f v)) ∧
        (g'.fNodes f').map g'.nP = (g.fNodes f).map r.g.nP) (g.zFaces z) (g'.zFaces z')) g.zones g'.zones := by
  unfold remeshText at h
  rw [hg, res_bind_ok, C83_options hP, res_bind_ok] at h
  obtain ⟨r, h1, h⟩ := res_bind_eq_ok.1 h
  exact ⟨r, h1, fun merge hk g1 => remeshed_file hc hS h1 h merge hk g1⟩

/-- For a list of meshes: one result for each name that ends with `.dat`, in the order of the list, and nothing for the others. If one of
them fails, the program fails. -/
theorem C84_all [DecidableEq R] [Inhabited F] [Inhabited R] (rc : Vec F → R) (c : Codec F) (sqrt : F → F) (trunc : F → Int)
    (json : Option (Json F)) (outdir : Str) (meshes outs : List (Str × Str)) :
    remeshMain (R := R) rc c sqrt trunc json outdir meshes = .ok outs ↔
      List.Forall₂ (fun p o => o.1 = remeshName outdir p.1 ∧ remeshText (R := R) rc c sqrt trunc json p.2 = .ok o.2)
        (meshes.filter (fun p => ".dat".toList <:+ p.1)) outs := by
  unfold remeshMain
  have : (meshes.filter (fun p => ".dat".toList.isSuffixOf p.1)) = meshes.filter (fun p => ".dat".toList <:+ p.1) := by
    apply List.filter_congr
    intro p _
    rw [Bool.eq_iff_iff, List.isSuffixOf_iff_suffix, decide_eq_true_iff]
  rw [this]
  generalize meshes.filter (fun p => ".dat".toList <:+ p.1) = ms
  induction ms generalizing outs with
  | nil =>
    rw [List.mapM_nil, List.forall₂_nil_left_iff]
    exact ⟨fun h => (Except.ok.inj h).symm, fun h => by rw [h]; rfl⟩
  | cons m ms ih =>
    rw [List.mapM_cons, List.forall₂_cons_left_iff]
    constructor
    · intro h
      obtain ⟨o, h1, h⟩ := res_bind_eq_ok.1 h
      obtain ⟨t, h2, h1⟩ := res_bind_eq_ok.1 h1
      obtain ⟨os, h3, h⟩ := res_bind_eq_ok.1 h
      refine ⟨o, os, ⟨?_, ?_⟩, (ih os).1 h3, (Except.ok.inj h).symm⟩
      · rw [← Except.ok.inj h1]
      · rw [← Except.ok.inj h1]; exact h2
    · rintro ⟨o, os, ⟨h1, h2⟩, h3, rfl⟩
      rw [h2, res_bind_ok, (ih os).2 h3, ← h1]
      rfl

end

theorem replaceGo_none {old new : Str} (n : Nat) (s : Str) (h : ¬ old <:+: s) : Py.replaceGo old new n s = s := by
  induction n generalizing s with
  | zero => rfl
  | succ n ih =>
    cases s with
    | nil => rfl
    | cons ch s =>
      rw [Py.replaceGo, if_neg (fun hp => h (List.isPrefixOf_iff_prefix.1 hp).isInfix), ih]
      exact fun hi => h (hi.trans (List.suffix_cons ch s).isInfix)

theorem replaceGo_once {old new : Str} (ho : old ≠ []) (n : Nat) (a b : Str) (hn : a.length < n) (hb : ¬ old <:+: b)
    (hu : ∀ x y, a ++ old ++ b = x ++ old ++ y → x = a) : Py.replaceGo old new n (a ++ old ++ b) = a ++ new ++ b := by
  induction a generalizing n with
  | nil =>
    obtain ⟨n, rfl⟩ : ∃ k, n = k + 1 := ⟨n - 1, by simp at hn; omega⟩
    obtain ⟨ch, o, rfl⟩ := List.exists_cons_of_ne_nil ho
    rw [List.nil_append, List.cons_append, Py.replaceGo, if_pos ((List.isPrefixOf_iff_prefix (l₁ := ch :: o) (l₂ := ch :: (o ++ b))).2 ⟨b, rfl⟩)]
    have : (ch :: (o ++ b)).drop (ch :: o).length = b := by rw [← List.cons_append, List.drop_left]
    rw [this, replaceGo_none _ _ hb]
    rfl
  | cons ch a ih =>
    obtain ⟨n, rfl⟩ : ∃ k, n = k + 1 := ⟨n - 1, by simp at hn; omega⟩
    rw [List.cons_append, List.cons_append, Py.replaceGo, if_neg, ih n (by simp at hn; omega)]
    · rfl
    · intro x y e
      have := hu (ch :: x) y (by rw [List.cons_append, List.cons_append, e]; rfl)
      exact (List.cons.inj this).2
    · intro hp
      obtain ⟨y, hy⟩ := List.isPrefixOf_iff_prefix.1 hp
      have := hu [] y (by rw [List.nil_append, hy]; rfl)
      cases this

theorem meshFileName_dir (dir name : Str) (h : '/' ∉ name) : meshFileName (dir ++ '/' :: name) = '/' :: name := by
  unfold meshFileName
  rw [if_pos (by simp), List.reverse_append, List.reverse_cons, List.append_assoc, List.takeWhile_append_of_pos]
  · simp
  · intro ch hc
    rw [List.mem_reverse] at hc
    simpa using fun e : ch = '/' => h (e ▸ hc)

/-- The results are put into the given directory under the names of the meshes; a `_r_` in the name is replaced by `_`. -/
theorem C84_name (outdir dir a b : Str) :
    ('/' ∉ a → ¬ "_r_".toList <:+: a → remeshName outdir (dir ++ '/' :: a) = outdir ++ "//".toList ++ a) ∧
    ('/' ∉ a → '/' ∉ b → ¬ "_r_".toList <:+: b → (∀ x y, a ++ "_r_".toList ++ b = x ++ "_r_".toList ++ y → x = a) →
      remeshName outdir (dir ++ '/' :: (a ++ "_r_".toList ++ b)) = outdir ++ "//".toList ++ (a ++ "_".toList ++ b)) := by
  constructor
  · intro h1 h2
    unfold remeshName Py.replace
    rw [meshFileName_dir _ _ h1, replaceGo_none]
    · simp
    · intro hi
      rcases List.infix_cons_iff.1 hi with h | h
      · obtain ⟨y, hy⟩ := h
        cases (List.cons.inj hy).1
      · exact h2 h
  · intro h1 h2 h3 h4
    unfold remeshName Py.replace
    rw [meshFileName_dir _ _ (by simp [h1, h2])]
    have e : '/' :: (a ++ "_r_".toList ++ b) = ('/' :: a) ++ "_r_".toList ++ b := rfl
    rw [e, replaceGo_once (by decide) _ _ _ (by simp) h3]
    · simp
    · intro x y e
      cases x with
      | nil => cases (List.cons.inj e).1
      | cons ch x =>
        obtain ⟨e1, e2⟩ := List.cons.inj e
        rw [← e1, h4 x y e2]

theorem remeshName_plain (outdir : Str) {dir a : Str} (h1 : '/' ∉ a) (h2 : ¬ "_r_".toList <:+: a) :
    remeshName outdir (dir ++ '/' :: a) = outdir ++ "//".toList ++ a := (C84_name outdir dir a []).1 h1 h2

/-- The files of a directory have results of different names if `_r_` is in none of their names. Missing: names with `_r_`, for them it
is false. -/
theorem C84_distinct_partial [Field F] [LinearOrder F] [DecidableEq R] [Inhabited F] [Inhabited R] (rc : Vec F → R) (c : Codec F)
    (sqrt : F → F) (trunc : F → Int) (json : Option (Json F)) (outdir dir : Str) (files : List (Str × Str)) {outs : List (Str × Str)}
    (hn : (files.map Prod.fst).Nodup) (hs : ∀ p ∈ files, '/' ∉ p.1) (hr : ∀ p ∈ files, ¬ "_r_".toList <:+: p.1)
    (h : remeshMain (R := R) rc c sqrt trunc json outdir (files.map fun p => (dir ++ '/' :: p.1, p.2)) = .ok outs) :
    (outs.map Prod.fst).Nodup := by
  have h := (C84_all rc c sqrt trunc json outdir _ outs).1 h
  have e : outs.map Prod.fst =
      ((files.map fun p => (dir ++ '/' :: p.1, p.2)).filter (fun p => ".dat".toList <:+ p.1)).map (fun p => remeshName outdir p.1) := by
    exact forall₂_eq_map (h.imp fun _ _ h => h.1)
  have nd : ((files.map fun p => (dir ++ '/' :: p.1, p.2)).map (fun p => remeshName outdir p.1)).Nodup := by
    rw [List.map_map]
    have : files.map ((fun p : Str × Str => remeshName outdir p.1) ∘ fun p => (dir ++ '/' :: p.1, p.2)) =
        (files.map Prod.fst).map (fun a => outdir ++ "//".toList ++ a) := by
      rw [List.map_map]
      apply List.map_congr_left
      intro p hp
      exact remeshName_plain outdir (hs p hp) (hr p hp)
    rw [this]
    exact hn.map fun a b h => List.append_cancel_left h
  rw [e]
  exact nd.sublist (List.filter_sublist.map _)

/-- Different meshes of one directory may have the same result: of `wing_r_1.dat` and `wing_1.dat` only the last one remains. -/
theorem C84_collision_violation : ∃ (outdir m1 m2 : Str), m1 ≠ m2 ∧ remeshName outdir m1 = remeshName outdir m2 :=
  ⟨"out".toList, "in/wing_r_1.dat".toList, "in/wing_1.dat".toList, by decide, by decide +kernel⟩

/-- Two files for which the names are different; a third one is no mesh. -/
example : let files : List (Str × Str) := [("a.dat".toList, []), ("b_r.dat".toList, []), ("a.txt".toList, [])]
    (files.map Prod.fst).Nodup ∧ (∀ p ∈ files, '/' ∉ p.1) ∧ (∀ p ∈ files, Py.contains "_r_".toList p.1 = false) := by decide +kernel

/-- The name `wing_r_1.dat` has `_r_` once. -/
example : remeshName "out".toList "in/wing_r_1.dat".toList = "out//wing_1.dat".toList := by decide +kernel

/-! ### Samples -/

/-- Some of the options. -/
def iceJson : Json ℚ := .obj [("remesh_nsteps_max".toList, .int 3), ("remesh_nsteps_ignore_part".toList, .num (1 / 2)),
  ("remesh_nsmooth_s".toList, .int 4), ("remesh_rest_volume_redistr".toList, .bool false), ("color".toList, .str "red".toList)]

theorem lacks_of {l : List (Str × Json ℚ)} {k : Str} (h : k ∉ l.map Prod.fst) : (Json.obj l).Lacks k :=
  ⟨l, rfl, fun v hv => h (List.mem_map.2 ⟨(k, v), hv, rfl⟩)⟩

/-- The options are found. -/
theorem ice_options (sqrt : ℚ → ℚ) (trunc : ℚ → Int) : OptionsOf (some iceJson) ⟨sqrt, trunc, 0, 3, 1 / 10, 1 / 2, 0, 4, 15 / 100, 0, 1 / 5, 1 / 10, false, 0,
    true, false⟩ where
  nstepsMin := Or.inr ⟨lacks_of (by decide), rfl⟩
  nstepsMax := Or.inl ⟨_, rfl, rfl⟩
  hiSideFact := Or.inr (Or.inr ⟨lacks_of (by decide), rfl⟩)
  ignorePart := Or.inl ⟨_, rfl, rfl⟩
  nsmoothSteps := Or.inr ⟨lacks_of (by decide), rfl⟩
  nsmoothS := Or.inr (Or.inl ⟨4, ⟨_, rfl, rfl⟩, rfl⟩)
  nsmoothK := Or.inr (Or.inr ⟨lacks_of (by decide), rfl⟩)
  hsmoothSteps := Or.inr ⟨lacks_of (by decide), rfl⟩
  hsmoothAlfa := Or.inr (Or.inr ⟨lacks_of (by decide), rfl⟩)
  hsmoothBeta := Or.inr (Or.inr ⟨lacks_of (by decide), rfl⟩)
  redistr := Or.inl ⟨_, rfl, rfl⟩
  nssSteps := Or.inr ⟨lacks_of (by decide), rfl⟩
  nssFixNodes := Or.inr ⟨lacks_of (by decide), rfl⟩
  pseudo2d := Or.inr ⟨lacks_of (by decide), rfl⟩

/-- Without a JSON file. -/
example : OptionsOf none (⟨fun x => x, fun _ => 0, 0, 10, 1 / 10, 1 / 20, 0, 10, 15 / 100, 0, 1 / 5, 1 / 10, true, 0, true, false⟩ : RemeshPar ℚ) := by
  constructor <;> rfl

/-- Two triangles of a plane under ice. -/
def iceFile : Str := "# crys-gsu
TITLE=\"t\"
VARIABLES=\"X\", \"Y\", \"Z\", \"T\", \"Hi\"
ZONE T=\"low\"
NODES=4
ELEMENTS=2
DATAPACKING=BLOCK
ZONETYPE=FETRIANGLE
VARLOCATION=([4-5]=CELLCENTERED)
0 10 0 10
0 0 10 10
0 0 0 0
5 6
1/2 1/2
1 2 3
2 4 3
".toList

/-- What can be checked by running. -/
def iceCheck (P : RemeshPar ℚ) (text : Str) : Bool :=
  match parseFile ratCodec (Py.readlines text).length ⟨[], [], []⟩ (Py.readlines text) with
  | .error _ => false
  | .ok s => decide (∀ t ∈ fileFaces ratKey true s.blocks, t.Nodup) &&
    match loadBlocks (R := ℚ × ℚ × ℚ) ratKey true { (empty : Grid ℚ (ℚ × ℚ × ℚ)) with name := s.name } s.blocks with
    | .error _ => false
    | .ok g => decide (g.faces ≠ []) && decide ('=' ∉ g.name ∧ '\n' ∉ g.name ∧ '\r' ∉ g.name) &&
      decide (∀ z ∈ g.zones, ('=' ∉ g.zName z ∧ '\n' ∉ g.zName z ∧ '\r' ∉ g.zName z)) &&
      decide (∀ v ∈ g.vars, (v ≠ [] ∧ (∀ c ∈ v, Py.isWs c = false) ∧ '=' ∉ v ∧ '"' ∉ v ∧ ',' ∉ v)) && decide g.vars.Nodup &&
      match Ice.run P g with
      | .error _ => false
      | .ok r => decide (∀ n ∈ r.g.nodes, ∀ m ∈ r.g.nodes, ratKey (r.g.nP n) = ratKey (r.g.nP m) → n = m) &&
        decide (∃ n ∈ r.g.nodes, r.g.nP n ≠ g.nP n) &&
        match r.g.storeText ratCodec 0 with
        | .ok _ => true
        | .error _ => false

/-- The hypotheses of C83. -/
theorem iceCheck_sound {P : RemeshPar ℚ} {json : Option (Json ℚ)} (hP : OptionsOf json P) {text : Str} (h : iceCheck P text = true) :
    ∃ (g : Grid ℚ (ℚ × ℚ × ℚ)) (r : Ice ℚ (ℚ × ℚ × ℚ)) (out : Str), loadText ratKey ratCodec true empty text = .ok g ∧ Storable g ∧
      remeshText (R := ℚ × ℚ × ℚ) ratKey ratCodec P.sqrt P.trunc json text = .ok out ∧ Ice.run P g = .ok r ∧ KeysApart ratKey true r.g ∧
      ∃ n ∈ r.g.nodes, r.g.nP n ≠ g.nP n := by
  unfold iceCheck at h
  split at h
  · cases h
  rename_i s hs
  rw [Bool.and_eq_true] at h
  obtain ⟨hd, h⟩ := h
  split at h
  · cases h
  rename_i g hg
  simp only [Bool.and_eq_true, decide_eq_true_eq] at h hd
  obtain ⟨⟨⟨⟨⟨a1, a2⟩, a3⟩, a4⟩, a5⟩, h⟩ := h
  split at h
  · cases h
  rename_i r hr
  simp only [Bool.and_eq_true, decide_eq_true_eq] at h
  obtain ⟨⟨a6, a7⟩, h⟩ := h
  split at h
  case h_2 => cases h
  rename_i out ho
  have L := loaded_of hd hg
  have e : loadText ratKey ratCodec true empty text = .ok g := by
    unfold loadText
    dsimp only
    rw [show (empty : Grid ℚ (ℚ × ℚ × ℚ)).name = [] from rfl, hs, res_bind_ok, hg]
  refine ⟨g, r, out, e, ⟨⟨L.mesh, L.zones, L.alloc⟩, L.lists, L.glo.perm, a1, a2, a3, a4, a5⟩, ?_, hr, ?_, a7⟩
  · unfold remeshText
    rw [e, res_bind_ok, C83_options hP, res_bind_ok, hr, res_bind_ok, ho]
  · unfold KeysApart
    rw [if_pos rfl]
    exact a6

/-- The hypotheses of C83 are met: the file is remeshed, nodes are moved. -/
example : ∃ (g : Grid ℚ (ℚ × ℚ × ℚ)) (r : Ice ℚ (ℚ × ℚ × ℚ)) (out : Str), loadText ratKey ratCodec true empty iceFile = .ok g ∧ Storable g ∧
      remeshText (R := ℚ × ℚ × ℚ) ratKey ratCodec Rat.sqrt (fun q => q.num.tdiv q.den) (some iceJson) iceFile = .ok out ∧
      Ice.run ⟨Rat.sqrt, fun q => q.num.tdiv q.den, 0, 3, 1 / 10, 1 / 2, 0, 4, 15 / 100, 0, 1 / 5, 1 / 10, false, 0,
    true, false⟩ g = .ok r ∧ KeysApart ratKey true r.g ∧
      ∃ n ∈ r.g.nodes, r.g.nP n ≠ g.nP n :=
  iceCheck_sound (ice_options _ _) (by decide +kernel)

/-- The program over a directory with two meshes. -/
example : ∃ outs, remeshMain (R := ℚ × ℚ × ℚ) ratKey ratCodec Rat.sqrt (fun q => q.num.tdiv q.den) (some iceJson) "o".toList
    [("i/a.dat".toList, iceFile), ("i/a.txt".toList, []), ("i/b_r_1.dat".toList, iceFile)] = .ok outs ∧
    outs.map Prod.fst = ["o//a.dat".toList, "o//b_1.dat".toList] := by
  obtain ⟨g, r, out, -, -, h, -⟩ := iceCheck_sound (text := iceFile)
    (ice_options Rat.sqrt (fun q => q.num.tdiv q.den)) (by decide +kernel)
  refine ⟨[("o//a.dat".toList, out), ("o//b_1.dat".toList, out)], (C84_all _ _ _ _ _ _ _ _).2 ?_, rfl⟩
  have e : ∀ t : Str, ([("i/a.dat".toList, t), ("i/a.txt".toList, []), ("i/b_r_1.dat".toList, t)] : List (Str × Str)).filter
      (fun p => ".dat".toList <:+ p.1) = [("i/a.dat".toList, t), ("i/b_r_1.dat".toList, t)] := by
    intro t
    have s1 : ".dat".toList <:+ "i/a.dat".toList := by decide
    have s2 : ".dat".toList <:+ "i/b_r_1.dat".toList := by decide
    rw [List.filter_cons_of_pos (by exact decide_eq_true s1), List.filter_cons_of_neg (by decide),
      List.filter_cons_of_pos (by exact decide_eq_true s2), List.filter_nil]
  rw [e]
  have n1 : "o//a.dat".toList = remeshName "o".toList "i/a.dat".toList := by decide +kernel
  have n2 : "o//b_1.dat".toList = remeshName "o".toList "i/b_r_1.dat".toList := by decide +kernel
  generalize iceFile = t at h ⊢
  exact .cons ⟨n1, h⟩ (.cons ⟨n2, h⟩ .nil)

end Verif.Props
