import Verif.Proofs.DropsFile2
import Verif.Proofs.Store
import Verif.Proofs.Merge
import Verif.Props.Drops
import Verif.Props.Text
import Verif.Props.Convert

/-! Properties C79, C80 and C81: the files of `drops`. -/

namespace Verif.Props
open Verif Grid
variable {F R : Type}

/-! ## C79 The velocity field is read from the zones of bricks -/

/-- From an air file the points and velocities of the nodes of the zones of bricks are read, all of them and in their order; nothing
else of the file counts. -/
theorem C79_air (c : Codec F) {ps : List AirPart} {ass : List (List (Vec F × Vec F))}
    (h : List.Forall₂ (fun p as => p.Holds c as) ps ass) : readAirText c (airText ps) = .ok ass.flatten := by
  unfold readAirText airText
  rw [Py.readlines_flatten (parts_isLine h)]
  obtain ⟨m, hm⟩ := Nat.exists_eq_add_of_le' (parts_length ps)
  rw [hm]
  have := readAir_parts h m [] []
  rw [List.append_nil, List.nil_append] at this
  rw [this, readAir_nil]

/-- A file that ends before the last node of a zone of bricks is refused with `IndexError`. -/
theorem C79_truncated (c : Codec F) {ps : List AirPart} {ass : List (List (Vec F × Vec F))}
    (h : List.Forall₂ (fun p as => p.Holds c as) ps ass) {head : Str} {n e : Nat} (hh : AirHead head True n e) {ns : List Str}
    {as : List (Vec F × Vec F)} (hn : List.Forall₂ (AirNode c) ns as) (hl : ∀ l ∈ ns, Py.IsLine l) (hlt : ns.length < n) :
    readAirText c (airText ps ++ (head :: ns).flatten) = .error .index := by
  unfold readAirText airText
  rw [← List.flatten_append, Py.readlines_flatten]
  swap
  · intro l hm
    rcases List.mem_append.1 hm with hm | hm
    · exact parts_isLine h l hm
    · rcases List.mem_cons.1 hm with rfl | hm
      · exact hh.1
      · exact hl l hm
  have hlen := parts_length ps
  obtain ⟨m, hm⟩ : ∃ m, (ps.flatMap AirPart.lines ++ head :: ns).length = m + 1 + ps.length := by
    refine ⟨(ps.flatMap AirPart.lines).length + ns.length - ps.length, ?_⟩
    rw [List.length_append, List.length_cons]; omega
  obtain ⟨k, rfl⟩ : ∃ k, n = ns.length + (k + 1) := ⟨n - ns.length - 1, by omega⟩
  rw [hm, readAir_parts h, readAir_brick hh, readlines_short]
  dsimp only
  rw [List.replicate_succ, mapM_error_at (hn.imp fun _ _ h => airLine_ok h) (x := []) (e := .index) rfl]
  rfl

/-- Without any air `drops` cannot be run: `ValueError` of the minimum of nothing. -/
theorem C79_no_air [Field F] [LinearOrder F] : ∃ e, Space.make ([] : List (Vec F × Vec F)) = .error e := ⟨_, rfl⟩

/-! ## C80 The file with trajectories -/

/-- The file with trajectories, read by the reader of grid files, has the title `Trajectories`, the variables `X`, `Y`, `Z` and one
zone for every wet face in the order of faces. It is named after the identifier of the face and its nodes are the points of the
flight of the droplet of this face, in the order of flight; element `i` joins the nodes `i` and `i + 1`. -/
theorem C80_trajectories [Field F] [LinearOrder F] [IsStrictOrderedRing F] [DecidableEq R] [Inhabited F] [Inhabited R] {rc : Vec F → R} {c : Codec F}
    {str : F → Str} (hw : ∀ x, IsWord (str x)) (hr : ∀ x, c.parse (str x) = .ok x) {P : DropsPar F} {stallText air out tr : Str}
    {g : Grid F R} (hg : loadText rc c true empty stallText = .ok g) (h3 : ∀ f ∈ g.faces, (g.fNodes f).length = 3)
    (h : dropsText (R := R) rc c str P stallText air = .ok (out, tr)) :
    ∃ tris cloud ds space rs, g.faces.mapM g.triangle = .ok tris ∧ Cloud.ofList tris = .ok cloud ∧ readAirText c air = .ok ds ∧
      Space.make ds = .ok space ∧
      List.Forall₂ (fun f r => g.dropFlight P space cloud f = .ok r) (g.faces.filter (fun f => g.getData 0 f "Stall".toList > P.stallThr)) rs ∧
      parseFile c (Py.readlines tr).length ⟨[], [], []⟩ (Py.readlines tr) = .ok ⟨"Trajectories".toList,
        ["X".toList, "Y".toList, "Z".toList],
        ((g.faces.filter (fun f => g.getData 0 f "Stall".toList > P.stallThr)).zip rs).map
          (fun p => trajBlock ("Trajectory-".toList ++ Py.natStr (g.fGlo p.1)) p.2.points)⟩ := by
  unfold dropsText at h
  rw [hg, res_bind_ok] at h
  obtain ⟨tris, h1, h⟩ := res_bind_eq_ok.1 h
  obtain ⟨cloud, h2, h⟩ := res_bind_eq_ok.1 h
  obtain ⟨ds, h4, h⟩ := res_bind_eq_ok.1 h
  obtain ⟨space, h5, h⟩ := res_bind_eq_ok.1 h
  obtain ⟨s, h6, h⟩ := res_bind_eq_ok.1 h
  obtain ⟨g2, h7, h⟩ := res_bind_eq_ok.1 h
  obtain ⟨text, h8, h⟩ := res_bind_eq_ok.1 h
  obtain ⟨rfl, rfl⟩ := Prod.mk.inj (Except.ok.inj h)
  obtain ⟨-, rs, k1, k2⟩ := dropFaceFile_fold (fun f _ h hl => h3 h (C48_target h1 h2 hl)) h6
  refine ⟨tris, cloud, ds, space, rs, h1, h2, h4, h5, k1, ?_⟩
  have := parse_traj hw hr [] (((g.faces.filter (fun f => g.getData 0 f "Stall".toList > P.stallThr)).map
        (fun f => "Trajectory-".toList ++ Py.natStr (g.fGlo f))).zip (rs.map Flight.points)) (by
    rintro ⟨a, b⟩ hz
    obtain ⟨f, -, rfl⟩ := List.mem_map.1 (List.of_mem_zip hz).1
    have hs := Py.natStr_facts (g.fGlo f)
    exact ⟨by simp [hs.2.2.2], by simp [hs.2.1], by simp [hs.2.2.1]⟩)
  dsimp only at this
  rw [k2, this]
  congr 2
  rw [List.zip_map, List.map_map]
  rfl

/-! ## C81 The result file of `drops` -/

/-- The file that `drops` writes, read with or without merging, has the title, the zones and the triangles of the given grid in the
same order. Its variables are those of the first face without the five of the stall, then `MImp2` if a droplet landed on the first face,
and `T`, `Hw`, `Hi`. On each face the value of `MImp2` is the water caught, `T`, `Hw` and `Hi` are zero and the others as given. -/
theorem C81_file [Field F] [LinearOrder F] [IsStrictOrderedRing F] [DecidableEq R] [Inhabited F] [Inhabited R] {rc : Vec F → R} {c : Codec F} (hc : c.Lawful)
    {str : F → Str} {P : DropsPar F} {stallText air out tr : Str} {g : Grid F R} (hg : loadText rc c true empty stallText = .ok g)
    (hS : Storable g) (hd : ∀ f ∈ g.faces, ((g.fData f).map Prod.fst).Nodup) (merge : Bool) (hk : KeysApart rc merge g)
    (h : dropsText (R := R) rc c str P stallText air = .ok (out, tr)) :
    ∃ tris cloud ds space f0 fs, g.faces.mapM g.triangle = .ok tris ∧ Cloud.ofList tris = .ok cloud ∧ readAirText c air = .ok ds ∧
      Space.make ds = .ok space ∧ g.faces = f0 :: fs ∧
      ∀ g1 : Grid F R, ∃ g', loadText rc c merge g1 out = .ok g' ∧ g'.name = g.name ∧
        List.Forall₂ (fun z z' => g'.zName z' = g.zName z ∧ List.Forall₂ (fun f f' =>
          g'.fData f' = (outVars (∃ k ∈ g.faces, landing P space cloud g k = some f0) g.vars).map
            (fun v => (v, outValue P space cloud g f v)) ∧
          (g'.fNodes f').map g'.nP = (g.fNodes f).map g.nP) (g.zFaces z) (g'.zFaces z')) g.zones g'.zones := by
  have h3 : ∀ f ∈ g.faces, (g.fNodes f).length = 3 := by
    intro f hf
    exact (hS.wf.mesh.face_nodes f hf).1
  unfold dropsText at h
  rw [hg, res_bind_ok] at h
  obtain ⟨tris, h1, h⟩ := res_bind_eq_ok.1 h
  obtain ⟨cloud, h2, h⟩ := res_bind_eq_ok.1 h
  obtain ⟨ds, h4, h⟩ := res_bind_eq_ok.1 h
  obtain ⟨space, h5, h⟩ := res_bind_eq_ok.1 h
  obtain ⟨s, h6, h⟩ := res_bind_eq_ok.1 h
  obtain ⟨g2, h7, h⟩ := res_bind_eq_ok.1 h
  obtain ⟨text, h8, h⟩ := res_bind_eq_ok.1 h
  obtain ⟨rfl, rfl⟩ := Prod.mk.inj (Except.ok.inj h)
  obtain ⟨f0, fs, hfs⟩ := List.exists_cons_of_ne_nil hS.faces
  refine ⟨tris, cloud, ds, space, f0, fs, h1, h2, h4, h5, hfs, ?_⟩
  have hl : ∀ f ∈ g.faces, ∀ k, landing P space cloud g f = some k → (g.fNodes k).length = 3 := fun f _ k hl => h3 k (C48_target h1 h2 hl)
  obtain ⟨D, e, hD⟩ := drops_data hS.wf.mesh.faces_nodup hd hl (dropFaceFile_fold hl h6).1 h7
  obtain ⟨hit, hhit⟩ : ∃ hit, hit = ∃ k ∈ g.faces, landing P space cloud g k = some f0 := ⟨_, rfl⟩
  rw [← hhit]
  rw [e] at h8
  obtain ⟨q, hq⟩ : ∃ q : Grid F R, q = { g with fData := D } := ⟨_, rfl⟩
  rw [← hq] at h8
  have hqv : q.vars = outVars hit g.vars := by
    rw [hhit, hq]
    unfold Grid.vars
    dsimp only
    rw [hfs]
    dsimp only
    rw [(hD f0 (by rw [hfs]; simp)).1, hfs]
  have hmem : ∀ v ∈ outVars hit g.vars, v ∉ stallNames ∧ (v ∈ g.vars ∨ v = "MImp2".toList ∨ v ∈ stateNames) := by
    intro v hv
    unfold outVars at hv
    simp only [List.mem_append, List.mem_filter, decide_eq_true_eq] at hv
    rcases hv with (⟨a, b⟩ | hv) | ⟨a, -⟩
    · exact ⟨b, Or.inl a⟩
    · split_ifs at hv
      · rw [List.mem_singleton] at hv
        subst hv
        exact ⟨by decide, Or.inr (Or.inl rfl)⟩
      · cases hv
    · refine ⟨?_, Or.inr (Or.inr a)⟩
      have : ∀ v ∈ stateNames, v ∉ stallNames := by decide
      exact this v a
  have hw : Wf q := by rw [hq]; exact hS.wf.data D
  have hls : ZoneLists q := by rw [hq]; exact hS.lists.data D
  have hkq : KeysApart rc merge q := by rw [hq]; exact hk
  have hdict : q.vars.Nodup := by
    rw [hqv]
    exact outVars_nodup hit hS.dict
  obtain ⟨text', t1, t2⟩ := load_store hc 0 hw hls (by rw [hq]; exact ⟨hS.ids.nodes, hS.ids.edges, hS.ids.faces⟩) (by rw [hq]; exact hS.faces)
    (by rw [hq]; exact hS.name) (by rw [hq]; exact hS.zoneNames) (by
      rw [hqv]
      intro v hv
      rcases (hmem v hv).2 with a | rfl | a
      · exact hS.vars v a
      · unfold PlainVar; decide
      · have : ∀ v ∈ stateNames, (v ≠ [] ∧ (∀ c ∈ v, Py.isWs c = false) ∧ '=' ∉ v ∧ '"' ∉ v ∧ ',' ∉ v) := by decide
        exact this v a) hdict
  rw [h8] at t1
  obtain rfl := Except.ok.inj t1
  intro g1
  obtain ⟨g', t3, t4⟩ := store_loaded rc merge 0 hw hls hkq { g1 with name := q.name }
  have t5 := reload_same hw hls hkq t4
  refine ⟨g', by rw [t2, t3], by rw [t4.name, hq], ?_⟩
  rw [hqv] at t5
  subst hq
  refine forall₂_mem t5 ?_
  rintro z hz z' _ ⟨e1, e2⟩
  refine ⟨e1, forall₂_mem e2 ?_⟩
  rintro f hf f' _ ⟨e3, e4⟩
  refine ⟨?_, forall₂_eq_map (e4.imp fun _ _ h => h.2)⟩
  rw [e3]
  apply List.map_congr_left
  intro v hv
  rw [← (hD f (hS.wf.face_mem hz hf)).2 v (hmem v hv).1]
  rfl

open Classical in
/-- Missing for C81: grids without the variable `MImp2`, see `C81_lost`. If the grid has it, the water caught by every face is found in
the result file. -/
theorem C81_recorded_partial [Field F] [LinearOrder F] [IsStrictOrderedRing F] [DecidableEq R] [Inhabited F] [Inhabited R] {rc : Vec F → R}
    {c : Codec F} (hc : c.Lawful) {str : F → Str} {P : DropsPar F} {stallText air out tr : Str} {g : Grid F R}
    (hg : loadText rc c true empty stallText = .ok g) (hS : Storable g) (hd : ∀ f ∈ g.faces, ((g.fData f).map Prod.fst).Nodup)
    (hi : "MImp2".toList ∈ g.vars) (merge : Bool) (hk : KeysApart rc merge g)
    (h : dropsText (R := R) rc c str P stallText air = .ok (out, tr)) :
    ∃ tris cloud ds space, g.faces.mapM g.triangle = .ok tris ∧ Cloud.ofList tris = .ok cloud ∧ readAirText c air = .ok ds ∧
      Space.make ds = .ok space ∧ ∀ g1 : Grid F R, ∃ g', loadText rc c merge g1 out = .ok g' ∧
        List.Forall₂ (fun z z' => List.Forall₂ (fun f f' => Py.dictGet? (g'.fData f') "MImp2".toList =
          some (caught P space cloud g g.faces f)) (g.zFaces z) (g'.zFaces z')) g.zones g'.zones := by
  obtain ⟨tris, cloud, ds, space, f0, fs, h1, h2, h3, h4, -, h5⟩ := C81_file hc hg hS hd merge hk h
  refine ⟨tris, cloud, ds, space, h1, h2, h3, h4, fun g1 => ?_⟩
  obtain ⟨g', h6, -, h7⟩ := h5 g1
  refine ⟨g', h6, h7.imp fun z z' h => h.2.imp fun f f' h => ?_⟩
  rw [h.1, dictGet?_map_vars]
  · rfl
  · unfold outVars
    simp only [List.mem_append, List.mem_filter]
    exact Or.inl (Or.inl ⟨hi, by decide⟩)

open Classical in
/-- If the grid does not have the variable `MImp2` and no droplet lands on the first face, then no face of the result file has any
water, wherever droplets landed. -/
theorem C81_lost [Field F] [LinearOrder F] [IsStrictOrderedRing F] [DecidableEq R] [Inhabited F] [Inhabited R] {rc : Vec F → R}
    {c : Codec F} (hc : c.Lawful) {str : F → Str} {P : DropsPar F} {stallText air out tr : Str} {g : Grid F R}
    (hg : loadText rc c true empty stallText = .ok g) (hS : Storable g) (hd : ∀ f ∈ g.faces, ((g.fData f).map Prod.fst).Nodup)
    (hi : "MImp2".toList ∉ g.vars) (merge : Bool) (hk : KeysApart rc merge g)
    (h : dropsText (R := R) rc c str P stallText air = .ok (out, tr)) :
    ∃ tris cloud ds space f0 fs, g.faces.mapM g.triangle = .ok tris ∧ Cloud.ofList tris = .ok cloud ∧ readAirText c air = .ok ds ∧
      Space.make ds = .ok space ∧ g.faces = f0 :: fs ∧ ((∀ k ∈ g.faces, landing P space cloud g k ≠ some f0) →
      ∀ g1 : Grid F R, ∃ g', loadText rc c merge g1 out = .ok g' ∧
        ∀ z ∈ g'.zones, ∀ f ∈ g'.zFaces z, Py.dictGet? (g'.fData f) "MImp2".toList = none) := by
  obtain ⟨tris, cloud, ds, space, f0, fs, h1, h2, h3, h4, h4', h5⟩ := C81_file hc hg hS hd merge hk h
  refine ⟨tris, cloud, ds, space, f0, fs, h1, h2, h3, h4, h4', fun hno g1 => ?_⟩
  obtain ⟨g', h6, -, h7⟩ := h5 g1
  refine ⟨g', h6, fun z hz f hf => ?_⟩
  obtain ⟨z', -, -, h8⟩ := forall₂_right h7 hz
  obtain ⟨f', -, h9, -⟩ := forall₂_right h8 hf
  rw [h9, Utils.dictGet?_none_iff, List.map_map]
  have hid : (Prod.fst ∘ fun v : Str => (v, outValue P space cloud g f' v)) = id := rfl
  rw [hid, List.map_id]
  unfold outVars
  rw [if_neg (by rintro ⟨⟨k, a, b⟩, -⟩; exact hno k a b)]
  simp only [List.append_nil, List.mem_append, List.mem_filter, not_or, not_and]
  exact ⟨fun a => absurd a hi, fun a => absurd a (by decide)⟩

/-! ### Samples -/

/-- The square root of a rational number, rounded down to its denominator. -/
def ratSqrt (x : ℚ) : ℚ := (isqrt 1000 (x.num.toNat * x.den) 0 : ℚ) / x.den
where
  isqrt : Nat → Nat → Nat → Nat
    | 0, _, k => k
    | n + 1, m, k => if (k + 1) * (k + 1) ≤ m then isqrt n m (k + 1) else k

/-- A grid in STALL format without `MImp2`: a wet face, and a dry one above it. -/
def stallFile : Str := "# crys-gsu
TITLE=\"t\"
VARIABLES=\"X\", \"Y\", \"Z\", \"T\", \"Stall\", \"StallD\", \"StallVX\", \"StallVY\", \"StallVZ\"
ZONE T=\"low\"
NODES=3
ELEMENTS=1
DATAPACKING=BLOCK
ZONETYPE=FETRIANGLE
VARLOCATION=([4-9]=CELLCENTERED)
0 1 0
0 0 1
0 0 0
5
1
1
0
0
1
1 2 3
ZONE T=\"high\"
NODES=3
ELEMENTS=1
DATAPACKING=BLOCK
ZONETYPE=FETRIANGLE
VARLOCATION=([4-9]=CELLCENTERED)
-10 10 0
-10 -10 10
2 2 2
7
0
1
0
0
1
1 2 3
".toList

/-- Air at rest, and a zone of the surface. -/
def airFile : Str := "TITLE=\"air\"
VARIABLES=\"X\", \"Y\", \"Z\", \"P\", \"T\", \"VX\", \"VY\", \"VZ\"
ZONE ZONETYPE=FEBRICK, DATAPACKING=POINT, NODES = , 2 ELEMENTS = 1
-20 -20 -20 0 0 0 0 0
20 20 20 0 0 0 0 0
1 2 2 2 1 2 2 2
ZONE ZONETYPE=FEQUADRILATERAL, NODES = , 1 ELEMENTS = 1
0 0 0 0 0 9 9 9
1 1 1 1
".toList


def dropPar : DropsPar ℚ := ⟨ratSqrt, fun _ _ => 1, id, 1 / 2, 1, 0, 10⟩

def ratKey (p : Vec ℚ) : ℚ × ℚ × ℚ := (p.x, p.y, p.z)

/-- The droplet of the first face lands on the second one, but the water is not in the file. -/
theorem C81_lost_violation : ∃ (g : Grid ℚ (ℚ × ℚ × ℚ)) (tris : List (Tri ℚ)) (cloud : Cloud ℚ) (ds : List (Vec ℚ × Vec ℚ)) (space : Space ℚ) (out tr : Str),
    loadText ratKey ratCodec true empty stallFile = .ok g ∧ g.faces.mapM g.triangle = .ok tris ∧ Cloud.ofList tris = .ok cloud ∧
    readAirText ratCodec airFile = .ok ds ∧ Space.make ds = .ok space ∧ g.faces = [0, 1] ∧
    landing dropPar space cloud g 0 = some 1 ∧
    dropsText (R := ℚ × ℚ × ℚ) ratKey ratCodec ratCodec.fmt dropPar stallFile airFile = .ok (out, tr) ∧ ¬ "MImp2".toList <:+: out := by
  have h : (match loadText (R := ℚ × ℚ × ℚ) ratKey ratCodec true empty stallFile with
    | .error _ => false
    | .ok g => match g.faces.mapM g.triangle with
      | .error _ => false
      | .ok tris => match Cloud.ofList tris, readAirText ratCodec airFile with
        | .ok cloud, .ok ds => match Space.make ds with
          | .ok space => match dropsText (R := ℚ × ℚ × ℚ) ratKey ratCodec ratCodec.fmt dropPar stallFile airFile with
            | .ok r => decide (g.faces = [0, 1] ∧ landing dropPar space cloud g 0 = some 1 ∧ Py.contains "MImp2".toList r.1 = false)
            | .error _ => false
          | .error _ => false
        | _, _ => false) = true := by decide +kernel
  split at h
  · cases h
  rename_i g hg
  split at h
  · cases h
  rename_i tris ht
  split at h
  case h_2 => cases h
  rename_i cloud ds hc hds
  split at h
  case h_2 => cases h
  rename_i space hs
  split at h
  case h_2 => cases h
  rename_i r hr
  obtain ⟨a1, a2, a3⟩ := of_decide_eq_true h
  exact ⟨g, tris, cloud, ds, space, r.1, r.2, hg, ht, hc, hds, hs, a1, a2, hr, contains_false.1 a3⟩

/-- The same grid with `MImp2`. -/
def wetFile : Str := "# crys-gsu
TITLE=\"t\"
VARIABLES=\"X\", \"Y\", \"Z\", \"T\", \"MImp2\", \"Stall\", \"StallD\", \"StallVX\", \"StallVY\", \"StallVZ\"
ZONE T=\"low\"
NODES=3
ELEMENTS=1
DATAPACKING=BLOCK
ZONETYPE=FETRIANGLE
VARLOCATION=([4-10]=CELLCENTERED)
0 1 0
0 0 1
0 0 0
5
0
1
1
0
0
1
1 2 3
ZONE T=\"high\"
NODES=3
ELEMENTS=1
DATAPACKING=BLOCK
ZONETYPE=FETRIANGLE
VARLOCATION=([4-10]=CELLCENTERED)
-10 10 0
-10 -10 10
2 2 2
7
0
0
1
0
0
1
1 2 3
".toList

/-- What can be checked by running. -/
def dropsCheck (stall : Str) : Bool :=
  match parseFile ratCodec (Py.readlines stall).length ⟨[], [], []⟩ (Py.readlines stall) with
  | .error _ => false
  | .ok s => decide (∀ t ∈ fileFaces ratKey true s.blocks, t.Nodup) &&
    match loadBlocks (R := ℚ × ℚ × ℚ) ratKey true { (empty : Grid ℚ (ℚ × ℚ × ℚ)) with name := s.name } s.blocks with
    | .error _ => false
    | .ok g => decide (g.faces ≠ []) && decide ('=' ∉ g.name ∧ '\n' ∉ g.name ∧ '\r' ∉ g.name) &&
      decide (∀ z ∈ g.zones, ('=' ∉ g.zName z ∧ '\n' ∉ g.zName z ∧ '\r' ∉ g.zName z)) &&
      decide (∀ v ∈ g.vars, (v ≠ [] ∧ (∀ c ∈ v, Py.isWs c = false) ∧ '=' ∉ v ∧ '"' ∉ v ∧ ',' ∉ v)) && decide g.vars.Nodup &&
      decide (∀ f ∈ g.faces, ((g.fData f).map Prod.fst).Nodup) &&
      decide (∀ n ∈ g.nodes, ∀ m ∈ g.nodes, ratKey (g.nP n) = ratKey (g.nP m) → n = m) &&
      match dropsText (R := ℚ × ℚ × ℚ) ratKey ratCodec ratCodec.fmt dropPar stall airFile with
      | .ok _ => true
      | .error _ => false

/-- The hypotheses of C80 and C81. -/
theorem dropsCheck_sound {stall : Str} (h : dropsCheck stall = true) : ∃ (g : Grid ℚ (ℚ × ℚ × ℚ)) (out tr : Str),
    loadText ratKey ratCodec true empty stall = .ok g ∧ Storable g ∧ (∀ f ∈ g.faces, ((g.fData f).map Prod.fst).Nodup) ∧
    KeysApart ratKey true g ∧ dropsText (R := ℚ × ℚ × ℚ) ratKey ratCodec ratCodec.fmt dropPar stall airFile = .ok (out, tr) := by
  unfold dropsCheck at h
  split at h
  · cases h
  rename_i s hs
  rw [Bool.and_eq_true] at h
  obtain ⟨hd, h⟩ := h
  split at h
  · cases h
  rename_i g hg
  simp only [Bool.and_eq_true, decide_eq_true_eq] at h hd
  obtain ⟨⟨⟨⟨⟨⟨⟨a1, a2⟩, a3⟩, a4⟩, a5⟩, a6⟩, a7⟩, a8⟩ := h
  split at a8
  case h_2 => cases a8
  rename_i r hr
  have L := loaded_of hd hg
  refine ⟨g, r.1, r.2, ?_, ⟨⟨L.mesh, L.zones, L.alloc⟩, L.lists, L.glo.perm, a1, a2, a3, a4, a5⟩, a6, ?_, hr⟩
  · unfold loadText
    dsimp only
    rw [show (empty : Grid ℚ (ℚ × ℚ × ℚ)).name = [] from rfl, hs, res_bind_ok, hg]
  · unfold KeysApart
    rw [if_pos rfl]
    exact a7

/-- The hypotheses of C80, C81 are met by both files. -/
example : ∃ (g : Grid ℚ (ℚ × ℚ × ℚ)) (out tr : Str),
    loadText ratKey ratCodec true empty stallFile = .ok g ∧ Storable g ∧ (∀ f ∈ g.faces, ((g.fData f).map Prod.fst).Nodup) ∧
    KeysApart ratKey true g ∧ dropsText (R := ℚ × ℚ × ℚ) ratKey ratCodec ratCodec.fmt dropPar stallFile airFile = .ok (out, tr) :=
  dropsCheck_sound (by decide +kernel)

example : ∃ (g : Grid ℚ (ℚ × ℚ × ℚ)) (out tr : Str),
    loadText ratKey ratCodec true empty wetFile = .ok g ∧ Storable g ∧ (∀ f ∈ g.faces, ((g.fData f).map Prod.fst).Nodup) ∧
    KeysApart ratKey true g ∧ dropsText (R := ℚ × ℚ × ℚ) ratKey ratCodec ratCodec.fmt dropPar wetFile airFile = .ok (out, tr) :=
  dropsCheck_sound (by decide +kernel)

/-- In the second one there is `MImp2`. -/
example : (match loadText (R := ℚ × ℚ × ℚ) ratKey ratCodec true empty wetFile with
    | .ok g => decide ("MImp2".toList ∈ g.vars)
    | .error _ => false) = true := by decide +kernel

/-- The numbers are written and read by the same codec. -/
example : (∀ x, IsWord (ratCodec.fmt x)) ∧ ∀ x, ratCodec.parse (ratCodec.fmt x) = .ok x :=
  ⟨fun x => ⟨ratCodec_lawful.nonempty x, ratCodec_lawful.word x⟩, ratCodec_lawful.roundtrip⟩

def airParts : List AirPart :=
  [.line "TITLE=\"air\"\n".toList, .line "VARIABLES=\"X\", \"Y\", \"Z\", \"P\", \"T\", \"VX\", \"VY\", \"VZ\"\n".toList,
   .zone "ZONE ZONETYPE=FEBRICK, DATAPACKING=POINT, NODES = , 2 ELEMENTS = 1\n".toList
     ["-20 -20 -20 0 0 0 0 0\n".toList, "20 20 20 0 0 0 0 0\n".toList] ["1 2 2 2 1 2 2 2\n".toList],
   .zone "ZONE ZONETYPE=FEQUADRILATERAL, NODES = , 1 ELEMENTS = 1\n".toList ["0 0 0 0 0 9 9 9\n".toList] ["1 1 1 1\n".toList]]

theorem isLine_check {l : Str} (h : (l.getLast? = some '\n' ∧ '\n' ∉ l.dropLast ∧ '\r' ∉ l.dropLast)) : Py.IsLine l := by
  refine ⟨l.dropLast, ?_, h.2.1, h.2.2⟩
  exact (List.dropLast_append_getLast? _ h.1).symm

/-- The sample file is laid out as C79 demands. -/
theorem airParts_holds : List.Forall₂ (fun p as => AirPart.Holds ratCodec as p) airParts
    [[], [], [(⟨-20, -20, -20⟩, ⟨0, 0, 0⟩), (⟨20, 20, 20⟩, ⟨0, 0, 0⟩)], []] := by
  have nc {p l : Str} (h : Py.contains p l = false) : ¬ p <:+: l := contains_false.1 h
  have ct {p l : Str} (h : Py.contains p l = true) : p <:+: l := contains_true.1 h
  refine .cons ⟨isLine_check (by decide), fun h => Or.inl (ct (by decide)), rfl⟩
    (.cons ⟨isLine_check (by decide), fun h => Or.inr (ct (by decide)), rfl⟩
    (.cons ⟨?_, Or.inl ⟨⟨isLine_check (by decide), ct (by decide), nc (by decide), nc (by decide), ?_, ?_, ?_⟩, ?_⟩⟩
    (.cons ⟨?_, Or.inr ⟨⟨isLine_check (by decide), ct (by decide), nc (by decide), nc (by decide), ?_, ?_, ?_⟩, rfl⟩⟩ .nil)))
  · intro l hl
    refine isLine_check ?_
    revert l
    decide
  · exact ⟨"ZONETYPE=FEBRICK,".toList, by unfold WordAt; decide +kernel, fun _ => trivial, fun _ => ct (by decide)⟩
  · intro _; unfold WordAt; decide +kernel
  · intro h; exact absurd trivial h
  · refine .cons ⟨"-20".toList, "-20".toList, "-20".toList, "0".toList, "0".toList, "0".toList, ?_⟩
      (.cons ⟨"20".toList, "20".toList, "20".toList, "0".toList, "0".toList, "0".toList, ?_⟩ .nil) <;>
    · unfold WordAt; decide +kernel
  · intro l hl
    refine isLine_check ?_
    revert l
    decide
  · exact ⟨"ZONETYPE=FEQUADRILATERAL,".toList, by unfold WordAt; decide +kernel, fun h => absurd h (nc (by decide)), fun h => h.elim⟩
  · intro h; exact h.elim
  · intro _; unfold WordAt; decide +kernel

example : airText airParts = airFile := by decide +kernel

/-- A zone of bricks that announces three nodes and has two. -/
example : AirHead "ZONE ZONETYPE=FEBRICK, DATAPACKING=POINT, NODES = , 3 ELEMENTS = 1\n".toList True 3 1 :=
  ⟨isLine_check (by decide), contains_true.1 (by decide), contains_false.1 (by decide), contains_false.1 (by decide),
    ⟨"ZONETYPE=FEBRICK,".toList, by unfold WordAt; decide +kernel, fun _ => trivial, fun _ => contains_true.1 (by decide)⟩,
    fun _ => by unfold WordAt; decide +kernel, fun h => absurd trivial h⟩

end Verif.Props
