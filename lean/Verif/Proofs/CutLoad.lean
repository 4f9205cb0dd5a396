import Verif.Proofs.Cut
import Verif.Proofs.Reload
import Verif.Proofs.LoadAny
import Verif.Spec.Cut

/-! The grid loaded from the beginning of a stored file. -/

namespace Verif
variable {F R : Type} [DecidableEq R]
open Grid
variable {g g1 g' : Grid F R} {rc : Vec F → R} {merge : Bool} {dflt : F}

theorem forall₂_snoc_left {α β : Type} {r : α → β → Prop} {l : List α} {a : α} {m : List β} (h : List.Forall₂ r (l ++ [a]) m) :
    ∃ m' b, List.Forall₂ r l m' ∧ r a b ∧ m = m' ++ [b] := by
  induction l generalizing m with
  | nil =>
    obtain ⟨b, m', h1, h2, rfl⟩ := List.forall₂_cons_left_iff.1 h
    cases h2
    exact ⟨[], b, .nil, h1, rfl⟩
  | cons x l ih =>
    obtain ⟨b, m', h1, h2, rfl⟩ := List.forall₂_cons_left_iff.1 h
    obtain ⟨m2, b2, h3, h4, rfl⟩ := ih h2
    exact ⟨b :: m2, b2, .cons h1 h3, h4, rfl⟩

omit [DecidableEq R] in
theorem zoneText_three (dflt : F) (hw : Wf g) (hl : ZoneLists g) {z : Nat} (hz : z ∈ g.zones) : ThreeText (zoneText g dflt z) := by
  constructor
  · intro x hx
    obtain ⟨f, hf, rfl⟩ := List.mem_map.mp hx
    obtain ⟨a, b, c, e⟩ := List.length_eq_three.1 (hw.mesh.face_nodes f (hw.face_mem hz hf)).1
    exact ⟨((g.zNodes z).idxOf a : Int) + 1, ((g.zNodes z).idxOf b : Int) + 1, (g.zNodes z).idxOf c + 1, by rw [e]; simp⟩
  · intro h
    have h0 : g.zFaces z = [] := by simpa [zoneText] using h
    simp only [zoneText, List.map_eq_nil_iff]
    rw [hl.nodes z hz, h0]
    simp

/-- The block of the zone with other numbers for the last face. -/
def shortBlock (g : Grid F R) (dflt : F) (z : Nat) (fs : List Nat) (f : Nat) (l : List Int) : ZoneBlock F where
  name := g.zName z
  pts := (g.zNodes z).map g.nP
  faces := fs.map (fun f => (g.vars.map (fun v => (v, g.getData dflt f v)),
    (g.fNodes f).map (fun n => ((g.zNodes z).idxOf n : Int) + 1))) ++ [(g.vars.map (fun v => (v, g.getData dflt f v)), l)]

omit [DecidableEq R] in
theorem short_block {z : Nat} {t' : ZoneText F} (h : ShortText (zoneText g dflt z) t') :
    ∃ fs f a b k i, g.zFaces z = fs ++ [f] ∧ (g.fNodes f).map (fun n => ((g.zNodes z).idxOf n : Int) + 1) = [a, b, ((k : Nat) : Int)] ∧
      (1 ≤ k → 1 ≤ k / 10 ^ i) ∧ t'.block g.vars = shortBlock g dflt z fs f [a, b, ((k / 10 ^ i : Nat) : Int)] := by
  obtain ⟨cs, a, b, k, i, h1, rfl, h2⟩ := h
  have h3 := h1
  simp only [zoneText] at h3
  rw [List.map_eq_append_iff] at h3
  obtain ⟨fs, l2, e1, rfl, e3⟩ := h3
  rw [List.map_eq_singleton_iff] at e3
  obtain ⟨f, rfl, e4⟩ := e3
  refine ⟨fs, f, a, b, k, i, e1, e4, h2, ?_⟩
  have hb := zoneText_block g dflt z
  have hf := congrArg ZoneBlock.faces hb
  unfold ZoneText.block zoneBlock at hf
  rw [h1] at hf
  simp only [e1, List.map_append, List.map_cons, List.map_nil, List.length_append, List.length_cons, List.length_nil, Nat.zero_add,
    List.length_map, List.range_succ] at hf
  rw [List.zip_append (by simp)] at hf
  obtain ⟨hf1, hf2⟩ := List.append_inj' hf rfl
  unfold ZoneText.block shortBlock
  simp only [List.map_append, List.map_cons, List.map_nil, List.length_append, List.length_cons, List.length_nil, Nat.zero_add,
    List.length_map, List.range_succ]
  rw [List.zip_append (by simp)]
  have hd : ∀ l, ZoneText.data g.vars { zoneText g dflt z with conns := l } = ZoneText.data g.vars (zoneText g dflt z) := fun l => rfl
  rw [hd, hf1]
  simp only [List.zip_cons_cons, List.zip_nil_left, List.cons.injEq, Prod.mk.injEq, and_true] at hf2 ⊢
  rw [hf2.1]
  rfl

/-- A node loaded for a place of a stored node has its exact coordinates. -/
theorem cut_position (hl : ZoneLists g) (hk : KeysApart rc merge g) {blocks : List (ZoneBlock F)}
    (hb : ∀ b ∈ blocks, ∃ z ∈ g.zones, b.pts = (g.zNodes z).map g.nP) (hL : LoadedAny rc merge blocks g')
    {n' m : Nat} (hn' : n' ∈ g'.nodes) (hm : m ∈ g.nodes) (h : g'.nKey n' = rc (g.nP m)) (h0 : merge = false → g'.nP n' = g.nP m) :
    g'.nP n' = g.nP m := by
  cases merge with
  | false => exact h0 rfl
  | true =>
    have h1 : g'.nP n' ∈ registered rc true (blocks.flatMap (·.pts)) := by
      rw [← hL.registered]; exact List.mem_map_of_mem hn'
    have h2 := registered_sub _ _ _ _ h1
    obtain ⟨b, hbb, h3⟩ := List.mem_flatMap.1 h2
    obtain ⟨z, hz, e⟩ := hb b hbb
    rw [e] at h3
    obtain ⟨m', hm', e⟩ := List.mem_map.1 h3
    have hk' : ∀ n ∈ g.nodes, ∀ m ∈ g.nodes, rc (g.nP n) = rc (g.nP m) → n = m := by simpa [KeysApart] using hk
    have : m' = m := hk' m' ((hl.mem_nodes hz m').1 hm').1 m hm (by rw [e, ← hL.keys n' hn', h])
    rw [← e, this]

/-- The faces loaded for complete faces. -/
theorem cut_faces (hw : Wf g) (hl : ZoneLists g) (hk : KeysApart rc merge g) (hd : ∀ f ∈ g.faces,
    g.vars.map (fun v => (v, g.getData dflt f v)) = g.fData f) {blocks : List (ZoneBlock F)}
    (hb : ∀ b ∈ blocks, ∃ z ∈ g.zones, b.pts = (g.zNodes z).map g.nP) (hL : LoadedAny rc merge blocks g')
    {z : Nat} (hz : z ∈ g.zones) {b : ZoneBlock F} (hp : b.pts = (g.zNodes z).map g.nP) {fs fs' : List Nat} (hs : ∀ f ∈ fs, f ∈ g.zFaces z)
    (h : List.Forall₂ (fun fc f => g'.fData f = fc.1 ∧
      List.Forall₂ (fun s n => n ∈ g'.nodes ∧ ∃ p, b.point? s = some p ∧ g'.nKey n = rc p ∧ (merge = false → g'.nP n = p))
      fc.2 (g'.fNodes f)) (fs.map (fun f => (g.vars.map (fun v => (v, g.getData dflt f v)),
    (g.fNodes f).map (fun n => ((g.zNodes z).idxOf n : Int) + 1)))) fs') : List.Forall₂ (KeptFace g g') fs fs' := by
  rw [List.forall₂_map_left_iff] at h
  refine forall₂_mem h ?_
  rintro f hf f' _ ⟨h1, h2⟩
  refine ⟨by rw [h1]; exact hd f (hw.face_mem hz (hs f hf)), ?_⟩
  simp only at h2
  rw [List.forall₂_map_left_iff] at h2
  refine forall₂_eq_map (forall₂_mem h2 ?_)
  rintro n hn n' _ ⟨q1, p, q2, q3, q4⟩
  have hnz := face_nodes_sub hw hl hz (hs f hf) n hn
  have := point?_zoneBlock (g := g) dflt hnz
  rw [show (zoneBlock g dflt z).point? = b.point? from by unfold ZoneBlock.point? zoneBlock; rw [hp]] at this
  rw [this] at q2
  obtain rfl := Option.some.inj q2
  exact cut_position hl hk hb hL q1 ((hl.mem_nodes hz n).1 hnz).1 q3 q4

theorem cut_zones (hw : Wf g) (hl : ZoneLists g) (hk : KeysApart rc merge g) (hd : ∀ f ∈ g.faces,
    g.vars.map (fun v => (v, g.getData dflt f v)) = g.fData f) {blocks : List (ZoneBlock F)}
    (hb : ∀ b ∈ blocks, ∃ z ∈ g.zones, b.pts = (g.zNodes z).map g.nP) (hL : LoadedAny rc merge blocks g')
    {zs zs' : List Nat} (hs : ∀ z ∈ zs, z ∈ g.zones) (h : List.Forall₂ (Represents rc merge g') (zs.map (zoneBlock g dflt)) zs') :
    List.Forall₂ (KeptZone g g') zs zs' := by
  rw [List.forall₂_map_left_iff] at h
  refine forall₂_mem h ?_
  rintro z hz z' _ hr
  exact ⟨hr.name, cut_faces hw hl hk hd hb hL (hs z hz) (b := zoneBlock g dflt z) rfl (fun f hf => hf) hr.faces⟩

/-- The zone whose last number was cut. -/
theorem cut_short (hw : Wf g) (hl : ZoneLists g) (hk : KeysApart rc merge g) (hd : ∀ f ∈ g.faces,
    g.vars.map (fun v => (v, g.getData dflt f v)) = g.fData f) {blocks : List (ZoneBlock F)}
    (hb : ∀ b ∈ blocks, ∃ z ∈ g.zones, b.pts = (g.zNodes z).map g.nP) (hL : LoadedAny rc merge blocks g')
    {z z' : Nat} (hz : z ∈ g.zones) {fs : List Nat} {f : Nat} (hf : g.zFaces z = fs ++ [f]) {a b : Int} {k i : Nat}
    (he : (g.fNodes f).map (fun n => ((g.zNodes z).idxOf n : Int) + 1) = [a, b, (k : Int)]) (hi : 1 ≤ k → 1 ≤ k / 10 ^ i)
    (h : Represents rc merge g' (shortBlock g dflt z fs f [a, b, ((k / 10 ^ i : Nat) : Int)]) z') : ShortZone g g' z z' := by
  obtain ⟨na, nb, m, hn⟩ := List.length_eq_three.1 (hw.mesh.face_nodes f (hw.face_mem hz (by rw [hf]; simp))).1
  have hsub : ∀ n ∈ g.fNodes f, n ∈ g.zNodes z := face_nodes_sub hw hl hz (by rw [hf]; simp)
  rw [hn] at he hsub
  simp only [List.map_cons, List.map_nil, List.cons.injEq, and_true] at he
  obtain ⟨ea, eb, ek⟩ := he
  have ek : (g.zNodes z).idxOf m + 1 = k := by omega
  have hfa := h.faces
  rw [show (shortBlock g dflt z fs f [a, b, ((k / 10 ^ i : Nat) : Int)]).faces = _ ++ [_] from rfl] at hfa
  obtain ⟨fs', f', e1, ⟨hda, hco⟩, e3⟩ := forall₂_snoc_left hfa
  have kept := cut_faces hw hl hk hd hb hL hz (b := shortBlock g dflt z fs f [a, b, ((k / 10 ^ i : Nat) : Int)]) rfl
    (fun x hx => by rw [hf]; simp [hx]) e1
  have hk1 : 1 ≤ k / 10 ^ i := hi (by omega)
  have hle : k / 10 ^ i ≤ k := Nat.div_le_self _ _
  have hlt : (g.zNodes z).idxOf m < (g.zNodes z).length := List.idxOf_lt_length_iff.2 (hsub m (by simp))
  have hlt' : k / 10 ^ i - 1 < (g.zNodes z).length := by omega
  have pos : ∀ (s : Int) (n n' : Nat), n ∈ g.zNodes z → (shortBlock g dflt z fs f [a, b, ((k / 10 ^ i : Nat) : Int)]).point? s = some (g.nP n) →
      (n' ∈ g'.nodes ∧ ∃ p, (shortBlock g dflt z fs f [a, b, ((k / 10 ^ i : Nat) : Int)]).point? s = some p ∧ g'.nKey n' = rc p ∧
        (merge = false → g'.nP n' = p)) → g'.nP n' = g.nP n := by
    rintro s n n' hnz hpt ⟨q1, p, q2, q3, q4⟩
    rw [hpt] at q2
    obtain rfl := Option.some.inj q2
    exact cut_position hl hk hb hL q1 ((hl.mem_nodes hz n).1 hnz).1 q3 q4
  have zp : ∀ n ∈ g.zNodes z, (shortBlock g dflt z fs f [a, b, ((k / 10 ^ i : Nat) : Int)]).point? (((g.zNodes z).idxOf n : Int) + 1) =
    some (g.nP n) := fun n hn => point?_zoneBlock (g := g) dflt hn
  simp only at hco
  obtain ⟨n1, r1, c1, hco, e4⟩ := List.forall₂_cons_left_iff.1 hco
  obtain ⟨n2, r2, c2, hco2, rfl⟩ := List.forall₂_cons_left_iff.1 hco
  obtain ⟨n3, r3, c3, hco3, rfl⟩ := List.forall₂_cons_left_iff.1 hco2
  cases hco3
  refine ⟨h.name, fs, f, fs', f', na, nb, m, (g.zNodes z)[k / 10 ^ i - 1], k, i, hf, e3, kept, ?_, hn, by omega, ?_, hk1, ?_, ?_⟩
  · rw [hda]; exact hd f (hw.face_mem hz (by rw [hf]; simp))
  · rw [show k - 1 = (g.zNodes z).idxOf m from by omega, List.getElem?_eq_getElem hlt]
    simp
  · exact List.getElem?_eq_getElem hlt'
  · rw [e4]
    simp only [List.map_cons, List.map_nil]
    rw [pos a na n1 (hsub na (by simp)) (by rw [← ea]; exact zp na (hsub na (by simp))) c1,
      pos b nb n2 (hsub nb (by simp)) (by rw [← eb]; exact zp nb (hsub nb (by simp))) c2,
      pos _ (g.zNodes z)[k / 10 ^ i - 1] n3 (List.getElem_mem _) ?_ c3]
    unfold ZoneBlock.point?
    rw [show ((k / 10 ^ i : Nat) : Int) - 1 = ((k / 10 ^ i - 1 : Nat) : Int) from by omega, get_nat (by simpa [shortBlock] using hlt')]
    simp [shortBlock]

/-- What any beginning of a stored file loads as. -/
theorem load_cut {c : Codec F} (hc : c.Lawful) (hw : Wf g) (hl : ZoneLists g) (hg : GloPerm g) (h0 : g.faces ≠ [])
    (hn : PlainName g.name) (hz : ∀ z ∈ g.zones, PlainName (g.zName z)) (hp : ∀ v ∈ g.vars, PlainVar v) (hv : g.vars.Nodup)
    (hk : KeysApart rc merge g) (hd : ∀ f ∈ g.faces, g.vars.map (fun v => (v, g.getData dflt f v)) = g.fData f)
    {text p : Str} (hs : g.storeText c dflt = .ok text) (hpre : p <+: text) (h : loadText rc c merge g1 p = .ok g') :
    ∃ j, List.Forall₂ (KeptZone g g') (g.zones.take j) g'.zones ∨
      ∃ z zs' z', g.zones[j]? = some z ∧ g'.zones = zs' ++ [z'] ∧ List.Forall₂ (KeptZone g g') (g.zones.take j) zs' ∧ ShortZone g g' z z' := by
  unfold storeText at hs
  rw [storeLines_ok c dflt hw hl hg h0, res_bind_ok] at hs
  obtain rfl := Except.ok.inj hs
  have hlines : ∀ l ∈ headLines g.name (xyz ++ g.vars) ++
      (g.zones.map (zoneText g dflt)).flatMap (fun t => t.lines c (xyz ++ g.vars).length), Py.IsLine l := by
    intro l hl
    rcases List.mem_append.1 hl with hl | hl
    · refine headLines_isLine _ hn _ ?_ l hl
      intro v h
      rcases List.mem_append.1 h with h | h
      · exact xyz_plain v h
      · exact hp v h
    · obtain ⟨t, ht, hl⟩ := List.mem_flatMap.1 hl
      obtain ⟨z, hzz, rfl⟩ := List.mem_map.1 ht
      exact lines_isLine hc _ _ (hz z hzz) l hl
  rw [← List.flatMap_map (zoneText g dflt) (fun t => t.lines c (xyz ++ g.vars).length)] at hpre
  have hcut := readlines_cut hlines hpre
  have hblock : ((fun t => ZoneText.block g.vars t) ∘ zoneText g dflt) = zoneBlock g dflt := by
    funext z; exact zoneText_block g dflt z
  unfold loadText at h
  simp only at h
  have tk : ∀ j z, z ∈ g.zones.take j → z ∈ g.zones := fun j z h => List.mem_of_mem_take h
  have pts : ∀ j, ∀ b ∈ (g.zones.take j).map (zoneBlock g dflt), ∃ z ∈ g.zones, b.pts = (g.zNodes z).map g.nP := by
    intro j b hb
    obtain ⟨z, hzz, rfl⟩ := List.mem_map.1 hb
    exact ⟨z, tk j z hzz, rfl⟩
  have whole : ∀ j s, loadBlocks rc merge s ((g.zones.take j).map (zoneBlock g dflt)) = .ok g' →
      List.Forall₂ (KeptZone g g') (g.zones.take j) g'.zones := by
    intro j s h
    have hL := load_any rc merge _ g' _ h
    exact cut_zones hw hl hk hd (pts j) hL (tk j) hL.rep
  rcases file_cut hc g1.name g.name hn g.vars hp hv (g.zones.map (zoneText g dflt)) (by
      intro t ht
      obtain ⟨z, hzz, rfl⟩ := List.mem_map.1 ht
      exact ⟨zoneText_ok dflt z (hz z hzz), zoneText_three dflt hw hl hzz⟩) hcut with ⟨e, he⟩ | ⟨s, he, hs⟩ | ⟨j, he⟩ | ⟨j, t, b, ht, he, hbv⟩
  · rw [he] at h
    simp [bind, Except.bind] at h
  · rw [he, res_bind_ok, hs] at h
    exact ⟨0, .inl (whole 0 _ (by simpa using h))⟩
  · rw [he, res_bind_ok, ← List.map_take, List.map_map, hblock] at h
    exact ⟨j, .inl (whole j _ h)⟩
  · rw [he, res_bind_ok, ← List.map_take, List.map_map, hblock] at h
    have hval := load_valid rc merge _ g' _ h
    rw [List.getElem?_map] at ht
    obtain ⟨z, hzj, rfl⟩ := Option.map_eq_some_iff.1 ht
    have hzm : z ∈ g.zones := List.mem_of_getElem? hzj
    obtain ⟨t', ht', rfl⟩ := hbv (hval b (by simp))
    rcases ht' with rfl | ht'
    · rw [zoneText_block] at h
      refine ⟨j + 1, .inl (whole (j + 1) { g1 with name := g.name } ?_)⟩
      rw [List.take_add_one, hzj, List.map_append]
      exact h
    · obtain ⟨fs, f, a, b, k, i, e1, e2, e3, e4⟩ := short_block ht'
      rw [e4] at h
      have hL := load_any rc merge _ g' _ h
      have hpts : ∀ x ∈ (g.zones.take j).map (zoneBlock g dflt) ++ [shortBlock g dflt z fs f [a, b, ((k / 10 ^ i : Nat) : Int)]],
          ∃ z ∈ g.zones, x.pts = (g.zNodes z).map g.nP := by
        intro x hx
        rcases List.mem_append.1 hx with hx | hx
        · exact pts j x hx
        · simp only [List.mem_singleton] at hx
          exact ⟨z, hzm, by rw [hx]; rfl⟩
      have hr := hL.rep
      obtain ⟨zs', z', r1, r4, r3⟩ := forall₂_snoc_left hr
      exact ⟨j, .inr ⟨z, zs', z', hzj, r3, cut_zones hw hl hk hd hpts hL (tk j) r1,
        cut_short hw hl hk hd hpts hL hzm e1 e2 e3 r4⟩⟩

/-! ### Files cut after a zone -/

omit [DecidableEq R] in
theorem fileFaces_take (rc : Vec F → R) (merge : Bool) (bs : List (ZoneBlock F)) (j : Nat) :
    (fileFaces rc merge (bs.take j)).Sublist (fileFaces rc merge bs) := by
  unfold fileFaces
  conv_rhs => rw [← List.take_append_drop j bs, List.zipIdx_append, List.flatMap_append]
  exact List.sublist_append_left _ _

/-- The first zones of a stored grid load. -/
theorem load_first (rc : Vec F → R) (merge : Bool) (dflt : F) (hw : Wf g) (hl : ZoneLists g) (hk : KeysApart rc merge g)
    (g1 : Grid F R) (j : Nat) : ∃ g', loadBlocks rc merge g1 ((g.zones.take j).map (zoneBlock g dflt)) = .ok g' ∧
      Loaded rc merge ((g.zones.take j).map (zoneBlock g dflt)) g1 g' := by
  have hsub : ∀ b ∈ (g.zones.take j).map (zoneBlock g dflt), b ∈ g.zones.map (zoneBlock g dflt) := by
    intro b hb
    obtain ⟨z, hz, rfl⟩ := List.mem_map.1 hb
    exact List.mem_map_of_mem (List.mem_of_mem_take hz)
  have hff := fileFaces_take rc merge (g.zones.map (zoneBlock g dflt)) j
  rw [← List.map_take] at hff
  rcases load_spec rc merge g1 ((g.zones.take j).map (zoneBlock g dflt)) (by
    intro b hb
    obtain ⟨z, hz, rfl⟩ := List.mem_map.mp (hsub b hb)
    exact zoneBlock_valid dflt hw hl hz)
    (fun t ht => store_nonDegenerate rc merge dflt hw hl hk t (hff.subset ht))
    (fun hm b hb => store_zonePoints rc merge dflt hw hl hk hm b (hsub b hb))
    with ⟨⟨u, v, huv, h3⟩, _⟩ | ⟨_, h⟩
  · exact absurd ⟨u, v, huv, h3.trans ((hff.filter _).length_le)⟩ (store_notOverShared rc merge dflt hw hl hk)
  · exact h

/-- A file cut after some of its zones is taken for a file with these zones only. -/
theorem load_boundary {c : Codec F} (hc : c.Lawful) (hw : Wf g) (hl : ZoneLists g) (hg : GloPerm g) (h0 : g.faces ≠ [])
    (hn : PlainName g.name) (hz : ∀ z ∈ g.zones, PlainName (g.zName z)) (hp : ∀ v ∈ g.vars, PlainVar v) (hv : g.vars.Nodup)
    (hk : KeysApart rc merge g) (hd : ∀ f ∈ g.faces, g.vars.map (fun v => (v, g.getData dflt f v)) = g.fData f)
    {text : Str} (hs : g.storeText c dflt = .ok text) {j : Nat} (hj : j < g.zones.length) :
    ∃ p, p <+: text ∧ p.length < text.length ∧ ∀ g1 : Grid F R, ∃ g', loadText rc c merge g1 p = .ok g' ∧ g'.name = g.name ∧
      Wf g' ∧ List.Forall₂ (KeptZone g g') (g.zones.take j) g'.zones := by
  unfold storeText at hs
  rw [storeLines_ok c dflt hw hl hg h0, res_bind_ok] at hs
  obtain rfl := Except.ok.inj hs
  have e : g.zones.flatMap (fun z => (zoneText g dflt z).lines c (xyz ++ g.vars).length) =
      (g.zones.take j).flatMap (fun z => (zoneText g dflt z).lines c (xyz ++ g.vars).length) ++
      (g.zones.drop j).flatMap (fun z => (zoneText g dflt z).lines c (xyz ++ g.vars).length) := by
    rw [← List.flatMap_append, List.take_append_drop]
  rw [e, ← List.append_assoc, List.flatten_append]
  refine ⟨_, List.prefix_append _ _, ?_, fun g1 => ?_⟩
  · rw [List.length_append (bs := (List.flatten (List.flatMap _ (g.zones.drop j))))]
    rw [List.drop_eq_getElem_cons hj, List.flatMap_cons, List.flatten_append (L₁ := ZoneText.lines _ _ _), List.length_append (bs := (List.flatten (List.flatMap _ (g.zones.drop (j + 1)))))]
    have : 0 < ((zoneText g dflt g.zones[j]).lines c (xyz ++ g.vars).length).flatten.length := by
      rw [lines_parts]
      simp
    omega
  · have := parse_render hc g1.name g.name hn g.vars hp hv ((g.zones.take j).map (zoneText g dflt)) (by
      intro t ht
      obtain ⟨z, hzm, rfl⟩ := List.mem_map.mp ht
      exact zoneText_ok dflt z (hz z (List.mem_of_mem_take hzm)))
    rw [List.flatMap_map] at this
    unfold loadText
    simp only at this ⊢
    rw [this, res_bind_ok, List.map_map]
    have e : ((fun t => ZoneText.block g.vars t) ∘ zoneText g dflt) = zoneBlock g dflt := by
      funext z; exact zoneText_block g dflt z
    rw [e]
    obtain ⟨g', h1, h2⟩ := load_first rc merge dflt hw hl hk { g1 with name := g.name } j
    refine ⟨g', h1, h2.name, ⟨h2.mesh, h2.zones, h2.alloc⟩, ?_⟩
    have hL := load_any rc merge _ g' _ h1
    refine cut_zones hw hl hk hd ?_ hL (fun z h => List.mem_of_mem_take h) hL.rep
    intro b hb
    obtain ⟨z, hzz, rfl⟩ := List.mem_map.1 hb
    exact ⟨z, List.mem_of_mem_take hzz, rfl⟩

end Verif
