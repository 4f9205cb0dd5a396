import Verif.Proofs.Text
import Verif.Proofs.LoadAll

/-! The text written by `store` and the grid loaded from it. -/

namespace Verif
variable {F R : Type}
open Grid

/-- The numbers written for a zone. -/
def zoneText (g : Grid F R) (dflt : F) (z : Nat) : ZoneText F where
  name := g.zName z
  pts := (g.zNodes z).map g.nP
  rows := g.vars.map (g.dataSlice dflt z)
  conns := (g.zFaces z).map (fun f => (g.fNodes f).map (fun n => ((g.zNodes z).idxOf n : Int) + 1))

/-- The block of a zone in the file. -/
def zoneBlock (g : Grid F R) (dflt : F) (z : Nat) : ZoneBlock F where
  name := g.zName z
  pts := (g.zNodes z).map g.nP
  faces := (g.zFaces z).map (fun f => (g.vars.map (fun v => (v, g.getData dflt f v)),
    (g.fNodes f).map (fun n => ((g.zNodes z).idxOf n : Int) + 1)))

theorem zip_map_self {α β : Type} (l : List α) (h : α → β) : l.zip (l.map h) = l.map (fun a => (a, h a)) := by
  induction l with
  | nil => rfl
  | cons a l ih => simp [ih]

theorem zoneText_block (g : Grid F R) (dflt : F) (z : Nat) : (zoneText g dflt z).block g.vars = zoneBlock g dflt z := by
  unfold ZoneText.block zoneBlock
  congr 1
  apply List.ext_getElem?
  intro i
  simp only [zoneText, List.length_map, List.getElem?_zip_eq_some, List.getElem?_map]
  by_cases hi : i < (g.zFaces z).length
  · have h1 : ((List.range (g.zFaces z).length).map (ZoneText.data g.vars (zoneText g dflt z)))[i]? =
        some (ZoneText.data g.vars (zoneText g dflt z) i) := by simp [hi]
    have h2 : ((g.zFaces z).map (fun f => (g.fNodes f).map (fun n => ((g.zNodes z).idxOf n : Int) + 1)))[i]? =
        some ((g.fNodes (g.zFaces z)[i]).map (fun n => ((g.zNodes z).idxOf n : Int) + 1)) := by simp [hi]
    rw [List.getElem?_eq_getElem hi, Option.map_some]
    refine (List.getElem?_zip_eq_some (z := (_, _)).mpr ⟨h1, h2⟩).trans ?_
    have hd : ZoneText.data g.vars (zoneText g dflt z) i = g.vars.map (fun v => (v, g.getData dflt (g.zFaces z)[i] v)) := by
      unfold ZoneText.data
      rw [← zip_map_self]
      congr 1
      simp only [zoneText, List.filterMap_map, Function.comp_def, dataSlice, List.getElem?_map, List.getElem?_eq_getElem hi,
        Option.map_some, List.filterMap_eq_map']
    exact congrArg (fun d => some (d, _)) hd
  · rw [List.getElem?_eq_none (by simpa using hi), List.getElem?_eq_none (by simpa using hi)]
    rfl

/-- The lines of the file. -/
theorem storeLines_ok {g : Grid F R} (c : Codec F) (dflt : F) (hw : Wf g) (hl : ZoneLists g) (hg : GloPerm g) (h0 : g.faces ≠ []) :
    g.storeLines c dflt = .ok (headLines g.name (xyz ++ g.vars) ++
      g.zones.flatMap (fun z => (zoneText g dflt z).lines c (xyz ++ g.vars).length)) := by
  have hv : ∃ f0, Py.get g.faces 0 = .ok f0 ∧ (g.fData f0).map Prod.fst = g.vars := by
    cases hf : g.faces with
    | nil => exact absurd hf h0
    | cons f t => exact ⟨f, rfl, by simp [Grid.vars, hf]⟩
  obtain ⟨f0, hf0, hf1⟩ := hv
  unfold storeLines
  rw [hf0, res_bind_ok, hf1]
  show (g.zones.foldlM (g.storeZone c dflt (xyz ++ g.vars))
    (List.replicate g.nodes.length (-1), headLines g.name (xyz ++ g.vars)) >>= _) = _
  obtain ⟨s', h1, -, h2⟩ := foldlM_total (g.storeZone c dflt (xyz ++ g.vars)) g.zones
    (fun pre s => s.1.length = g.nodes.length ∧ s.2 = headLines g.name (xyz ++ g.vars) ++
      pre.flatMap (fun z => (zoneText g dflt z).lines c (xyz ++ g.vars).length))
    (List.replicate g.nodes.length (-1), headLines g.name (xyz ++ g.vars)) ⟨by simp, by simp⟩ (by
      rintro pre z post s hs ⟨i1, i2⟩
      have hz : z ∈ g.zones := by rw [hs]; simp
      have hmem : ∀ n ∈ g.zNodes z, n ∈ g.nodes := fun n hn => ((hl.mem_nodes hz n).1 hn).1
      obtain ⟨ids, n1, n2, n3⟩ := number_spec g.nGlo s.1 (g.zNodes z)
        (by rw [hl.nodes z hz]; exact hw.mesh.nodes_nodup.filter _)
        (fun a ha b hb => hg.node_inj (hmem a ha) (hmem b hb)) (fun a ha => by rw [i1]; exact hg.node_lt (hmem a ha))
      have hconn : (g.zFaces z).mapM (g.faceConn ids) = .ok (zoneText g dflt z).conns := by
        apply mapM_ok
        intro f hf
        unfold faceConn
        rw [localIds_ok g.nGlo ids (g.zNodes z) _ n3 (face_nodes_sub hw hl hz hf), res_bind_ok, List.map_map]
        rfl
      refine ⟨(ids, s.2 ++ (zoneText g dflt z).lines c (xyz ++ g.vars).length), ?_, by rw [n2, i1], ?_⟩
      · unfold storeZone
        rw [n1, res_bind_ok, hconn, res_bind_ok]
        rfl
      · simp only [i2, List.flatMap_append, List.append_assoc, List.flatMap_singleton])
  rw [h1, res_bind_ok, h2]
  rfl

theorem zoneText_ok {g : Grid F R} (dflt : F) (z : Nat) (hn : PlainName (g.zName z)) : (zoneText g dflt z).Ok g.vars := by
  refine ⟨hn, by simp [zoneText], ?_⟩
  intro r hr
  obtain ⟨v, -, rfl⟩ := List.mem_map.mp hr
  simp [dataSlice, zoneText]

/-- Reading back what was stored. -/
theorem load_store [DecidableEq R] {g : Grid F R} {c : Codec F} (hc : c.Lawful) (dflt : F) (hw : Wf g) (hl : ZoneLists g)
    (hg : GloPerm g) (h0 : g.faces ≠ []) (hn : PlainName g.name) (hz : ∀ z ∈ g.zones, PlainName (g.zName z))
    (hp : ∀ v ∈ g.vars, PlainVar v) (hv : g.vars.Nodup) :
    ∃ text, g.storeText c dflt = .ok text ∧ ∀ (rc : Vec F → R) (merge : Bool) (g1 : Grid F R),
      loadText rc c merge g1 text = loadBlocks rc merge { g1 with name := g.name } (g.zones.map (zoneBlock g dflt)) := by
  refine ⟨_, by unfold storeText; rw [storeLines_ok c dflt hw hl hg h0, res_bind_ok]; rfl, ?_⟩
  intro rc merge g1
  have := parse_render hc g1.name g.name hn g.vars hp hv (g.zones.map (zoneText g dflt)) (by
    intro t ht
    obtain ⟨z, hzm, rfl⟩ := List.mem_map.mp ht
    exact zoneText_ok dflt z (hz z hzm))
  rw [List.flatMap_map] at this
  unfold loadText
  simp only at this ⊢
  rw [this, res_bind_ok, List.map_map]
  have e : ((fun t => ZoneText.block g.vars t) ∘ zoneText g dflt) = zoneBlock g dflt := by
    funext z; exact zoneText_block g dflt z
  rw [e]

/-! ### The file of a consistent grid is a correct file -/

variable {g : Grid F R}

theorem KeysApart.zone {rc : Vec F → R} {merge : Bool} (h : KeysApart rc merge g) (hl : ZoneLists g) {z : Nat} (hz : z ∈ g.zones) :
    ∀ n ∈ g.zNodes z, ∀ m ∈ g.zNodes z, rc (g.nP n) = rc (g.nP m) → n = m := by
  unfold KeysApart at h
  split at h
  · intro n hn m hm
    exact h n ((hl.mem_nodes hz n).1 hn).1 m ((hl.mem_nodes hz m).1 hm).1
  · exact h z hz

theorem point?_zoneBlock (dflt : F) {z n : Nat} (hn : n ∈ g.zNodes z) :
    (zoneBlock g dflt z).point? (((g.zNodes z).idxOf n : Int) + 1) = some (g.nP n) := by
  unfold ZoneBlock.point?
  have hlt : (g.zNodes z).idxOf n < (g.zNodes z).length := List.idxOf_lt_length_iff.2 hn
  have : (((g.zNodes z).idxOf n : Int) + 1) - 1 = ((g.zNodes z).idxOf n : Int) := by omega
  rw [this, get_nat (by simpa [zoneBlock] using hlt)]
  simp [zoneBlock]

theorem zoneBlock_valid (dflt : F) (hw : Wf g) (hl : ZoneLists g) {z : Nat} (hz : z ∈ g.zones) : (zoneBlock g dflt z).Valid := by
  intro fc hfc
  obtain ⟨f, hf, rfl⟩ := List.mem_map.mp hfc
  refine ⟨by simpa using (hw.mesh.face_nodes f (hw.face_mem hz hf)).1, ?_⟩
  intro s hs
  obtain ⟨n, hn, rfl⟩ := List.mem_map.mp hs
  rw [point?_zoneBlock dflt (face_nodes_sub hw hl hz hf n hn)]
  rfl

/-- The corner written for node `n` in zone number `i`. -/
def corner (rc : Vec F → R) (merge : Bool) (g : Grid F R) (i n : Nat) : Nat × Option R :=
  (if merge then 0 else i, some (rc (g.nP n)))

theorem zip_faces (rc : Vec F → R) (merge : Bool) (dflt : F) (hw : Wf g) (hl : ZoneLists g) :
    fileFaces rc merge (g.zones.map (zoneBlock g dflt)) =
      (g.zones.zipIdx.flatMap (fun p => (g.zFaces p.1).map (fun f => (p.2, f)))).map
        (fun q => (g.fNodes q.2).map (corner rc merge g q.1)) := by
  unfold fileFaces
  rw [List.zipIdx_map, List.flatMap_map, List.map_flatMap]
  apply List.flatMap_congr
  rintro ⟨z, i⟩ hp
  have hz : z ∈ g.zones := by
    have := List.mem_zipIdx hp
    rw [this.2.2]
    exact List.getElem_mem _
  simp only [zoneBlock, List.map_map, Prod.map]
  apply List.map_congr_left
  intro f hf
  simp only [Function.comp_def, List.map_map]
  apply List.map_congr_left
  intro n hn
  unfold cornerId corner
  have := point?_zoneBlock (g := g) dflt (face_nodes_sub hw hl hz hf n hn)
  unfold zoneBlock at this
  simp only [id] at this ⊢
  rw [this]
  rfl

theorem zip_mem {i f : Nat} (h : (i, f) ∈ g.zones.zipIdx.flatMap (fun p => (g.zFaces p.1).map (fun f => (p.2, f)))) :
    ∃ z, g.zones[i]? = some z ∧ z ∈ g.zones ∧ f ∈ g.zFaces z := by
  obtain ⟨⟨z, j⟩, hp, hq⟩ := List.mem_flatMap.mp h
  obtain ⟨f', hf, e⟩ := List.mem_map.mp hq
  obtain ⟨rfl, rfl⟩ := Prod.mk.inj e
  have := List.mem_zipIdx_iff_getElem?.1 hp
  exact ⟨z, this, List.mem_of_getElem? this, hf⟩

theorem zip_snd : (g.zones.zipIdx.flatMap (fun p => (g.zFaces p.1).map (fun f => (p.2, f)))).map Prod.snd = g.zones.flatMap g.zFaces := by
  rw [List.map_flatMap]
  have : (fun p : Nat × Nat => ((g.zFaces p.1).map (fun f => (p.2, f))).map Prod.snd) = g.zFaces ∘ Prod.fst := by
    funext p; simp [Function.comp_def]
  rw [this]
  conv_rhs => rw [← zipIdx_fst g.zones 0]
  rw [List.flatMap_map]
  rfl

theorem store_nonDegenerate (rc : Vec F → R) (merge : Bool) (dflt : F) (hw : Wf g) (hl : ZoneLists g) (hk : KeysApart rc merge g) :
    NonDegenerate rc merge (g.zones.map (zoneBlock g dflt)) := by
  intro t ht
  rw [zip_faces rc merge dflt hw hl] at ht
  obtain ⟨⟨i, f⟩, hq, rfl⟩ := List.mem_map.mp ht
  obtain ⟨z, -, hz, hf⟩ := zip_mem hq
  refine List.Nodup.map_on ?_ (hw.mesh.face_nodes f (hw.face_mem hz hf)).2.1
  intro a ha b hb e
  have := Option.some.inj (Prod.mk.inj e).2
  exact hk.zone hl hz a (face_nodes_sub hw hl hz hf a ha) b (face_nodes_sub hw hl hz hf b hb) this

theorem store_zonePoints (rc : Vec F → R) (merge : Bool) (dflt : F) (hw : Wf g) (hl : ZoneLists g) (hk : KeysApart rc merge g) :
    ZonePoints rc merge (g.zones.map (zoneBlock g dflt)) := by
  intro _ b hb
  obtain ⟨z, hz, rfl⟩ := List.mem_map.mp hb
  show (((g.zNodes z).map g.nP).map rc).Nodup
  rw [List.map_map]
  refine List.Nodup.map_on (fun a ha b hb e => hk.zone hl hz a ha b hb e) ?_
  rw [hl.nodes z hz]
  exact hw.mesh.nodes_nodup.filter _

/-- Faces with two common corners are at most two. -/
theorem two_faces (hm : Mesh g) {a b : Nat} (hab : a ≠ b) (l : List Nat) (hl : l.Nodup)
    (h : ∀ f ∈ l, f ∈ g.faces ∧ a ∈ g.fNodes f ∧ b ∈ g.fNodes f) : l.length ≤ 2 := by
  cases l with
  | nil => simp
  | cons f l =>
    obtain ⟨hf, ha, hb⟩ := h f (by simp)
    obtain ⟨e, he, hea, heb⟩ := hm.sides f hf a ha b hb hab
    have heg := (hm.face_edges f hf).2.2 e he
    have hends : ∀ e' ∈ g.edges, a ∈ g.eNodes e' → b ∈ g.eNodes e' → ∀ n, n ∈ g.eNodes e' ↔ n = a ∨ n = b := by
      intro e' he' h1 h2 n
      obtain ⟨hlen, -, -⟩ := hm.edge_nodes e' he'
      obtain ⟨x, y, hxy⟩ := List.length_eq_two.1 hlen
      rw [hxy] at h1 h2 ⊢
      simp only [List.mem_cons, List.not_mem_nil, or_false] at h1 h2 ⊢
      rcases h1 with rfl | rfl <;> rcases h2 with rfl | rfl <;> simp_all [or_comm]
    have hsub : (f :: l) ⊆ g.eFaces e := by
      intro f' hf'
      obtain ⟨hg', ha', hb'⟩ := h f' hf'
      obtain ⟨e', he', hea', heb'⟩ := hm.sides f' hg' a ha' b hb' hab
      have heg' := (hm.face_edges f' hg').2.2 e' he'
      have : e' = e := hm.edge_unique e' heg' e heg (fun n => by rw [hends e' heg' hea' heb', hends e heg hea heb])
      rw [← this]
      exact (hm.edge_face e' heg' f').2 ⟨hg', he'⟩
    have := (hl.subperm hsub).length_le
    rcases (hm.edge_faces e heg).1 with h | h <;> omega

theorem store_notOverShared [DecidableEq R] (rc : Vec F → R) (merge : Bool) (dflt : F) (hw : Wf g) (hl : ZoneLists g)
    (hk : KeysApart rc merge g) : ¬ OverShared rc merge (g.zones.map (zoneBlock g dflt)) := by
  rintro ⟨u, v, huv, h3⟩
  rw [zip_faces rc merge dflt hw hl, List.filter_map, List.length_map] at h3
  obtain ⟨Q, hQ⟩ : ∃ Q, Q = (g.zones.zipIdx.flatMap (fun p => (g.zFaces p.1).map (fun f => (p.2, f)))).filter
    ((fun t => decide (u ∈ t) && decide (v ∈ t)) ∘ fun q => (g.fNodes q.2).map (corner rc merge g q.1)) := ⟨_, rfl⟩
  rw [← hQ] at h3
  have hq : ∀ q ∈ Q, ∃ z a b, g.zones[q.1]? = some z ∧ z ∈ g.zones ∧ q.2 ∈ g.zFaces z ∧ a ∈ g.fNodes q.2 ∧ b ∈ g.fNodes q.2 ∧
      corner rc merge g q.1 a = u ∧ corner rc merge g q.1 b = v := by
    rintro ⟨i, f⟩ h
    rw [hQ, List.mem_filter] at h
    obtain ⟨h1, h2⟩ := h
    obtain ⟨z, hz1, hz2, hf⟩ := zip_mem h1
    simp only [Function.comp, Bool.and_eq_true, decide_eq_true_eq, List.mem_map] at h2
    obtain ⟨⟨a, ha, ha'⟩, ⟨b, hb, hb'⟩⟩ := h2
    exact ⟨z, a, b, hz1, hz2, hf, ha, hb, ha', hb'⟩
  have hnd : (Q.map Prod.snd).Nodup := by
    have : (g.zones.flatMap g.zFaces).Nodup := hw.zones.partition.nodup_iff.2 hw.mesh.faces_nodup
    rw [← zip_snd] at this
    rw [hQ]
    exact this.sublist (List.filter_sublist.map _)
  have hne : Q ≠ [] := by rintro h; rw [h] at h3; simp at h3
  obtain ⟨q0, t, hq0⟩ := List.exists_cons_of_ne_nil hne
  obtain ⟨z0, a, b, i1, i2, i3, i4, i5, i6, i7⟩ := hq q0 (by rw [hq0]; simp)
  have hab : a ≠ b := by rintro rfl; exact huv (i6.symm.trans i7)
  have hle := two_faces hw.mesh hab (Q.map Prod.snd) hnd (by
    intro f hf
    obtain ⟨q, hqm, rfl⟩ := List.mem_map.mp hf
    obtain ⟨z, a', b', j1, j2, j3, j4, j5, j6, j7⟩ := hq q hqm
    have key : ∀ x x', x ∈ g.fNodes q0.2 → x' ∈ g.fNodes q.2 →
        corner rc merge g q0.1 x = corner rc merge g q.1 x' → x' = x := by
      intro x x' hx hx' e
      have ek := Option.some.inj (Prod.mk.inj e).2
      have ei := (Prod.mk.inj e).1
      have hx1 := face_nodes_sub hw hl i2 i3 x hx
      have hx1' := face_nodes_sub hw hl j2 j3 x' hx'
      cases merge with
      | true =>
        have hk' : ∀ n ∈ g.nodes, ∀ m ∈ g.nodes, rc (g.nP n) = rc (g.nP m) → n = m := by simpa [KeysApart] using hk
        exact hk' _ ((hl.mem_nodes j2 x').1 hx1').1 _ ((hl.mem_nodes i2 x).1 hx1).1 ek.symm
      | false =>
        have ei : q0.1 = q.1 := ei
        rw [← ei, i1] at j1
        obtain rfl := Option.some.inj j1
        exact hk.zone hl i2 _ hx1' _ hx1 ek.symm
    have e1 := key a a' i4 j4 (i6.trans j6.symm)
    have e2 := key b b' i5 j5 (i7.trans j7.symm)
    exact ⟨hw.face_mem j2 j3, e1 ▸ j4, e2 ▸ j5⟩)
  rw [List.length_map] at hle
  omega

/-- The file written by `store` loads. -/
theorem store_loaded [DecidableEq R] (rc : Vec F → R) (merge : Bool) (dflt : F) (hw : Wf g) (hl : ZoneLists g)
    (hk : KeysApart rc merge g) (g1 : Grid F R) : ∃ g', loadBlocks rc merge g1 (g.zones.map (zoneBlock g dflt)) = .ok g' ∧
      Loaded rc merge (g.zones.map (zoneBlock g dflt)) g1 g' := by
  rcases load_spec rc merge g1 (g.zones.map (zoneBlock g dflt)) (by
    intro b hb
    obtain ⟨z, hz, rfl⟩ := List.mem_map.mp hb
    exact zoneBlock_valid dflt hw hl hz) (store_nonDegenerate rc merge dflt hw hl hk) (store_zonePoints rc merge dflt hw hl hk)
    with ⟨h, _⟩ | ⟨_, h⟩
  · exact absurd h (store_notOverShared rc merge dflt hw hl hk)
  · exact h

end Verif
