import Verif.Proofs.Load

/-! The whole of `load` after parsing. -/

namespace Verif
variable {F R : Type} [DecidableEq R]
open Grid

/-- An identity of nodes that the file content determines. -/
structure TagOk (rc : Vec F → R) (merge : Bool) (blocks : List (ZoneBlock F)) (g : Grid F R) (tag : Nat → Nat × Option R) : Prop where
  inj : ∀ n ∈ g.nodes, ∀ m ∈ g.nodes, tag n = tag m → n = m
  same : ∀ f ∈ g.faces, ∀ n ∈ g.fNodes f, ∀ m ∈ g.fNodes f, (tag n).1 = (tag m).1
  key : ∀ n ∈ g.nodes, (tag n).2 = some (g.nKey n)
  file : fileFaces rc merge blocks = g.faces.map (fun f => (g.fNodes f).map tag)

theorem forall₂_map_eq {α β γ : Type _} {r : α → β → Prop} {f : α → γ} {k : β → γ} {l : List α} {m : List β}
    (h : List.Forall₂ r l m) (hr : ∀ a ∈ l, ∀ b ∈ m, r a b → f a = k b) : l.map f = m.map k := by
  induction h with
  | nil => rfl
  | cons h1 h2 ih =>
    rw [List.map_cons, List.map_cons, hr _ (by simp) _ (by simp) h1]
    rw [ih (fun a ha b hb => hr a (by simp [ha]) b (by simp [hb]))]

theorem forall₂_zipIdx_flatMap {α γ : Type _} {r : α → Nat → Prop} {f : α × Nat → List γ} {k : Nat → List γ}
    {l : List α} {m : List Nat} (h : List.Forall₂ r l m)
    (hr : ∀ (i : Nat) (a : α) (b : Nat), l[i]? = some a → m[i]? = some b → r a b → f (a, i) = k b) :
    l.zipIdx.flatMap f = m.flatMap k := by
  have key : ∀ (l : List α) (m : List Nat) (j : Nat), List.Forall₂ r l m →
      (∀ (i : Nat) (a : α) (b : Nat), l[i]? = some a → m[i]? = some b → r a b → f (a, i + j) = k b) →
      (l.zipIdx j).flatMap f = m.flatMap k := by
    intro l m j h
    induction h generalizing j with
    | nil => intro _; rfl
    | cons h1 h2 ih =>
      intro hr
      rw [List.zipIdx_cons, List.flatMap_cons, List.flatMap_cons, ih (j + 1)]
      · rw [← hr 0 _ _ rfl rfl h1, Nat.zero_add]
      · intro i a b ha hb hab
        have := hr (i + 1) a b (by simpa using ha) (by simpa using hb) hab
        rw [← this]; congr 2; omega
  exact key l m 0 h (fun i a b ha hb hab => hr i a b ha hb hab)

theorem tag_exists {rc : Vec F → R} {merge : Bool} {g : Grid F R} {blocks : List (ZoneBlock F)} (h : Pre rc merge g)
    (hb : List.Forall₂ (BlockOk rc merge g) blocks g.zones) (hp : ZonePoints rc merge blocks) :
    ∃ tag, TagOk rc merge blocks g tag := by
  -- zone number of a node
  let zi : Nat → Nat := fun n => g.zones.findIdx (fun z => (g.zNodes z).contains n)
  let tag : Nat → Nat × Option R := fun n => (if merge then 0 else zi n, some (g.nKey n))
  have hblk : ∀ (i z : Nat), g.zones[i]? = some z → ∃ b, blocks[i]? = some b ∧ BlockOk rc merge g b z := by
    intro i z hi
    obtain ⟨h1, h2⟩ := List.getElem?_eq_some_iff.1 hi
    have hl : i < blocks.length := by rw [hb.length_eq]; exact h1
    refine ⟨blocks[i], List.getElem?_eq_getElem hl, ?_⟩
    have := (List.forall₂_iff_get.1 hb).2 i hl h1
    simp only [List.get_eq_getElem, h2] at this
    exact this
  -- without merging the zone of a node is unique
  have hzi : merge = false → ∀ (i z n : Nat), g.zones[i]? = some z → n ∈ g.zNodes z → zi n = i := by
    intro hm i z n hi hn
    have hnd := h.nodes_nodup
    rw [h.unmerged hm] at hnd
    obtain ⟨h1, h2⟩ := List.getElem?_eq_some_iff.1 hi
    have hex : zi n < g.zones.length := List.findIdx_lt_length_of_exists ⟨z, List.mem_of_getElem? hi, by simpa using hn⟩
    have hsat := List.findIdx_getElem (w := hex)
    have hmem : n ∈ g.zNodes g.zones[zi n] := List.contains_iff_mem.1 hsat
    by_contra hne
    have hpw := (List.nodup_flatMap.1 hnd).2
    rw [List.pairwise_iff_getElem] at hpw
    rcases Nat.lt_or_gt_of_ne hne with hlt | hlt
    · exact hpw (zi n) i hex h1 hlt hmem (by rw [h2]; exact hn)
    · exact hpw i (zi n) h1 hex hlt (by rw [h2]; exact hn) hmem
  refine ⟨tag, ?_, ?_, ?_, ?_⟩
  · intro n hn m hm' ht
    have hk : g.nKey n = g.nKey m := by
      have := congrArg Prod.snd ht
      simpa [tag] using this
    cases hmg : merge with
    | true => exact h.merged hmg n hn m hm' hk
    | false =>
      have ht1 : zi n = zi m := by
        have := congrArg Prod.fst ht
        simpa [tag, hmg] using this
      obtain ⟨z, hz, hnz⟩ := h.used n hn
      obtain ⟨z', hz', hnz'⟩ := h.used m hm'
      obtain ⟨i, hi⟩ := List.getElem?_of_mem hz
      obtain ⟨i', hi'⟩ := List.getElem?_of_mem hz'
      rw [hzi hmg i z n hi hnz, hzi hmg i' z' m hi' hnz'] at ht1
      subst ht1
      rw [hi] at hi'
      cases hi'
      obtain ⟨b, hb1, hb2⟩ := hblk i z hi
      have hkeys : b.pts.map rc = (g.zNodes z).map g.nKey :=
        forall₂_map_eq hb2.nodes (fun p _ n _ hpn => hpn.2.1.symm)
      have hnd := hp hmg b (List.mem_of_getElem? hb1)
      rw [hkeys] at hnd
      exact List.inj_on_of_nodup_map hnd hnz hnz' hk
  · intro f hf n hn m hm'
    cases hmg : merge with
    | true => simp [tag, hmg]
    | false =>
      rw [h.part, List.mem_flatMap] at hf
      obtain ⟨z, hz, hfz⟩ := hf
      obtain ⟨i, hi⟩ := List.getElem?_of_mem hz
      simp only [tag, hmg]
      rw [hzi hmg i z n hi (h.corners z hz f hfz n hn), hzi hmg i z m hi (h.corners z hz f hfz m hm')]
  · intro n _; rfl
  · unfold fileFaces
    rw [h.part, List.map_flatMap]
    refine forall₂_zipIdx_flatMap hb ?_
    intro i b z hbi hzi' hbo
    have hzm : z ∈ g.zones := List.mem_of_getElem? hzi'
    refine forall₂_map_eq hbo.faces ?_
    rintro fc _ f hfz ⟨hff, _, hcor⟩
    refine forall₂_map_eq hcor ?_
    intro s _ n hn hsn
    have hnz := get_mem hsn
    rcases get_forall₂ hbo.nodes (s - 1) with ⟨p, n', h1, h2, h3⟩ | ⟨h1, h2⟩
    · rw [hsn] at h2
      cases h2
      simp only [cornerId, ZoneBlock.point?, h1, tag, Option.map_some, h3.2.1]
      cases hmg : merge with
      | true => rfl
      | false => simp [hzi hmg i z n hzi' hnz]
    · rw [hsn] at h2; cases h2

theorem TagOk.overShared {rc : Vec F → R} {merge : Bool} {g : Grid F R} {blocks : List (ZoneBlock F)} {tag : Nat → Nat × Option R}
    (h : Pre rc merge g) (t : TagOk rc merge blocks g tag) :
    OverShared rc merge blocks ↔ ∃ a b, a ≠ b ∧ 3 ≤ (g.faces.filter (fun f => (g.fNodes f).contains a && (g.fNodes f).contains b)).length := by
  have hcount : ∀ a ∈ g.nodes, ∀ b ∈ g.nodes,
      ((fileFaces rc merge blocks).filter (fun x => decide (tag a ∈ x) && decide (tag b ∈ x))).length =
      (g.faces.filter (fun f => (g.fNodes f).contains a && (g.fNodes f).contains b)).length := by
    intro a ha b hb
    rw [t.file, List.filter_map, List.length_map]
    congr 1
    apply List.filter_congr
    intro f hf
    have hm : ∀ c ∈ g.nodes, decide (tag c ∈ (g.fNodes f).map tag) = (g.fNodes f).contains c := by
      intro c hc
      rw [Bool.eq_iff_iff, decide_eq_true_eq, List.contains_iff_mem, List.mem_map]
      constructor
      · rintro ⟨n, hn, he⟩
        rw [← t.inj n (h.fnodes f hf n hn) c hc he]; exact hn
      · intro hc'; exact ⟨c, hc', rfl⟩
    simp only [Function.comp_apply, hm a ha, hm b hb]
  constructor
  · rintro ⟨u, v, huv, h3⟩
    obtain ⟨x, hx⟩ := List.exists_mem_of_length_pos (l := (fileFaces rc merge blocks).filter (fun x => decide (u ∈ x) && decide (v ∈ x)))
      (by omega)
    rw [List.mem_filter, t.file, List.mem_map] at hx
    obtain ⟨⟨f, hf, rfl⟩, hx2⟩ := hx
    simp only [Bool.and_eq_true, decide_eq_true_eq, List.mem_map] at hx2
    obtain ⟨⟨a, ha, rfl⟩, ⟨b, hb, rfl⟩⟩ := hx2
    refine ⟨a, b, fun e => huv (by rw [e]), ?_⟩
    rw [← hcount a (h.fnodes f hf a ha) b (h.fnodes f hf b hb)]
    exact h3
  · rintro ⟨a, b, hab, h3⟩
    obtain ⟨f, hf⟩ := List.exists_mem_of_length_pos (l := g.faces.filter (fun f => (g.fNodes f).contains a && (g.fNodes f).contains b))
      (by omega)
    rw [List.mem_filter] at hf
    obtain ⟨hf, hc⟩ := hf
    simp only [Bool.and_eq_true, List.contains_iff_mem] at hc
    have ha := h.fnodes f hf a hc.1
    have hb := h.fnodes f hf b hc.2
    refine ⟨tag a, tag b, fun e => hab (t.inj a ha b hb e), ?_⟩
    rw [hcount a ha b hb]; exact h3

theorem preMesh_of {rc : Vec F → R} {merge : Bool} {g : Grid F R} {blocks : List (ZoneBlock F)} {tag : Nat → Nat × Option R}
    (h : Pre rc merge g) (t : TagOk rc merge blocks g tag) (hl : ∀ f ∈ g.faces, (g.fNodes f).length = 3)
    (hd : NonDegenerate rc merge blocks) : PreMesh g ∧ SidesOk g.nKey (sides g) := by
  have hnd : ∀ f ∈ g.faces, (g.fNodes f).Nodup := by
    intro f hf
    have := hd ((g.fNodes f).map tag) (by rw [t.file]; exact List.mem_map_of_mem hf)
    exact List.Nodup.of_map _ this
  have hsm : ∀ s ∈ sides g, s.1 ∈ g.faces ∧ s.2.1 ∈ g.fNodes s.1 ∧ s.2.2 ∈ g.fNodes s.1 ∧ s.2.1 ≠ s.2.2 := by
    intro s hs
    unfold sides at hs
    rw [List.mem_flatMap] at hs
    obtain ⟨f, hf, hsf⟩ := hs
    have := mem_sidesOf (hl f hf) (hnd f hf) hsf
    rw [sidesOf_face hsf]
    exact ⟨hf, this⟩
  have hkey : ∀ f ∈ g.faces, ∀ f' ∈ g.faces, ∀ a ∈ g.fNodes f, a ∈ g.fNodes f' → ∀ b ∈ g.fNodes f, ∀ x ∈ g.fNodes f',
      g.nKey b = g.nKey x → b = x := by
    intro f hf f' hf' a ha ha' b hb x hx hk
    have hbn := h.fnodes f hf b hb
    have hxn := h.fnodes f' hf' x hx
    apply t.inj b hbn x hxn
    apply Prod.ext
    · rw [t.same f hf b hb a ha, t.same f' hf' x hx a ha']
    · rw [t.key b hbn, t.key x hxn, hk]
  refine ⟨⟨h.nodes_nodup, h.faces_nodup, fun f hf => ⟨hl f hf, hnd f hf, h.fnodes f hf⟩, ?_, ?_, h.no_edges, h.nedges, h.fedges⟩, ?_, ?_⟩
  · intro n hn
    rw [List.nodup_iff_count_le_one]
    intro f
    by_cases hf : f ∈ g.nFaces n
    · have hff := h.nfaces n hn f hf
      rw [h.inc n hn f hff]
      exact List.nodup_iff_count_le_one.1 (hnd f hff) n
    · rw [List.count_eq_zero.2 hf]; omega
  · intro n hn f
    constructor
    · intro hf
      have hff := h.nfaces n hn f hf
      refine ⟨hff, ?_⟩
      rw [← List.count_pos_iff] at hf ⊢
      rw [← h.inc n hn f hff]; exact hf
    · rintro ⟨hff, hf⟩
      rw [← List.count_pos_iff] at hf ⊢
      rw [h.inc n hn f hff]; exact hf
  · intro s hs hk
    obtain ⟨h1, h2, h3, h4⟩ := hsm s hs
    exact h4 (hkey _ h1 _ h1 _ h2 h2 _ h2 _ h3 hk)
  · intro s hs s' hs' a b x hab hax hk
    obtain ⟨h1, h2, h3, h4⟩ := hsm s hs
    obtain ⟨h1', h2', h3', h4'⟩ := hsm s' hs'
    have m1 : a ∈ g.fNodes s.1 ∧ b ∈ g.fNodes s.1 := by
      unfold Side.pair at hab
      rcases npair_eq.1 hab with ⟨e1, e2⟩ | ⟨e1, e2⟩
      · rw [← e1, ← e2]; exact ⟨h2, h3⟩
      · rw [← e1, ← e2]; exact ⟨h3, h2⟩
    have m2 : a ∈ g.fNodes s'.1 ∧ x ∈ g.fNodes s'.1 := by
      unfold Side.pair at hax
      rcases npair_eq.1 hax with ⟨e1, e2⟩ | ⟨e1, e2⟩
      · rw [← e1, ← e2]; exact ⟨h2', h3'⟩
      · rw [← e1, ← e2]; exact ⟨h3', h2'⟩
    exact hkey _ h1 _ h1' a m1.1 m2.1 b m1.2 x m2.2 hk

/-- Everything known about a loaded grid. -/
structure Loaded (rc : Vec F → R) (merge : Bool) (blocks : List (ZoneBlock F)) (g g' : Grid F R) : Prop where
  mesh : Mesh g'
  zones : ZonesOk g'
  lists : ZoneLists g'
  glo : GloIds g'
  alloc : ZonesAlloc g'
  rep : List.Forall₂ (Represents rc merge g') blocks g'.zones
  order : g'.faces = g'.zones.flatMap g'.zFaces
  keys : ∀ n ∈ g'.nodes, g'.nKey n = rc (g'.nP n)
  name : g'.name = g.name
  /-- new objects were given fresh numbers -/
  nodes_lt : ∀ n ∈ g'.nodes, n < g'.nNext
  edges_lt : ∀ e ∈ g'.edges, e < g'.eNext
  faces_lt : ∀ f ∈ g'.faces, f < g'.fNext
  bag : ∀ k, k ∈ g'.bag ↔ ∃ n ∈ g'.nodes, g'.nKey n = k
  points : ∀ b ∈ blocks, ∀ p ∈ b.pts, ∃ n ∈ g'.nodes, g'.nKey n = rc p ∧ (merge = false → g'.nP n = p)
  used : ∀ n ∈ g'.nodes, ∃ b ∈ blocks, ∃ p ∈ b.pts, g'.nKey n = rc p
  merged : merge = true → ∀ n ∈ g'.nodes, ∀ m ∈ g'.nodes, g'.nKey n = g'.nKey m → n = m
  unmerged : merge = false → g'.nodes.map g'.nP = blocks.flatMap (·.pts)
  registered : g'.nodes.map g'.nP = registered rc merge (blocks.flatMap (·.pts))
  /-- the node lists of zones while the file was read -/
  chunks : ∃ zn : Nat → List Nat, (merge = false → g'.nodes = g'.zones.flatMap zn) ∧
    List.Forall₂ (fun b z => List.Forall₂ (IsNodeOf rc merge g') b.pts (zn z) ∧
      List.Forall₂ (fun fc f => List.Forall₂ (fun s n => Py.get (zn z) (s - 1) = .ok n) fc.2 (g'.fNodes f))
        b.faces (g'.zFaces z)) blocks g'.zones

theorem BlockOk.represents {rc : Vec F → R} {merge : Bool} {g : Grid F R} {b : ZoneBlock F} {z : Nat} (h : BlockOk rc merge g b z) :
    Represents rc merge g b z := by
  refine ⟨h.name, h.faces.imp ?_⟩
  rintro fc f ⟨_, h2, h3⟩
  refine ⟨h2, h3.imp ?_⟩
  intro s n hsn
  rcases get_forall₂ h.nodes (s - 1) with ⟨p, n', q1, q2, q3⟩ | ⟨q1, q2⟩
  · rw [hsn] at q2
    cases q2
    exact ⟨q3.1, p, by unfold ZoneBlock.point?; rw [q1], q3.2.1, q3.2.2⟩
  · rw [hsn] at q2; cases q2

theorem blockOk_length {rc : Vec F → R} {merge : Bool} {g : Grid F R} {blocks : List (ZoneBlock F)} (h : Pre rc merge g)
    (hv : ∀ b ∈ blocks, b.Valid) (hb : List.Forall₂ (BlockOk rc merge g) blocks g.zones) :
    ∀ f ∈ g.faces, (g.fNodes f).length = 3 := by
  intro f hf
  rw [h.part, List.mem_flatMap] at hf
  obtain ⟨z, hz, hfz⟩ := hf
  obtain ⟨i, hi⟩ := List.getElem?_of_mem hz
  obtain ⟨h1, h2⟩ := List.getElem?_eq_some_iff.1 hi
  have hl : i < blocks.length := by rw [hb.length_eq]; exact h1
  have hbo := (List.forall₂_iff_get.1 hb).2 i hl h1
  simp only [List.get_eq_getElem, h2] at hbo
  obtain ⟨j, hj⟩ := List.getElem?_of_mem hfz
  obtain ⟨j1, j2⟩ := List.getElem?_eq_some_iff.1 hj
  have hl' : j < blocks[i].faces.length := by rw [hbo.faces.length_eq]; exact j1
  have hfo := (List.forall₂_iff_get.1 hbo.faces).2 j hl' j1
  simp only [List.get_eq_getElem, j2] at hfo
  rw [← hfo.2.2.length_eq]
  exact (hv blocks[i] (List.getElem_mem hl) _ (List.getElem_mem hl')).1

theorem load_spec (rc : Vec F → R) (merge : Bool) (g : Grid F R) (blocks : List (ZoneBlock F)) (hv : ∀ b ∈ blocks, b.Valid)
    (hd : NonDegenerate rc merge blocks) (hp : ZonePoints rc merge blocks) :
    (OverShared rc merge blocks ∧ loadBlocks rc merge g blocks = .error (.exc "Too many faces linking with this edge")) ∨
    (¬ OverShared rc merge blocks ∧ ∃ g', loadBlocks rc merge g blocks = .ok g' ∧ Loaded rc merge blocks g g') := by
  obtain ⟨g1, a1, a2, a3, a4, a5⟩ := addBlocks_ok (pre_clear rc merge g) rfl blocks hv
  obtain ⟨tag, ht⟩ := tag_exists a2 a4 hp
  have hlen := blockOk_length a2 hv a4
  obtain ⟨hpm, hsd⟩ := preMesh_of a2 ht hlen hd
  rw [ht.overShared a2]
  rcases linkFaces_spec hpm hsd with ⟨h1, h2⟩ | ⟨h1, m, en, ef, eg, ne, fe, h2, h3, h4⟩
  · left
    refine ⟨h1, ?_⟩
    unfold loadBlocks
    show (blocks.foldlM (addBlock rc merge) g.clear >>= _) = _
    rw [a1, res_bind_ok]
    show (g1.faces.foldlM linkFace g1 >>= _) = _
    rw [h2]; rfl
  · right
    refine ⟨by rintro ⟨a, b, hab, hc⟩; have := h1 a b hab; omega, ?_⟩
    obtain ⟨G, hG⟩ : ∃ G, G = withEdges g1 m en ef eg ne fe := ⟨_, rfl⟩
    rw [← hG] at h2 h3
    have hGz : G.zones = g1.zones := by rw [hG]; rfl
    have hGf : G.faces = g1.faces := by rw [hG]; rfl
    have hGn : G.nodes = g1.nodes := by rw [hG]; rfl
    have hGzf : G.zFaces = g1.zFaces := by rw [hG]; rfl
    have hGfz : G.fZone = g1.fZone := by rw [hG]; rfl
    have hzok : ZonesOk G := by
      refine ⟨by rw [hGz]; exact a2.zones_nodup, by rw [hGz, hGzf, hGf, ← a2.part], ?_⟩
      rw [hGz, hGzf, hGfz]; exact a2.points
    have hpts := hzok.pointsIn
    obtain ⟨zn, ze, zi, l1, l2, l3⟩ := G.link_spec hzok.zones_nodup
      (fun n hn f hf => hpts f ((h3.node_face n hn f).1 hf).1)
      (fun e he f hf => hpts f ((h3.edge_face e he f).1 hf).1)
    refine ⟨{ G with zNodes := zn, zEdges := ze, zId := zi }, ?_, ?_⟩
    · unfold loadBlocks
      show (blocks.foldlM (addBlock rc merge) g.clear >>= _) = _
      rw [a1, res_bind_ok]
      show (g1.faces.foldlM linkFace g1 >>= _) = _
      rw [h2, res_bind_ok, l1]
    · constructor
      · exact h3.congr (by constructor <;> rfl)
      · exact ⟨hzok.zones_nodup, hzok.partition, hzok.points⟩
      · constructor
        · intro z hzz
          show zn z = _
          rw [l2 z hzz]
          apply List.filter_congr
          intro n hn
          rw [Bool.eq_iff_iff]
          simp only [List.any_eq_true, decide_eq_true_eq, List.contains_iff_mem]
          constructor
          · rintro ⟨f, hf, hfz⟩
            have := (h3.node_face n hn f).1 hf
            exact ⟨f, (hzok.mem_iff hzz f).2 ⟨this.1, hfz⟩, this.2⟩
          · rintro ⟨f, hf, hnf⟩
            have := (hzok.mem_iff hzz f).1 hf
            exact ⟨f, (h3.node_face n hn f).2 ⟨this.1, hnf⟩, this.2⟩
        · intro z hzz
          show ze z = _
          rw [l3 z hzz]
          apply List.filter_congr
          intro e he
          rw [Bool.eq_iff_iff]
          simp only [List.any_eq_true, decide_eq_true_eq, List.contains_iff_mem]
          constructor
          · rintro ⟨f, hf, hfz⟩
            have := (h3.edge_face e he f).1 hf
            exact ⟨f, (hzok.mem_iff hzz f).2 ⟨this.1, hfz⟩, this.2⟩
          · rintro ⟨f, hf, hnf⟩
            have := (hzok.mem_iff hzz f).1 hf
            exact ⟨f, (h3.edge_face e he f).2 ⟨this.1, hnf⟩, this.2⟩
      · refine ⟨?_, ?_, ?_⟩
        · subst hG; exact a2.nglo
        · subst hG
          intro i e hi
          have hi : (g1.edges ++ List.range' g1.eNext m)[i]? = some e := hi
          rw [hpm.no_edges, List.nil_append] at hi
          obtain ⟨q1, q2⟩ := List.getElem?_eq_some_iff.1 hi
          rw [List.getElem_range'] at q2
          rw [List.length_range'] at q1
          show eg e = i
          rw [← q2, Nat.one_mul, h4 i q1]
        · subst hG; exact a2.fglo
      · subst hG; exact a2.zones_lt
      · subst hG
        refine a4.imp ?_
        intro b z hbz
        exact ⟨hbz.represents.name, hbz.represents.faces⟩
      · subst hG; exact a2.part
      · subst hG; exact a2.keys
      · subst hG; exact a3.name
      · subst hG; exact a2.nodes_lt
      · subst hG
        intro e he
        have he : e ∈ g1.edges ++ List.range' g1.eNext m := he
        rw [hpm.no_edges, List.nil_append, List.mem_range'_1] at he
        exact he.2
      · subst hG; exact a2.faces_lt
      · subst hG; exact a2.bag
      · subst hG
        intro b hb p hpb
        obtain ⟨i, hi⟩ := List.getElem?_of_mem hb
        obtain ⟨i1, i2⟩ := List.getElem?_eq_some_iff.1 hi
        have hbo := (List.forall₂_iff_get.1 a4).2 i i1 (by rw [← a4.length_eq]; exact i1)
        simp only [List.get_eq_getElem, i2] at hbo
        obtain ⟨j, hj⟩ := List.getElem?_of_mem hpb
        obtain ⟨j1, j2⟩ := List.getElem?_eq_some_iff.1 hj
        have hpo := (List.forall₂_iff_get.1 hbo.nodes).2 j j1 (by rw [← hbo.nodes.length_eq]; exact j1)
        simp only [List.get_eq_getElem, j2] at hpo
        exact ⟨_, hpo.1, hpo.2⟩
      · subst hG
        intro n hn
        obtain ⟨z, hz, hnz⟩ := a2.used n hn
        obtain ⟨i, hi⟩ := List.getElem?_of_mem hz
        obtain ⟨i1, i2⟩ := List.getElem?_eq_some_iff.1 hi
        have il : i < blocks.length := by rw [a4.length_eq]; exact i1
        have hbo := (List.forall₂_iff_get.1 a4).2 i il i1
        simp only [List.get_eq_getElem, i2] at hbo
        obtain ⟨j, hj⟩ := List.getElem?_of_mem hnz
        obtain ⟨j1, j2⟩ := List.getElem?_eq_some_iff.1 hj
        have jl : j < blocks[i].pts.length := by rw [hbo.nodes.length_eq]; exact j1
        have hpo := (List.forall₂_iff_get.1 hbo.nodes).2 j jl j1
        simp only [List.get_eq_getElem, j2] at hpo
        exact ⟨blocks[i], List.getElem_mem il, _, List.getElem_mem jl, hpo.2.1⟩
      · subst hG; exact a2.merged
      · subst hG
        intro hm
        show g1.nodes.map g1.nP = _
        rw [a2.unmerged hm, List.map_flatMap]
        have : ∀ (bs : List (ZoneBlock F)) (zs : List Nat), List.Forall₂ (BlockOk rc merge g1) bs zs →
            zs.flatMap (fun z => (g1.zNodes z).map g1.nP) = bs.flatMap (·.pts) := by
          intro bs zs h
          induction h with
          | nil => rfl
          | cons q1 q2 ih =>
            rw [List.flatMap_cons, List.flatMap_cons, ih]
            congr 1
            have := forall₂_map_eq (f := id) (k := g1.nP) q1.nodes (fun p _ n _ hpn => (hpn.2.2 hm).symm)
            rw [← this, List.map_id]
        exact this _ _ a4
      · subst hG; exact a5
      · subst hG
        exact ⟨g1.zNodes, a2.unmerged, a4.imp fun b z hbz => ⟨hbz.nodes, hbz.faces.imp fun fc f hf => hf.2.2⟩⟩

/-- A load that succeeds was given valid connectivity lists. -/
theorem load_valid (rc : Vec F → R) (merge : Bool) (g g' : Grid F R) (blocks : List (ZoneBlock F))
    (h : loadBlocks rc merge g blocks = .ok g') : ∀ b ∈ blocks, b.Valid := by
  unfold loadBlocks at h
  rw [res_bind_eq_ok] at h
  obtain ⟨g1, h1, _⟩ := h
  exact addBlocks_valid blocks g.clear g1 (pre_clear rc merge g) h1

end Verif
