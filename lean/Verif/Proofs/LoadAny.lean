import Verif.Proofs.LoadAll

/-! What holds for every file that loads, degenerate faces included, and which errors loading raises. -/

namespace Verif
variable {F R : Type} [DecidableEq R]
open Grid

/-- The attributes not touched while edges are made and zone lists are built. -/
structure LinkFrame (g g' : Grid F R) : Prop where
  nodes : g'.nodes = g.nodes
  nKey : g'.nKey = g.nKey
  nP : g'.nP = g.nP
  faces : g'.faces = g.faces
  fNodes : g'.fNodes = g.fNodes
  fData : g'.fData = g.fData
  fZone : g'.fZone = g.fZone
  zones : g'.zones = g.zones
  zFaces : g'.zFaces = g.zFaces
  zName : g'.zName = g.zName

omit [DecidableEq R] in
theorem LinkFrame.refl (g : Grid F R) : LinkFrame g g := by constructor <;> rfl

omit [DecidableEq R] in
theorem LinkFrame.trans {a b c : Grid F R} (h1 : LinkFrame a b) (h2 : LinkFrame b c) : LinkFrame a c := by
  constructor
  · rw [h2.nodes, h1.nodes]
  · rw [h2.nKey, h1.nKey]
  · rw [h2.nP, h1.nP]
  · rw [h2.faces, h1.faces]
  · rw [h2.fNodes, h1.fNodes]
  · rw [h2.fData, h1.fData]
  · rw [h2.fZone, h1.fZone]
  · rw [h2.zones, h1.zones]
  · rw [h2.zFaces, h1.zFaces]
  · rw [h2.zName, h1.zName]

omit [DecidableEq R] in
theorem foldlM_frame {α : Type _} (f : Grid F R → α → Res (Grid F R)) (l : List α) (s s' : Grid F R)
    (h : l.foldlM f s = .ok s') (hf : ∀ s a s', f s a = .ok s' → LinkFrame s s') : LinkFrame s s' :=
  foldlM_partial f l (fun _ t => LinkFrame s t) s s' h (LinkFrame.refl s)
    (fun _ a _ t t' _ hi ht => hi.trans (hf t a t' ht))

theorem foldlM_error {α β : Type _} (f : β → α → Res β) (l : List α) (s : β) (e : Err)
    (h : l.foldlM f s = .error e) : ∃ s' a, a ∈ l ∧ f s' a = .error e := by
  induction l generalizing s with
  | nil => simp at h
  | cons a l ih =>
    rw [List.foldlM_cons, res_bind_eq_error] at h
    rcases h with h | ⟨s1, _, h⟩
    · exact ⟨s, a, by simp, h⟩
    · obtain ⟨s', b, hb, hh⟩ := ih s1 h
      exact ⟨s', b, by simp [hb], hh⟩

theorem mapM_error {α β : Type _} (f : α → Res β) (l : List α) (e : Err)
    (h : l.mapM f = .error e) : ∃ a ∈ l, f a = .error e := by
  induction l with
  | nil => simp at h
  | cons a l ih =>
    rw [List.mapM_cons, res_bind_eq_error] at h
    rcases h with h | ⟨s1, _, h⟩
    · exact ⟨a, by simp, h⟩
    · rw [res_bind_eq_error] at h
      rcases h with h | ⟨s2, _, h⟩
      · obtain ⟨b, hb, hh⟩ := ih h
        exact ⟨b, by simp [hb], hh⟩
      · simp at h

theorem get_error {α : Type _} {l : List α} {i : Int} {e : Err} (h : Py.get l i = .error e) : e = .index := by
  unfold Py.get at h
  generalize (if i < 0 then i + (l.length : Int) else i) = j at h
  dsimp only at h
  by_cases hj : j < 0
  · rw [if_pos hj] at h; cases h; rfl
  · rw [if_neg hj] at h
    cases hl : l[j.toNat]? with
    | some x => rw [hl] at h; cases h
    | none => rw [hl] at h; cases h; rfl

omit [DecidableEq R] in
theorem linkEdgeFace_frame {g g' : Grid F R} {e f : Nat} (h : g.linkEdgeFace e f = .ok g') : LinkFrame g g' := by
  unfold linkEdgeFace at h
  split at h
  · cases h
  · cases h; constructor <;> rfl

omit [DecidableEq R] in
theorem linkEdgeFace_error {g : Grid F R} {e f : Nat} {x : Err} (h : g.linkEdgeFace e f = .error x) :
    x = .exc "Too many faces linking with this edge" := by
  unfold linkEdgeFace at h
  split at h
  · cases h; rfl
  · cases h

theorem complexLink_frame {g g' : Grid F R} {f a b : Nat} (h : g.complexLink f a b = .ok g') : LinkFrame g g' := by
  unfold complexLink at h
  split at h
  · have := linkEdgeFace_frame h
    exact LinkFrame.trans (by constructor <;> rfl) this
  · exact linkEdgeFace_frame h

theorem complexLink_error {g : Grid F R} {f a b : Nat} {x : Err} (h : g.complexLink f a b = .error x) :
    x = .exc "Too many faces linking with this edge" := by
  unfold complexLink at h
  split at h
  · exact linkEdgeFace_error h
  · exact linkEdgeFace_error h

theorem linkFace_frame {g g' : Grid F R} {f : Nat} (h : g.linkFace f = .ok g') : LinkFrame g g' := by
  unfold linkFace at h
  simp only [res_bind_eq_ok] at h
  obtain ⟨a, _, b, _, c, _, g1, h1, g2, h2, h3⟩ := h
  exact (complexLink_frame h1).trans ((complexLink_frame h2).trans (complexLink_frame h3))

theorem linkFace_error {g : Grid F R} {f : Nat} {x : Err} (h : g.linkFace f = .error x) :
    x = .index ∨ x = .exc "Too many faces linking with this edge" := by
  unfold linkFace at h
  simp only [res_bind_eq_error] at h
  rcases h with h | ⟨_, _, h | ⟨_, _, h | ⟨_, _, h | ⟨_, _, h | ⟨_, _, h⟩⟩⟩⟩⟩
  · exact .inl (get_error h)
  · exact .inl (get_error h)
  · exact .inl (get_error h)
  · exact .inr (complexLink_error h)
  · exact .inr (complexLink_error h)
  · exact .inr (complexLink_error h)

omit [DecidableEq R] in
theorem linkNodeToZones_frame {g g' : Grid F R} {n : Nat} (h : g.linkNodeToZones n = .ok g') : LinkFrame g g' := by
  unfold linkNodeToZones at h
  rw [res_bind_eq_ok] at h
  obtain ⟨ids, _, h⟩ := h
  refine foldlM_frame _ _ _ _ h ?_
  intro s a s' hs
  rw [res_bind_eq_ok] at hs
  obtain ⟨z, _, hs⟩ := hs
  cases hs
  constructor <;> rfl

omit [DecidableEq R] in
theorem linkEdgeToZones_frame {g g' : Grid F R} {n : Nat} (h : g.linkEdgeToZones n = .ok g') : LinkFrame g g' := by
  unfold linkEdgeToZones at h
  rw [res_bind_eq_ok] at h
  obtain ⟨ids, _, h⟩ := h
  refine foldlM_frame _ _ _ _ h ?_
  intro s a s' hs
  rw [res_bind_eq_ok] at hs
  obtain ⟨z, _, hs⟩ := hs
  cases hs
  constructor <;> rfl

omit [DecidableEq R] in
theorem zoneIds_error {g : Grid F R} {l : List Nat} {x : Err} (h : g.zoneIds l = .error x) : x = .attr := by
  obtain ⟨a, _, h⟩ := mapM_error _ _ _ h
  split at h
  · cases h
  · cases h; rfl

omit [DecidableEq R] in
theorem linkNodeToZones_error {g : Grid F R} {n : Nat} {x : Err} (h : g.linkNodeToZones n = .error x) :
    x = .attr ∨ x = .index := by
  unfold linkNodeToZones at h
  rw [res_bind_eq_error] at h
  rcases h with h | ⟨_, _, h⟩
  · exact .inl (zoneIds_error h)
  · obtain ⟨s, a, _, h⟩ := foldlM_error _ _ _ _ h
    rw [res_bind_eq_error] at h
    rcases h with h | ⟨_, _, h⟩
    · exact .inr (get_error h)
    · cases h

omit [DecidableEq R] in
theorem linkEdgeToZones_error {g : Grid F R} {n : Nat} {x : Err} (h : g.linkEdgeToZones n = .error x) :
    x = .attr ∨ x = .index := by
  unfold linkEdgeToZones at h
  rw [res_bind_eq_error] at h
  rcases h with h | ⟨_, _, h⟩
  · exact .inl (zoneIds_error h)
  · obtain ⟨s, a, _, h⟩ := foldlM_error _ _ _ _ h
    rw [res_bind_eq_error] at h
    rcases h with h | ⟨_, _, h⟩
    · exact .inr (get_error h)
    · cases h

omit [DecidableEq R] in
theorem linkZones_frame {g g' : Grid F R} (h : g.linkNodesAndEdgesToZones = .ok g') : LinkFrame g g' := by
  unfold linkNodesAndEdgesToZones at h
  simp only [res_bind_eq_ok] at h
  obtain ⟨g1, h1, g2, h2, h3⟩ := h
  cases h3
  have f1 := foldlM_frame _ _ _ _ h1 (fun s a s' => linkNodeToZones_frame)
  have f2 := foldlM_frame _ _ _ _ h2 (fun s a s' => linkEdgeToZones_frame)
  refine LinkFrame.trans (b := g1) (LinkFrame.trans (by constructor <;> rfl) f1) (f2.trans ?_)
  constructor <;> rfl

omit [DecidableEq R] in
theorem linkZones_error {g : Grid F R} {x : Err} (h : g.linkNodesAndEdgesToZones = .error x) :
    x = .attr ∨ x = .index := by
  unfold linkNodesAndEdgesToZones at h
  simp only [res_bind_eq_error] at h
  rcases h with h | ⟨_, _, h | ⟨_, _, h⟩⟩
  · obtain ⟨s, a, _, h⟩ := foldlM_error _ _ _ _ h
    exact linkNodeToZones_error h
  · obtain ⟨s, a, _, h⟩ := foldlM_error _ _ _ _ h
    exact linkEdgeToZones_error h
  · cases h

theorem addBlocks_error {rc : Vec F → R} {merge : Bool} : ∀ (blocks : List (ZoneBlock F)) (g : Grid F R) (x : Err),
    Pre rc merge g → blocks.foldlM (addBlock rc merge) g = .error x →
    x = .index ∨ x = .exc "Wrong count of face linked nodes" := by
  intro blocks
  induction blocks with
  | nil => intro g x _ h; simp at h
  | cons b bs ih =>
    intro g x hp h
    rw [List.foldlM_cons, res_bind_eq_error] at h
    rcases h with h | ⟨g1, h1, h2⟩
    · obtain ⟨g3, _, _, _, _, e, _⟩ := addBlock_pre hp b
      rw [e] at h
      obtain ⟨s, a, _, h⟩ := foldlM_error _ _ _ _ h
      unfold blockConn at h
      rw [res_bind_eq_error] at h
      rcases h with h | ⟨_, _, h⟩
      · exact .inl (get_error h)
      · rw [res_bind_eq_error] at h
        rcases h with h | ⟨_, _, h⟩
        · obtain ⟨_, _, h⟩ := mapM_error _ _ _ h
          exact .inl (get_error h)
        · split at h
          · cases h
          · cases h; exact .inr rfl
    · obtain ⟨g1', a1, a2, _⟩ := addBlock_ok hp b (addBlock_valid hp b h1)
      rw [h1] at a1
      cases a1
      exact ih g1 x a2 h2

/-- The errors `load` can raise once the text is parsed. -/
theorem load_error (rc : Vec F → R) (merge : Bool) (g : Grid F R) (blocks : List (ZoneBlock F)) (x : Err)
    (h : loadBlocks rc merge g blocks = .error x) :
    x = .index ∨ x = .attr ∨ x = .exc "Wrong count of face linked nodes" ∨
      x = .exc "Too many faces linking with this edge" := by
  unfold loadBlocks at h
  simp only [res_bind_eq_error] at h
  rcases h with h | ⟨_, _, h | ⟨_, _, h⟩⟩
  · rcases addBlocks_error _ _ _ (pre_clear rc merge g) h with h | h <;> simp [h]
  · obtain ⟨s, a, _, h⟩ := foldlM_error _ _ _ _ h
    rcases linkFace_error h with h | h <;> simp [h]
  · rcases linkZones_error h with h | h <;> simp [h]

/-- What a successful load always guarantees about nodes and corners. -/
structure LoadedAny (rc : Vec F → R) (merge : Bool) (blocks : List (ZoneBlock F)) (g' : Grid F R) : Prop where
  nodup : g'.nodes.Nodup
  rep : List.Forall₂ (Represents rc merge g') blocks g'.zones
  zones : ZonesOk g'
  keys : ∀ n ∈ g'.nodes, g'.nKey n = rc (g'.nP n)
  points : ∀ b ∈ blocks, ∀ p ∈ b.pts, ∃ n ∈ g'.nodes, g'.nKey n = rc p ∧ (merge = false → g'.nP n = p)
  used : ∀ n ∈ g'.nodes, ∃ b ∈ blocks, ∃ p ∈ b.pts, g'.nKey n = rc p
  merged : merge = true → ∀ n ∈ g'.nodes, ∀ m ∈ g'.nodes, g'.nKey n = g'.nKey m → n = m
  unmerged : merge = false → g'.nodes.map g'.nP = blocks.flatMap (·.pts)
  registered : g'.nodes.map g'.nP = registered rc merge (blocks.flatMap (·.pts))

theorem load_any (rc : Vec F → R) (merge : Bool) (g g' : Grid F R) (blocks : List (ZoneBlock F))
    (h : loadBlocks rc merge g blocks = .ok g') : LoadedAny rc merge blocks g' := by
  have hv := load_valid rc merge g g' blocks h
  obtain ⟨g1, a1, a2, a3, a4, a5⟩ := addBlocks_ok (pre_clear rc merge g) rfl blocks hv
  unfold loadBlocks at h
  simp only [res_bind_eq_ok] at h
  obtain ⟨g1', h1, g2, h2, h3⟩ := h
  rw [a1] at h1
  cases h1
  have fr : LinkFrame g1 g' :=
    (foldlM_frame _ _ _ _ h2 (fun s a s' => linkFace_frame)).trans (linkZones_frame h3)
  constructor
  · rw [fr.nodes]; exact a2.nodes_nodup
  · rw [fr.zones]
    refine a4.imp ?_
    intro b z hbz
    have := hbz.represents
    refine ⟨by rw [fr.zName]; exact this.name, ?_⟩
    rw [fr.fData, fr.nodes, fr.nKey, fr.nP, fr.fNodes, fr.zFaces]
    exact this.faces
  · refine ⟨by rw [fr.zones]; exact a2.zones_nodup, by rw [fr.zones, fr.zFaces, fr.faces, ← a2.part], ?_⟩
    rw [fr.zones, fr.zFaces, fr.fZone]; exact a2.points
  · rw [fr.nodes, fr.nKey, fr.nP]; exact a2.keys
  · rw [fr.nodes, fr.nKey, fr.nP]
    intro b hb p hpb
    obtain ⟨i, hi⟩ := List.getElem?_of_mem hb
    obtain ⟨i1, i2⟩ := List.getElem?_eq_some_iff.1 hi
    have hbo := (List.forall₂_iff_get.1 a4).2 i i1 (by rw [← a4.length_eq]; exact i1)
    simp only [List.get_eq_getElem, i2] at hbo
    obtain ⟨j, hj⟩ := List.getElem?_of_mem hpb
    obtain ⟨j1, j2⟩ := List.getElem?_eq_some_iff.1 hj
    have hpo := (List.forall₂_iff_get.1 hbo.nodes).2 j j1 (by rw [← hbo.nodes.length_eq]; exact j1)
    simp only [List.get_eq_getElem, j2] at hpo
    exact ⟨_, hpo.1, hpo.2⟩
  · rw [fr.nodes, fr.nKey]
    intro n hn
    obtain ⟨z, hz, hnz⟩ := a2.used n hn
    obtain ⟨i, hi⟩ := List.getElem?_of_mem hz
    obtain ⟨i1, i2⟩ := List.getElem?_eq_some_iff.1 hi
    have il : i < blocks.length := by rw [a4.length_eq]; exact i1
    have hbo := (List.forall₂_iff_get.1 a4).2 i il i1
    simp only [List.get_eq_getElem, i2] at hbo
    obtain ⟨j, hj⟩ := List.getElem?_of_mem hnz
    obtain ⟨j1, j2⟩ := List.getElem?_eq_some_iff.1 hj
    have jl : j < blocks[i].pts.length := by rw [hbo.nodes.length_eq]; exact j1
    have hpo := (List.forall₂_iff_get.1 hbo.nodes).2 j jl j1
    simp only [List.get_eq_getElem, j2] at hpo
    exact ⟨blocks[i], List.getElem_mem il, _, List.getElem_mem jl, hpo.2.1⟩
  · rw [fr.nodes, fr.nKey]; exact a2.merged
  · rw [fr.nodes, fr.nP]
    intro hm
    rw [a2.unmerged hm, List.map_flatMap]
    have : ∀ (bs : List (ZoneBlock F)) (zs : List Nat), List.Forall₂ (BlockOk rc merge g1) bs zs →
        zs.flatMap (fun z => (g1.zNodes z).map g1.nP) = bs.flatMap (·.pts) := by
      intro bs zs h
      induction h with
      | nil => rfl
      | cons q1 q2 ih =>
        rw [List.flatMap_cons, List.flatMap_cons, ih]
        congr 1
        have := forall₂_map_eq (f := id) (k := g1.nP) q1.nodes (fun p _ n _ hpn => (hpn.2.2 hm).symm)
        rw [← this, List.map_id]
    exact this _ _ a4
  · rw [fr.nodes, fr.nP]; exact a5

end Verif
