import Verif.Proofs.Edges
import Verif.Proofs.Decomp
import Verif.Spec.Load

/-! Building the grid from zone blocks. -/

namespace Verif
variable {F R : Type} [DecidableEq R]
open Grid

/-- Invariant while nodes and faces of the file are added. -/
structure Pre (rc : Vec F → R) (merge : Bool) (g : Grid F R) : Prop where
  nodes_nodup : g.nodes.Nodup
  nodes_lt : ∀ n ∈ g.nodes, n < g.nNext
  keys : ∀ n ∈ g.nodes, g.nKey n = rc (g.nP n)
  bag : ∀ k, k ∈ g.bag ↔ ∃ n ∈ g.nodes, g.nKey n = k
  nglo : ∀ i n, g.nodes[i]? = some n → g.nGlo n = i
  faces_nodup : g.faces.Nodup
  faces_lt : ∀ f ∈ g.faces, f < g.fNext
  fglo : ∀ i f, g.faces[i]? = some f → g.fGlo f = i
  fnodes : ∀ f ∈ g.faces, ∀ n ∈ g.fNodes f, n ∈ g.nodes
  nfaces : ∀ n ∈ g.nodes, ∀ f ∈ g.nFaces n, f ∈ g.faces
  inc : ∀ n ∈ g.nodes, ∀ f ∈ g.faces, (g.nFaces n).count f = (g.fNodes f).count n
  nedges : ∀ n ∈ g.nodes, g.nEdges n = []
  fedges : ∀ f ∈ g.faces, g.fEdges f = []
  no_edges : g.edges = []
  zones_nodup : g.zones.Nodup
  zones_lt : ∀ z ∈ g.zones, z < g.zNext
  part : g.faces = g.zones.flatMap g.zFaces
  points : ∀ z ∈ g.zones, ∀ f ∈ g.zFaces z, g.fZone f = some z
  znodes : ∀ z ∈ g.zones, ∀ n ∈ g.zNodes z, n ∈ g.nodes
  corners : ∀ z ∈ g.zones, ∀ f ∈ g.zFaces z, ∀ n ∈ g.fNodes f, n ∈ g.zNodes z
  merged : merge = true → ∀ n ∈ g.nodes, ∀ m ∈ g.nodes, g.nKey n = g.nKey m → n = m
  unmerged : merge = false → g.nodes = g.zones.flatMap g.zNodes
  /-- every node comes from a point of a zone -/
  used : ∀ n ∈ g.nodes, ∃ z ∈ g.zones, n ∈ g.zNodes z

omit [DecidableEq R] in
theorem pre_clear (rc : Vec F → R) (merge : Bool) (g : Grid F R) : Pre rc merge g.clear := by
  constructor <;> simp [Grid.clear]

/-- What adding to the grid keeps. -/
structure Ext (g g' : Grid F R) : Prop where
  name : g'.name = g.name
  nodes : g.nodes <+: g'.nodes
  nP : ∀ n ∈ g.nodes, g'.nP n = g.nP n
  nKey : ∀ n ∈ g.nodes, g'.nKey n = g.nKey n
  faces : g.faces <+: g'.faces
  fData : ∀ f ∈ g.faces, g'.fData f = g.fData f
  fNodes : ∀ f ∈ g.faces, g'.fNodes f = g.fNodes f
  zones : g.zones <+: g'.zones
  zName : ∀ z ∈ g.zones, g'.zName z = g.zName z
  zFaces : ∀ z ∈ g.zones, g'.zFaces z = g.zFaces z
  zNodes : ∀ z ∈ g.zones, g'.zNodes z = g.zNodes z

omit [DecidableEq R] in
theorem Ext.refl (g : Grid F R) : Ext g g := by
  constructor <;> first | rfl | (intros; rfl) | exact List.prefix_refl _

omit [DecidableEq R] in
theorem Ext.trans {g g' g'' : Grid F R} (h : Ext g g') (k : Ext g' g'') : Ext g g'' where
  name := k.name.trans h.name
  nodes := h.nodes.trans k.nodes
  nP := fun n hn => (k.nP n (h.nodes.subset hn)).trans (h.nP n hn)
  nKey := fun n hn => (k.nKey n (h.nodes.subset hn)).trans (h.nKey n hn)
  faces := h.faces.trans k.faces
  fData := fun f hf => (k.fData f (h.faces.subset hf)).trans (h.fData f hf)
  fNodes := fun f hf => (k.fNodes f (h.faces.subset hf)).trans (h.fNodes f hf)
  zones := h.zones.trans k.zones
  zName := fun z hz => (k.zName z (h.zones.subset hz)).trans (h.zName z hz)
  zFaces := fun z hz => (k.zFaces z (h.zones.subset hz)).trans (h.zFaces z hz)
  zNodes := fun z hz => (k.zNodes z (h.zones.subset hz)).trans (h.zNodes z hz)

omit [DecidableEq R] in
theorem flatMap_upd_fresh {α : Type _} (zs : List Nat) (m : Nat → List α) (z : Nat) (v : List α) (h : z ∉ zs) :
    zs.flatMap (upd m z v) = zs.flatMap m := by
  apply List.flatMap_congr
  intro x hx
  exact upd_ne _ _ (by rintro rfl; exact h hx)

theorem pre_pushZone {rc : Vec F → R} {merge : Bool} {g : Grid F R} (h : Pre rc merge g) (name : Str) :
    Pre rc merge (g.pushZone name) ∧ Ext g (g.pushZone name) := by
  have hz : g.zNext ∉ g.zones := fun hc => by have := h.zones_lt _ hc; omega
  have hne : ∀ z ∈ g.zones, z ≠ g.zNext := by rintro z hz' rfl; exact hz hz'
  constructor
  · unfold Grid.pushZone Grid.newZone
    have := h
    constructor <;> simp only
    · exact h.nodes_nodup
    · exact h.nodes_lt
    · exact h.keys
    · exact h.bag
    · exact h.nglo
    · exact h.faces_nodup
    · exact h.faces_lt
    · exact h.fglo
    · exact h.fnodes
    · exact h.nfaces
    · exact h.inc
    · exact h.nedges
    · exact h.fedges
    · exact h.no_edges
    · rw [List.nodup_append]
      exact ⟨h.zones_nodup, by simp, by rintro a ha b hb rfl; simp at hb; exact hne a ha hb⟩
    · intro z hz'
      rcases List.mem_append.1 hz' with h1 | h1
      · have := h.zones_lt z h1; omega
      · simp at h1; omega
    · rw [List.flatMap_append, flatMap_upd_fresh _ _ _ _ hz]
      simpa using h.part
    · intro z hz' f hf
      rcases List.mem_append.1 hz' with h1 | h1
      · rw [upd_ne _ _ (hne z h1)] at hf; exact h.points z h1 f hf
      · simp at h1; subst h1; simp at hf
    · intro z hz' n hn
      rcases List.mem_append.1 hz' with h1 | h1
      · rw [upd_ne _ _ (hne z h1)] at hn; exact h.znodes z h1 n hn
      · simp at h1; subst h1; simp at hn
    · intro z hz' f hf n hn
      rcases List.mem_append.1 hz' with h1 | h1
      · rw [upd_ne _ _ (hne z h1)] at hf ⊢; exact h.corners z h1 f hf n hn
      · simp at h1; subst h1; simp at hf
    · exact h.merged
    · intro hm
      rw [List.flatMap_append, flatMap_upd_fresh _ _ _ _ hz]
      simpa using h.unmerged hm
    · intro n hn
      obtain ⟨z, hz', hnz⟩ := h.used n hn
      exact ⟨z, by simp [hz'], by rw [upd_ne _ _ (hne z hz')]; exact hnz⟩
  · unfold Grid.pushZone Grid.newZone
    constructor <;> simp only <;> first
      | rfl
      | (intros; trivial)
      | exact List.prefix_refl _
      | exact List.prefix_append _ _
      | exact fun z hz => upd_ne _ _ (hne z hz)

theorem flatMap_upd_last {α : Type _} (zs : List Nat) (m : Nat → List α) (z : Nat) (x : List α) (h : (zs ++ [z]).Nodup) :
    (zs ++ [z]).flatMap (upd m z (m z ++ x)) = (zs ++ [z]).flatMap m ++ x := by
  have hz : z ∉ zs := by
    rw [List.nodup_append] at h
    intro hc; exact h.2.2 z hc z (by simp) rfl
  rw [List.flatMap_append, List.flatMap_append, flatMap_upd_fresh _ _ _ _ hz]
  simp

/-- Frame of the loop over points. -/
structure NodeExt (z : Nat) (g g' : Grid F R) : Prop where
  name : g'.name = g.name
  nodes : g.nodes <+: g'.nodes
  nP : ∀ n ∈ g.nodes, g'.nP n = g.nP n
  nKey : ∀ n ∈ g.nodes, g'.nKey n = g.nKey n
  faces : g'.faces = g.faces
  fData : g'.fData = g.fData
  fNodes : g'.fNodes = g.fNodes
  zones : g'.zones = g.zones
  zName : g'.zName = g.zName
  zFaces : g'.zFaces = g.zFaces
  zNodes : ∀ x, x ≠ z → g'.zNodes x = g.zNodes x

omit [DecidableEq R] in
theorem NodeExt.refl (z : Nat) (g : Grid F R) : NodeExt z g g := by
  constructor <;> first | rfl | (intros; rfl) | exact List.prefix_refl _

omit [DecidableEq R] in
theorem NodeExt.trans {z : Nat} {g g' g'' : Grid F R} (h : NodeExt z g g') (k : NodeExt z g' g'') : NodeExt z g g'' where
  name := k.name.trans h.name
  nodes := h.nodes.trans k.nodes
  nP := fun n hn => (k.nP n (h.nodes.subset hn)).trans (h.nP n hn)
  nKey := fun n hn => (k.nKey n (h.nodes.subset hn)).trans (h.nKey n hn)
  faces := k.faces.trans h.faces
  fData := k.fData.trans h.fData
  fNodes := k.fNodes.trans h.fNodes
  zones := k.zones.trans h.zones
  zName := k.zName.trans h.zName
  zFaces := k.zFaces.trans h.zFaces
  zNodes := fun x hx => (k.zNodes x hx).trans (h.zNodes x hx)

theorem getElem?_snoc {α : Type _} {l : List α} {x y : α} {i : Nat} (h : (l ++ [x])[i]? = some y) :
    l[i]? = some y ∨ (i = l.length ∧ y = x) := by
  rcases Nat.lt_trichotomy i l.length with h1 | h1 | h1
  · rw [List.getElem?_append_left h1] at h; exact Or.inl h
  · subst h1; rw [List.getElem?_append_right (Nat.le_refl _)] at h; simp at h; exact Or.inr ⟨rfl, h.symm⟩
  · rw [List.getElem?_append_right (by omega)] at h
    have : 1 ≤ i - l.length := by omega
    rw [List.getElem?_eq_none (by simpa using this)] at h
    cases h

theorem pre_node {rc : Vec F → R} {merge : Bool} {g : Grid F R} (h : Pre rc merge g) {zs : List Nat} {z : Nat}
    (hz : g.zones = zs ++ [z]) (p : Vec F) :
    ∃ g' n, blockNode rc merge z g p = .ok g' ∧ Pre rc merge g' ∧ NodeExt z g g' ∧ g'.zNodes z = g.zNodes z ++ [n] ∧
      n ∈ g'.nodes ∧ g'.nKey n = rc p ∧ (merge = false → g'.nP n = p) ∧
      g'.nodes.map g'.nP = register rc merge (g.nodes.map g.nP) p := by
  have hN : g.nNext ∉ g.nodes := fun hc => by have := h.nodes_lt _ hc; omega
  have hNe : ∀ n ∈ g.nodes, n ≠ g.nNext := by rintro n hn rfl; exact hN hn
  have hzz : z ∈ g.zones := by rw [hz]; simp
  have hnd : (zs ++ [z]).Nodup := by rw [← hz]; exact h.zones_nodup
  have hfind : (g.newNode rc p).findNearNode g.nNext =
      .ok (g.nodes.find? (fun m => decide (g.nKey m = rc p))) := by
    unfold Grid.findNearNode Grid.newNode
    simp only [upd_self]
    have hcongr : g.nodes.find? (fun m => decide (upd g.nKey g.nNext (rc p) m = rc p)) =
        g.nodes.find? (fun m => decide (g.nKey m = rc p)) := by
      have : ∀ l : List Nat, (∀ x ∈ l, x ∈ g.nodes) → l.find? (fun m => decide (upd g.nKey g.nNext (rc p) m = rc p)) =
          l.find? (fun m => decide (g.nKey m = rc p)) := by
        intro l
        induction l with
        | nil => intro _; rfl
        | cons a l ih =>
          intro hl
          rw [List.find?_cons, List.find?_cons, ih (fun x hx => hl x (by simp [hx])), upd_ne _ _ (hNe a (hl a (by simp)))]
      exact this g.nodes (fun _ hx => hx)
    rw [hcongr]
    cases hf : g.nodes.find? (fun m => decide (g.nKey m = rc p)) with
    | some m =>
      have h1 := List.mem_of_find?_eq_some hf
      have h2 := List.find?_some hf
      rw [if_pos ((h.bag _).2 ⟨m, h1, by simpa using h2⟩)]
    | none =>
      rw [List.find?_eq_none] at hf
      rw [if_neg]
      intro hc
      obtain ⟨n, hn, hk⟩ := (h.bag _).1 hc
      exact hf n hn (by simpa using hk)
  -- the node registered
  by_cases hm : merge = true ∧ ∃ m, g.nodes.find? (fun m => decide (g.nKey m = rc p)) = some m
  · -- an old node is used
    obtain ⟨hm, m, hfm⟩ := hm
    have h1 := List.mem_of_find?_eq_some hfm
    have h2 : g.nKey m = rc p := by simpa using List.find?_some hfm
    refine ⟨(g.newNode rc p).zoneAddNode z m, m, ?_, ?_, ?_, ?_, ?_, ?_, ?_, ?_⟩
    · unfold blockNode Grid.addNode
      show (((g.newNode rc p).findNearNode g.nNext >>= _) >>= _) = _
      rw [hfind, hfm, res_bind_ok]
      show ((if merge = false then _ else _) >>= _) = _
      rw [if_neg (by rw [hm]; simp)]
      rfl
    · unfold Grid.zoneAddNode Grid.newNode
      constructor <;> simp only
      · exact h.nodes_nodup
      · intro n hn; have := h.nodes_lt n hn; omega
      · intro n hn; rw [upd_ne _ _ (hNe n hn), upd_ne _ _ (hNe n hn)]; exact h.keys n hn
      · intro k
        rw [h.bag k]
        constructor
        · rintro ⟨n, hn, hk⟩; exact ⟨n, hn, by rw [upd_ne _ _ (hNe n hn)]; exact hk⟩
        · rintro ⟨n, hn, hk⟩; rw [upd_ne _ _ (hNe n hn)] at hk; exact ⟨n, hn, hk⟩
      · intro i n hi; rw [upd_ne _ _ (hNe n (List.mem_of_getElem? hi))]; exact h.nglo i n hi
      · exact h.faces_nodup
      · exact h.faces_lt
      · exact h.fglo
      · exact h.fnodes
      · intro n hn; rw [upd_ne _ _ (hNe n hn)]; exact h.nfaces n hn
      · intro n hn; rw [upd_ne _ _ (hNe n hn)]; exact h.inc n hn
      · intro n hn; rw [upd_ne _ _ (hNe n hn)]; exact h.nedges n hn
      · exact h.fedges
      · exact h.no_edges
      · exact h.zones_nodup
      · exact h.zones_lt
      · exact h.part
      · exact h.points
      · intro z' hz' n hn
        rw [upd_apply] at hn
        split at hn
        · rename_i e; subst e
          rcases List.mem_append.1 hn with h3 | h3
          · exact h.znodes _ hz' n h3
          · simp at h3; subst h3; exact h1
        · exact h.znodes z' hz' n hn
      · intro z' hz' f hf n hn
        have := h.corners z' hz' f hf n hn
        rw [upd_apply]
        split
        · rename_i e; subst e; simp [this]
        · exact this
      · intro _ n hn m' hm' hk
        rw [upd_ne _ _ (hNe n hn), upd_ne _ _ (hNe m' hm')] at hk
        exact h.merged hm n hn m' hm' hk
      · intro hc; rw [hm] at hc; cases hc
      · intro n hn
        obtain ⟨z', hz', hnz⟩ := h.used n hn
        refine ⟨z', hz', ?_⟩
        rw [upd_apply]
        split
        · rename_i e; subst e; simp [hnz]
        · exact hnz
    · unfold Grid.zoneAddNode Grid.newNode
      constructor <;> simp only
      · exact List.prefix_refl _
      · intro n hn; rw [upd_ne _ _ (hNe n hn)]
      · intro n hn; rw [upd_ne _ _ (hNe n hn)]
      · intro x hx; rw [upd_ne _ _ hx]
    · simp [Grid.zoneAddNode, Grid.newNode]
    · exact h1
    · simp only [Grid.zoneAddNode, Grid.newNode]; rw [upd_ne _ _ (hNe m h1)]; exact h2
    · intro hc; rw [hm] at hc; cases hc
    · have hc : rc p ∈ (g.nodes.map g.nP).map rc := by
        rw [List.map_map]
        exact List.mem_map.2 ⟨m, h1, by simp only [Function.comp]; rw [← h.keys m h1, h2]⟩
      unfold register
      rw [if_pos ⟨hm, hc⟩]
      simp only [Grid.zoneAddNode, Grid.newNode]
      apply List.map_congr_left
      intro n hn; rw [upd_ne _ _ (hNe n hn)]
  · -- the new node is used
    have hnew : merge = true → ∀ n ∈ g.nodes, g.nKey n ≠ rc p := by
      intro hmt n hn hk
      apply hm
      refine ⟨hmt, ?_⟩
      cases hf : g.nodes.find? (fun m => decide (g.nKey m = rc p)) with
      | some m => exact ⟨m, rfl⟩
      | none =>
        rw [List.find?_eq_none] at hf
        exact absurd (by simpa using hk) (hf n hn)
    refine ⟨((g.newNode rc p).pushNode g.nNext).zoneAddNode z g.nNext, g.nNext, ?_, ?_, ?_, ?_, ?_, ?_, ?_, ?_⟩
    · unfold blockNode Grid.addNode
      show (((g.newNode rc p).findNearNode g.nNext >>= _) >>= _) = _
      rw [hfind, res_bind_ok]
      cases hf : g.nodes.find? (fun m => decide (g.nKey m = rc p)) with
      | none => rfl
      | some m =>
        have : merge = false := by
          cases hmm : merge with
          | false => rfl
          | true => exact absurd ⟨hmm, m, hf⟩ hm
        subst this
        rfl
    · unfold Grid.zoneAddNode Grid.pushNode Grid.newNode
      have hmem : ∀ n, n ∈ g.nodes ++ [g.nNext] ↔ n ∈ g.nodes ∨ n = g.nNext := by intro n; simp
      constructor <;> simp only [upd_self]
      · rw [List.nodup_append]
        exact ⟨h.nodes_nodup, by simp, by rintro a ha b hb rfl; simp at hb; exact hNe a ha hb⟩
      · intro n hn
        rcases (hmem n).1 hn with h1 | h1
        · have := h.nodes_lt n h1; omega
        · omega
      · intro n hn
        rcases (hmem n).1 hn with h1 | h1
        · rw [upd_ne _ _ (hNe n h1), upd_ne _ _ (hNe n h1)]; exact h.keys n h1
        · subst h1; simp
      · intro k
        have hb : k ∈ (if rc p ∈ g.bag then g.bag else g.bag ++ [rc p]) ↔ k ∈ g.bag ∨ k = rc p := by
          split
          · rename_i e
            constructor
            · exact Or.inl
            · rintro (h1 | rfl)
              · exact h1
              · exact e
          · simp
        rw [hb, h.bag k]
        constructor
        · rintro (⟨n, hn, hk⟩ | rfl)
          · exact ⟨n, (hmem n).2 (Or.inl hn), by rw [upd_ne _ _ (hNe n hn)]; exact hk⟩
          · exact ⟨g.nNext, by simp, by simp⟩
        · rintro ⟨n, hn, hk⟩
          rcases (hmem n).1 hn with h1 | h1
          · rw [upd_ne _ _ (hNe n h1)] at hk; exact Or.inl ⟨n, h1, hk⟩
          · subst h1; simp at hk; exact Or.inr hk.symm
      · intro i n hi
        rcases getElem?_snoc hi with h1 | ⟨h1, h2⟩
        · have := hNe n (List.mem_of_getElem? h1)
          rw [upd_ne _ _ this, upd_ne _ _ this]; exact h.nglo i n h1
        · subst h2; simp [h1]
      · exact h.faces_nodup
      · exact h.faces_lt
      · exact h.fglo
      · intro f hf n hn; exact (hmem n).2 (Or.inl (h.fnodes f hf n hn))
      · intro n hn f hf
        rcases (hmem n).1 hn with h1 | h1
        · rw [upd_ne _ _ (hNe n h1)] at hf; exact h.nfaces n h1 f hf
        · subst h1; simp at hf
      · intro n hn f hf
        rcases (hmem n).1 hn with h1 | h1
        · rw [upd_ne _ _ (hNe n h1)]; exact h.inc n h1 f hf
        · subst h1
          rw [upd_self, List.count_nil, eq_comm, List.count_eq_zero]
          intro hc; exact hN (h.fnodes f hf _ hc)
      · intro n hn
        rcases (hmem n).1 hn with h1 | h1
        · rw [upd_ne _ _ (hNe n h1)]; exact h.nedges n h1
        · subst h1; simp
      · exact h.fedges
      · exact h.no_edges
      · exact h.zones_nodup
      · exact h.zones_lt
      · exact h.part
      · exact h.points
      · intro z' hz' n hn
        rw [hmem]
        rw [upd_apply] at hn
        split at hn
        · rename_i e; subst e
          rcases List.mem_append.1 hn with h3 | h3
          · exact Or.inl (h.znodes _ hz' n h3)
          · simp at h3; exact Or.inr h3
        · exact Or.inl (h.znodes z' hz' n hn)
      · intro z' hz' f hf n hn
        have := h.corners z' hz' f hf n hn
        rw [upd_apply]
        split
        · rename_i e; subst e; simp [this]
        · exact this
      · intro hmt n hn m hm' hk
        rcases (hmem n).1 hn with h1 | h1 <;> rcases (hmem m).1 hm' with h2 | h2
        · rw [upd_ne _ _ (hNe n h1), upd_ne _ _ (hNe m h2)] at hk
          exact h.merged hmt n h1 m h2 hk
        · subst h2; rw [upd_ne _ _ (hNe n h1), upd_self] at hk
          exact absurd hk (hnew hmt n h1)
        · subst h1; rw [upd_ne _ _ (hNe m h2), upd_self] at hk
          exact absurd hk.symm (hnew hmt m h2)
        · rw [h1, h2]
      · intro hmf
        rw [hz, flatMap_upd_last _ _ _ _ hnd, ← hz, ← h.unmerged hmf]
      · intro n hn
        rcases (hmem n).1 hn with h1 | h1
        · obtain ⟨z', hz', hnz⟩ := h.used n h1
          refine ⟨z', hz', ?_⟩
          rw [upd_apply]
          split
          · rename_i e; subst e; simp [hnz]
          · exact hnz
        · exact ⟨z, hzz, by rw [upd_self]; simp [h1]⟩
    · unfold Grid.zoneAddNode Grid.pushNode Grid.newNode
      constructor <;> simp only
      · exact List.prefix_append _ _
      · intro n hn; rw [upd_ne _ _ (hNe n hn)]
      · intro n hn; rw [upd_ne _ _ (hNe n hn)]
      · intro x hx; rw [upd_ne _ _ hx]
    · simp [Grid.zoneAddNode, Grid.pushNode, Grid.newNode]
    · simp [Grid.zoneAddNode, Grid.pushNode, Grid.newNode]
    · simp [Grid.zoneAddNode, Grid.pushNode, Grid.newNode]
    · intro _; simp [Grid.zoneAddNode, Grid.pushNode, Grid.newNode]
    · have hc : ¬ (merge = true ∧ rc p ∈ (g.nodes.map g.nP).map rc) := by
        rintro ⟨hmt, hc⟩
        rw [List.map_map] at hc
        obtain ⟨n, hn, hk⟩ := List.mem_map.1 hc
        exact hnew hmt n hn (by rw [h.keys n hn]; exact hk)
      unfold register
      rw [if_neg hc]
      simp only [Grid.zoneAddNode, Grid.pushNode, Grid.newNode, List.map_append, List.map_cons, List.map_nil, upd_self]
      congr 1
      apply List.map_congr_left
      intro n hn; rw [upd_ne _ _ (hNe n hn)]

theorem forall₂_snoc {α β : Type _} {r : α → β → Prop} {l : List α} {m : List β} {a : α} {b : β}
    (h : List.Forall₂ r l m) (hab : r a b) : List.Forall₂ r (l ++ [a]) (m ++ [b]) :=
  List.rel_append h (List.Forall₂.cons hab List.Forall₂.nil)

/-- A point and the node made of it. -/
def IsNodeOf (rc : Vec F → R) (merge : Bool) (g : Grid F R) (p : Vec F) (n : Nat) : Prop :=
  n ∈ g.nodes ∧ g.nKey n = rc p ∧ (merge = false → g.nP n = p)

omit [DecidableEq R] in
theorem IsNodeOf.ext {rc : Vec F → R} {merge : Bool} {g g' : Grid F R} {p : Vec F} {n : Nat} (h : IsNodeOf rc merge g p n)
    (hn : g.nodes <+: g'.nodes) (hP : ∀ n ∈ g.nodes, g'.nP n = g.nP n) (hK : ∀ n ∈ g.nodes, g'.nKey n = g.nKey n) :
    IsNodeOf rc merge g' p n :=
  ⟨hn.subset h.1, by rw [hK n h.1]; exact h.2.1, fun hm => by rw [hP n h.1]; exact h.2.2 hm⟩

theorem pre_nodes {rc : Vec F → R} {merge : Bool} {g : Grid F R} (h : Pre rc merge g) {zs : List Nat} {z : Nat}
    (hz : g.zones = zs ++ [z]) (h0 : g.zNodes z = []) (ps : List (Vec F)) :
    ∃ g', ps.foldlM (blockNode rc merge z) g = .ok g' ∧ Pre rc merge g' ∧ NodeExt z g g' ∧
      List.Forall₂ (IsNodeOf rc merge g') ps (g'.zNodes z) ∧
      g'.nodes.map g'.nP = ps.foldl (register rc merge) (g.nodes.map g.nP) := by
  refine foldlM_total (blockNode rc merge z) ps (fun pre g' => Pre rc merge g' ∧ NodeExt z g g' ∧
      List.Forall₂ (IsNodeOf rc merge g') pre (g'.zNodes z) ∧
      g'.nodes.map g'.nP = pre.foldl (register rc merge) (g.nodes.map g.nP)) g
      ⟨h, NodeExt.refl z g, by rw [h0]; exact List.Forall₂.nil, rfl⟩ ?_
  rintro pre p post s _ ⟨hp, he, hf, hr⟩
  obtain ⟨g', n, h1, h2, h3, h4, h5, h6, h7, h8⟩ := pre_node hp (by rw [he.zones]; exact hz) p
  refine ⟨g', h1, h2, he.trans h3, ?_, by rw [h8, hr, List.foldl_append]; rfl⟩
  rw [h4]
  refine forall₂_snoc ?_ ⟨h5, h6, h7⟩
  exact hf.imp fun p n hn => hn.ext h3.nodes h3.nP h3.nKey

/-- Frame of the loop creating faces. -/
structure FaceExt (z : Nat) (g g' : Grid F R) : Prop where
  name : g'.name = g.name
  nodes : g'.nodes = g.nodes
  nP : g'.nP = g.nP
  nKey : g'.nKey = g.nKey
  faces : g.faces <+: g'.faces
  fData : ∀ f ∈ g.faces, g'.fData f = g.fData f
  fNodes : ∀ f ∈ g.faces, g'.fNodes f = g.fNodes f
  zones : g'.zones = g.zones
  zName : g'.zName = g.zName
  zFaces : ∀ x, x ≠ z → g'.zFaces x = g.zFaces x
  zNodes : g'.zNodes = g.zNodes

omit [DecidableEq R] in
theorem FaceExt.refl (z : Nat) (g : Grid F R) : FaceExt z g g := by
  constructor <;> first | rfl | (intros; rfl) | exact List.prefix_refl _

omit [DecidableEq R] in
theorem FaceExt.trans {z : Nat} {g g' g'' : Grid F R} (h : FaceExt z g g') (k : FaceExt z g' g'') : FaceExt z g g'' where
  name := k.name.trans h.name
  nodes := k.nodes.trans h.nodes
  nP := k.nP.trans h.nP
  nKey := k.nKey.trans h.nKey
  faces := h.faces.trans k.faces
  fData := fun f hf => (k.fData f (h.faces.subset hf)).trans (h.fData f hf)
  fNodes := fun f hf => (k.fNodes f (h.faces.subset hf)).trans (h.fNodes f hf)
  zones := k.zones.trans h.zones
  zName := k.zName.trans h.zName
  zFaces := fun x hx => (k.zFaces x hx).trans (h.zFaces x hx)
  zNodes := k.zNodes.trans h.zNodes

theorem pre_face {rc : Vec F → R} {merge : Bool} {g : Grid F R} (h : Pre rc merge g) {zs : List Nat} {z : Nat}
    (hz : g.zones = zs ++ [z]) (d : List (Str × F)) :
    ∃ g' f, blockFace z g d = .ok g' ∧ Pre rc merge g' ∧ FaceExt z g g' ∧ g'.zFaces z = g.zFaces z ++ [f] ∧
      f ∈ g'.faces ∧ f ∉ g.faces ∧ g'.fData f = d ∧ g'.fNodes f = [] := by
  have hF : g.fNext ∉ g.faces := fun hc => by have := h.faces_lt _ hc; omega
  have hFe : ∀ f ∈ g.faces, f ≠ g.fNext := by rintro n hn rfl; exact hF hn
  have hzz : z ∈ g.zones := by rw [hz]; simp
  have hnd : (zs ++ [z]).Nodup := by rw [← hz]; exact h.zones_nodup
  have hzf : ∀ z' ∈ g.zones, ∀ f ∈ g.zFaces z', f ∈ g.faces := fun z' hz' f hf => by
    rw [h.part, List.mem_flatMap]; exact ⟨z', hz', hf⟩
  refine ⟨{ (g.newFace d).addFace g.fNext with
      fZone := upd (upd g.fZone g.fNext none) g.fNext (some z), zFaces := upd g.zFaces z (g.zFaces z ++ [g.fNext]) },
    g.fNext, ?_, ?_, ?_, ?_, ?_, ?_, ?_, ?_⟩
  · unfold blockFace Grid.zoneAddFace
    have : ((g.newFace d).addFace g.fNext).fZone g.fNext = none := by
      simp [Grid.addFace, Grid.newFace]
    rw [this]
    rfl
  · unfold Grid.addFace Grid.newFace
    have hmem : ∀ n, n ∈ g.faces ++ [g.fNext] ↔ n ∈ g.faces ∨ n = g.fNext := by intro n; simp
    constructor <;> simp only [Option.getD_none]
    · exact h.nodes_nodup
    · exact h.nodes_lt
    · exact h.keys
    · exact h.bag
    · exact h.nglo
    · rw [List.nodup_append]
      exact ⟨h.faces_nodup, by simp, by rintro a ha b hb rfl; simp at hb; exact hFe a ha hb⟩
    · intro f hf
      rcases (hmem f).1 hf with h1 | h1
      · have := h.faces_lt f h1; omega
      · omega
    · intro i f hi
      rcases getElem?_snoc hi with h1 | ⟨h1, h2⟩
      · have := hFe f (List.mem_of_getElem? h1)
        rw [upd_ne _ _ this, upd_ne _ _ this]; exact h.fglo i f h1
      · subst h2; simp [h1]
    · intro f hf n hn
      rcases (hmem f).1 hf with h1 | h1
      · rw [upd_ne _ _ (hFe f h1)] at hn; exact h.fnodes f h1 n hn
      · subst h1; simp at hn
    · intro n hn f hf; exact (hmem f).2 (Or.inl (h.nfaces n hn f hf))
    · intro n hn f hf
      rcases (hmem f).1 hf with h1 | h1
      · rw [upd_ne _ _ (hFe f h1)]; exact h.inc n hn f h1
      · subst h1
        rw [upd_self, List.count_nil, List.count_eq_zero]
        intro hc; exact hF (h.nfaces n hn _ hc)
    · exact h.nedges
    · intro f hf
      rcases (hmem f).1 hf with h1 | h1
      · rw [upd_ne _ _ (hFe f h1)]; exact h.fedges f h1
      · subst h1; simp
    · exact h.no_edges
    · exact h.zones_nodup
    · exact h.zones_lt
    · rw [hz, flatMap_upd_last _ _ _ _ hnd, ← hz, ← h.part]
    · intro z' hz' f hf
      rw [upd_apply] at hf
      split at hf
      · rename_i e; subst e
        rcases List.mem_append.1 hf with h3 | h3
        · have := hFe f (hzf _ hz' f h3)
          rw [upd_ne _ _ this, upd_ne _ _ this]; exact h.points _ hz' f h3
        · simp at h3; subst h3; simp
      · have := hFe f (hzf _ hz' f hf)
        rw [upd_ne _ _ this, upd_ne _ _ this]; exact h.points _ hz' f hf
    · exact h.znodes
    · intro z' hz' f hf n hn
      rw [upd_apply] at hf
      split at hf
      · rename_i e; subst e
        rcases List.mem_append.1 hf with h3 | h3
        · rw [upd_ne _ _ (hFe f (hzf _ hz' f h3))] at hn; exact h.corners _ hz' f h3 n hn
        · simp at h3; subst h3; simp at hn
      · rw [upd_ne _ _ (hFe f (hzf _ hz' f hf))] at hn; exact h.corners _ hz' f hf n hn
    · exact h.merged
    · exact h.unmerged
    · exact h.used
  · unfold Grid.addFace Grid.newFace
    constructor <;> simp only
    · exact List.prefix_append _ _
    · intro n hn; rw [upd_ne _ _ (hFe n hn)]
    · intro n hn; rw [upd_ne _ _ (hFe n hn)]
    · intro x hx; rw [upd_ne _ _ hx]
  · simp
  · simp [Grid.addFace, Grid.newFace]
  · exact hF
  · simp [Grid.addFace, Grid.newFace]
  · simp [Grid.addFace, Grid.newFace]

theorem pre_faces {rc : Vec F → R} {merge : Bool} {g : Grid F R} (h : Pre rc merge g) {zs : List Nat} {z : Nat}
    (hz : g.zones = zs ++ [z]) (h0 : g.zFaces z = []) (ds : List (List (Str × F))) :
    ∃ g', ds.foldlM (blockFace z) g = .ok g' ∧ Pre rc merge g' ∧ FaceExt z g g' ∧
      List.Forall₂ (fun d f => f ∈ g'.faces ∧ f ∉ g.faces ∧ g'.fData f = d ∧ g'.fNodes f = []) ds (g'.zFaces z) := by
  refine foldlM_total (blockFace z) ds (fun pre g' => Pre rc merge g' ∧ FaceExt z g g' ∧
      List.Forall₂ (fun d f => f ∈ g'.faces ∧ f ∉ g.faces ∧ g'.fData f = d ∧ g'.fNodes f = []) pre (g'.zFaces z)) g
      ⟨h, FaceExt.refl z g, by rw [h0]; exact List.Forall₂.nil⟩ ?_
  rintro pre d post s _ ⟨hp, he, hf⟩
  obtain ⟨g', f, h1, h2, h3, h4, h5, h6, h7, h8⟩ := pre_face hp (by rw [he.zones]; exact hz) d
  refine ⟨g', h1, h2, he.trans h3, ?_⟩
  rw [h4]
  refine forall₂_snoc ?_ ⟨h5, fun hc => h6 (he.faces.subset hc), h7, h8⟩
  exact hf.imp fun d f hn => ⟨h3.faces.subset hn.1, hn.2.1, by rw [h3.fData f hn.1]; exact hn.2.2.1,
    by rw [h3.fNodes f hn.1]; exact hn.2.2.2⟩

theorem pre_link {rc : Vec F → R} {merge : Bool} {g : Grid F R} (h : Pre rc merge g) {z f n : Nat} (hz : z ∈ g.zones)
    (hf : f ∈ g.zFaces z) (hn : n ∈ g.zNodes z) : Pre rc merge (g.linkNodeFace n f) := by
  have hnn := h.znodes z hz n hn
  have hff : f ∈ g.faces := by rw [h.part, List.mem_flatMap]; exact ⟨z, hz, hf⟩
  unfold Grid.linkNodeFace
  constructor <;> simp only
  · exact h.nodes_nodup
  · exact h.nodes_lt
  · exact h.keys
  · exact h.bag
  · exact h.nglo
  · exact h.faces_nodup
  · exact h.faces_lt
  · exact h.fglo
  · intro f' hf' n' hn'
    rw [upd_apply] at hn'
    split at hn'
    · rename_i e; subst e
      rcases List.mem_append.1 hn' with h1 | h1
      · exact h.fnodes _ hf' n' h1
      · simp at h1; subst h1; exact hnn
    · exact h.fnodes _ hf' n' hn'
  · intro n' hn' f' hf'
    rw [upd_apply] at hf'
    split at hf'
    · rename_i e; subst e
      rcases List.mem_append.1 hf' with h1 | h1
      · exact h.nfaces _ hn' f' h1
      · simp at h1; subst h1; exact hff
    · exact h.nfaces _ hn' f' hf'
  · intro n' hn' f' hf'
    have h0 := h.inc n' hn' f' hf'
    rw [upd_apply, upd_apply]
    by_cases e1 : n' = n <;> by_cases e2 : f' = f
    · subst e1; subst e2; simp [h0]
    · subst e1; simp only [if_true, if_neg e2, List.count_append]
      have : List.count f' [f] = 0 := List.count_eq_zero.2 (by simpa using e2)
      omega
    · subst e2; simp only [if_true, if_neg e1, List.count_append]
      have : List.count n' [n] = 0 := List.count_eq_zero.2 (by simpa using e1)
      omega
    · simp only [if_neg e1, if_neg e2]; exact h0
  · exact h.nedges
  · exact h.fedges
  · exact h.no_edges
  · exact h.zones_nodup
  · exact h.zones_lt
  · exact h.part
  · exact h.points
  · exact h.znodes
  · intro z' hz' f' hf' n' hn'
    rw [upd_apply] at hn'
    split at hn'
    · rename_i e; subst e
      rcases List.mem_append.1 hn' with h1 | h1
      · exact h.corners _ hz' _ hf' n' h1
      · simp at h1; subst h1
        have e1 := h.points _ hz' _ hf'
        have e2 := h.points _ hz _ hf
        rw [e1] at e2
        cases e2
        exact hn
    · exact h.corners _ hz' _ hf' n' hn'
  · exact h.merged
  · exact h.unmerged
  · exact h.used

theorem get_map {α β : Type _} (f : α → β) (l : List α) (i : Int) :
    Py.get (l.map f) i = (Py.get l i).map f := by
  unfold Py.get
  simp only [List.length_map, List.getElem?_map]
  generalize (if i < 0 then i + (l.length : Int) else i) = j
  split
  · rfl
  · cases l[j.toNat]? <;> rfl

theorem get_mem {α : Type _} {l : List α} {i : Int} {x : α} (h : Py.get l i = .ok x) : x ∈ l := by
  unfold Py.get at h
  generalize (if i < 0 then i + (l.length : Int) else i) = j at h
  simp only at h
  split at h
  · cases h
  · split at h
    · rename_i y hy
      cases h
      exact List.mem_of_getElem? hy
    · cases h

theorem get_forall₂ {α β : Type _} {r : α → β → Prop} {l : List α} {m : List β} (h : List.Forall₂ r l m) (i : Int) :
    (∃ x y, Py.get l i = .ok x ∧ Py.get m i = .ok y ∧ r x y) ∨ (Py.get l i = .error .index ∧ Py.get m i = .error .index) := by
  have hl := h.length_eq
  unfold Py.get
  simp only [hl]
  generalize (if i < 0 then i + (m.length : Int) else i) = j
  by_cases hj : j < 0
  · right; simp [hj]
  · simp only [hj, if_false]
    by_cases hk : j.toNat < m.length
    · left
      have hk' : j.toNat < l.length := by omega
      refine ⟨l[j.toNat], m[j.toNat], ?_, ?_, ?_⟩
      · rw [List.getElem?_eq_getElem hk']
      · rw [List.getElem?_eq_getElem hk]
      · exact (List.forall₂_iff_get.1 h).2 _ hk' hk
    · right
      rw [List.getElem?_eq_none (by omega), List.getElem?_eq_none (by omega)]
      exact ⟨rfl, rfl⟩

theorem mapM_forall₂ {α β : Type _} (f : α → Res β) : ∀ (l : List α) (m : List β),
    l.mapM f = .ok m ↔ List.Forall₂ (fun a b => f a = .ok b) l m := by
  intro l
  induction l with
  | nil =>
    intro m
    simp only [List.mapM_nil, res_pure, Except.ok.injEq]
    constructor
    · rintro rfl; exact .nil
    · intro h; cases h; rfl
  | cons a l ih =>
    intro m
    rw [List.mapM_cons, res_bind_eq_ok]
    constructor
    · rintro ⟨b, h1, h2⟩
      rw [res_bind_eq_ok] at h2
      obtain ⟨t, h2, h3⟩ := h2
      cases h3
      exact .cons h1 ((ih t).1 h2)
    · intro h
      cases h with
      | cons h1 h2 => exact ⟨_, h1, by rw [(ih _).2 h2]; rfl⟩

theorem mapM_exists {α β : Type _} (f : α → Res β) (l : List α) (h : ∀ a ∈ l, ∃ b, f a = .ok b) :
    ∃ m, l.mapM f = .ok m := by
  induction l with
  | nil => exact ⟨[], rfl⟩
  | cons a l ih =>
    obtain ⟨b, hb⟩ := h a (by simp)
    obtain ⟨m, hm⟩ := ih (fun x hx => h x (by simp [hx]))
    exact ⟨b :: m, by rw [List.mapM_cons, hb, res_bind_ok, hm]; rfl⟩

theorem zipIdx_split {α : Type _} {l : List α} {pre post : List (α × Nat)} {a : α × Nat} (h : l.zipIdx = pre ++ a :: post) :
    l[pre.length]? = some a.1 ∧ a.2 = pre.length := by
  have h1 : l.zipIdx[pre.length]? = some a := by
    rw [h, List.getElem?_append_right (Nat.le_refl _)]; simp
  rw [List.getElem?_zipIdx, Option.map_eq_some_iff] at h1
  obtain ⟨x, h2, h3⟩ := h1
  subst h3
  exact ⟨h2, by simp⟩

theorem pre_conns {rc : Vec F → R} {merge : Bool} {g : Grid F R} (h : Pre rc merge g) {z : Nat} (hz : z ∈ g.zones)
    (conns : List (List Int)) (hlen : conns.length = (g.zFaces z).length) (hfs : (g.zFaces z).Nodup)
    (hempty : ∀ f ∈ g.zFaces z, g.fNodes f = [])
    (hok : ∀ c ∈ conns, c.length = 3 ∧ ∀ s ∈ c, ∃ n, Py.get (g.zNodes z) (s - 1) = .ok n) :
    ∃ nf fn, conns.zipIdx.foldlM (blockConn z) g = .ok { g with nFaces := nf, fNodes := fn } ∧
      Pre rc merge { g with nFaces := nf, fNodes := fn } ∧ (∀ f, f ∉ g.zFaces z → fn f = g.fNodes f) ∧
      List.Forall₂ (fun c f => List.Forall₂ (fun s n => Py.get (g.zNodes z) (s - 1) = .ok n) c (fn f)) conns (g.zFaces z) := by
  have H := foldlM_total (blockConn z) conns.zipIdx (fun pre (s : Grid F R) => ∃ nf fn, s = { g with nFaces := nf, fNodes := fn } ∧
      Pre rc merge s ∧ (∀ f, f ∉ g.zFaces z → fn f = g.fNodes f) ∧
      (∀ (k f : Nat), (g.zFaces z)[k]? = some f → k < pre.length → ∃ c, conns[k]? = some c ∧
        List.Forall₂ (fun s n => Py.get (g.zNodes z) (s - 1) = .ok n) c (fn f)) ∧
      (∀ (k f : Nat), (g.zFaces z)[k]? = some f → pre.length ≤ k → fn f = [])) g
    ⟨g.nFaces, g.fNodes, rfl, h, fun _ _ => rfl, fun k f _ hk => by simp at hk, fun k f hf _ => hempty f (List.mem_of_getElem? hf)⟩ ?_
  · obtain ⟨g', h1, nf, fn, rfl, h3, h4, h5, _⟩ := H
    refine ⟨nf, fn, h1, h3, h4, ?_⟩
    rw [List.forall₂_iff_get]
    refine ⟨hlen, ?_⟩
    intro i hi hi'
    obtain ⟨c, hc, hf⟩ := h5 i _ (List.getElem?_eq_getElem hi') (by simpa using hi)
    rw [List.getElem?_eq_getElem hi] at hc
    cases hc
    exact hf
  · rintro pre a post s hsplit ⟨nf, fn, rfl, h2, h3, h4, h5⟩
    obtain ⟨hc, hi⟩ := zipIdx_split hsplit
    have hlt : pre.length < (g.zFaces z).length := by
      rw [← hlen]
      exact (List.getElem?_eq_some_iff.1 hc).1
    have hf : (g.zFaces z)[pre.length]? = some (g.zFaces z)[pre.length] := List.getElem?_eq_getElem hlt
    obtain ⟨f, hfd⟩ : ∃ f, f = (g.zFaces z)[pre.length] := ⟨_, rfl⟩
    rw [← hfd] at hf
    have hfm : f ∈ g.zFaces z := List.mem_of_getElem? hf
    obtain ⟨hl3, hgets⟩ := hok a.1 (List.mem_of_getElem? hc)
    obtain ⟨ns, hns⟩ := mapM_exists (fun s => Py.get (g.zNodes z) (s - 1)) a.1 hgets
    have hns2 := (mapM_forall₂ _ _ _).1 hns
    obtain ⟨x, y, w, rfl⟩ := List.length_eq_three.1 (hns2.length_eq.symm.trans hl3)
    have hmem : ∀ n ∈ [x, y, w], n ∈ g.zNodes z := by
      intro n hn
      obtain ⟨i, hi⟩ := List.getElem?_of_mem hn
      obtain ⟨hi1, hi2⟩ := List.getElem?_eq_some_iff.1 hi
      have := (List.forall₂_iff_get.1 hns2).2 i (by rw [hns2.length_eq]; exact hi1) hi1
      have h6 := get_mem this
      simp only [List.get_eq_getElem, hi2] at h6
      exact h6
    have hfn0 : fn f = [] := h5 pre.length f hf (Nat.le_refl _)
    let s : Grid F R := { g with nFaces := nf, fNodes := fn }
    have p1 : Pre rc merge (s.linkNodeFace x f) := pre_link (g := s) h2 hz hfm (hmem x (by simp))
    have p2 : Pre rc merge ((s.linkNodeFace x f).linkNodeFace y f) := pre_link p1 hz hfm (hmem y (by simp))
    have p3 : Pre rc merge (((s.linkNodeFace x f).linkNodeFace y f).linkNodeFace w f) := pre_link p2 hz hfm (hmem w (by simp))
    refine ⟨((s.linkNodeFace x f).linkNodeFace y f).linkNodeFace w f, ?_, ?_⟩
    · unfold blockConn
      rw [hi]
      show (Py.get (g.zFaces z) (pre.length : Int) >>= _) = _
      rw [get_ofNat, hf]
      show ((a.1.mapM fun s => Py.get (g.zNodes z) (s - 1)) >>= _) = _
      rw [hns]
      rfl
    · refine ⟨_, _, rfl, p3, ?_, ?_, ?_⟩
      · intro f' hf'
        have : f' ≠ f := by rintro rfl; exact hf' hfm
        simp only [s, Grid.linkNodeFace]
        rw [upd_ne _ _ this, upd_ne _ _ this, upd_ne _ _ this]
        exact h3 f' hf'
      · intro k f' hk hkl
        rw [List.length_append, List.length_singleton] at hkl
        by_cases e : k = pre.length
        · subst e
          rw [hf] at hk
          cases hk
          refine ⟨a.1, hc, ?_⟩
          simp only [s, Grid.linkNodeFace, upd_self, hfn0]
          exact hns2
        · obtain ⟨c, hc', hf'⟩ := h4 k f' hk (by omega)
          refine ⟨c, hc', ?_⟩
          have : f' ≠ f := by
            rintro rfl
            obtain ⟨q1, q2⟩ := List.getElem?_eq_some_iff.1 hk
            obtain ⟨q3, q4⟩ := List.getElem?_eq_some_iff.1 hf
            exact e ((List.Nodup.getElem_inj_iff hfs).1 (q2.trans q4.symm))
          simp only [s, Grid.linkNodeFace]
          rw [upd_ne _ _ this, upd_ne _ _ this, upd_ne _ _ this]
          exact hf'
      · intro k f' hk hkl
        rw [List.length_append, List.length_singleton] at hkl
        have : f' ≠ f := by
          rintro rfl
          obtain ⟨q1, q2⟩ := List.getElem?_eq_some_iff.1 hk
          obtain ⟨q3, q4⟩ := List.getElem?_eq_some_iff.1 hf
          have := (List.Nodup.getElem_inj_iff hfs).1 (q2.trans q4.symm)
          omega
        simp only [s, Grid.linkNodeFace]
        rw [upd_ne _ _ this, upd_ne _ _ this, upd_ne _ _ this]
        exact h5 k f' hk (by omega)

/-- Zone `z` represents block `b` before zone lists are rebuilt. -/
structure BlockOk (rc : Vec F → R) (merge : Bool) (g : Grid F R) (b : ZoneBlock F) (z : Nat) : Prop where
  name : g.zName z = b.name
  nodes : List.Forall₂ (IsNodeOf rc merge g) b.pts (g.zNodes z)
  faces : List.Forall₂ (fun fc f => f ∈ g.faces ∧ g.fData f = fc.1 ∧
    List.Forall₂ (fun s n => Py.get (g.zNodes z) (s - 1) = .ok n) fc.2 (g.fNodes f)) b.faces (g.zFaces z)

omit [DecidableEq R] in
theorem BlockOk.ext {rc : Vec F → R} {merge : Bool} {g g' : Grid F R} {b : ZoneBlock F} {z : Nat} (h : BlockOk rc merge g b z)
    (he : Ext g g') (hz : z ∈ g.zones) : BlockOk rc merge g' b z := by
  refine ⟨by rw [he.zName z hz]; exact h.name, ?_, ?_⟩
  · rw [he.zNodes z hz]; exact h.nodes.imp fun p n hn => hn.ext he.nodes he.nP he.nKey
  · rw [he.zFaces z hz, he.zNodes z hz]
    exact h.faces.imp fun fc f hf => ⟨he.faces.subset hf.1, by rw [he.fData f hf.1]; exact hf.2.1,
      by rw [he.fNodes f hf.1]; exact hf.2.2⟩

theorem point?_isSome {b : ZoneBlock F} {s : Int} {zn : List Nat} {r : Vec F → Nat → Prop} (h : List.Forall₂ r b.pts zn) :
    (b.point? s).isSome = true ↔ ∃ n, Py.get zn (s - 1) = .ok n := by
  unfold ZoneBlock.point?
  rcases get_forall₂ h (s - 1) with ⟨x, y, h1, h2, _⟩ | ⟨h1, h2⟩
  · rw [h1, h2]; simp
  · rw [h1, h2]; simp

theorem forall₂_zip_map {α β γ δ : Type _} {r : β → δ → Prop} {q : γ → δ → Prop} (f : α → β) (k : α → γ) {l : List α} {m : List δ}
    (h1 : List.Forall₂ r (l.map f) m) (h2 : List.Forall₂ q (l.map k) m) :
    List.Forall₂ (fun a d => r (f a) d ∧ q (k a) d) l m := by
  rw [List.forall₂_map_left_iff] at h1 h2
  induction l generalizing m with
  | nil => cases h1; exact .nil
  | cons a l ih =>
    cases h1 with
    | cons p1 p2 => cases h2 with
      | cons q1 q2 => exact .cons ⟨p1, q1⟩ (ih p2 q2)

theorem addBlock_pre {rc : Vec F → R} {merge : Bool} {g : Grid F R} (h : Pre rc merge g) (b : ZoneBlock F) :
    ∃ g3, Pre rc merge g3 ∧ Ext g g3 ∧ g3.zones = g.zones ++ [g.zNext] ∧ g3.zName g.zNext = b.name ∧
      addBlock rc merge g b = (b.faces.map (·.2)).zipIdx.foldlM (blockConn g.zNext) g3 ∧
      List.Forall₂ (IsNodeOf rc merge g3) b.pts (g3.zNodes g.zNext) ∧
      List.Forall₂ (fun d f => f ∈ g3.faces ∧ f ∉ g.faces ∧ g3.fData f = d ∧ g3.fNodes f = []) (b.faces.map (·.1)) (g3.zFaces g.zNext) ∧
      g3.nodes.map g3.nP = b.pts.foldl (register rc merge) (g.nodes.map g.nP) := by
  have hz : g.zNext ∉ g.zones := fun hc => by have := h.zones_lt _ hc; omega
  obtain ⟨p1, e1⟩ := pre_pushZone h b.name
  obtain ⟨g1, hg1⟩ : ∃ g1, g1 = g.pushZone b.name := ⟨_, rfl⟩
  have hz1 : g1.zones = g.zones ++ [g.zNext] := by rw [hg1]; rfl
  have hn1 : g1.zNodes g.zNext = [] := by rw [hg1]; simp [Grid.pushZone, Grid.newZone]
  have hf1 : g1.zFaces g.zNext = [] := by rw [hg1]; simp [Grid.pushZone, Grid.newZone]
  have hm1 : g1.zName g.zNext = b.name := by rw [hg1]; simp [Grid.pushZone, Grid.newZone]
  rw [← hg1] at p1 e1
  obtain ⟨g2, a1, a2, a3, a4, a5⟩ := pre_nodes p1 hz1 hn1 b.pts
  have hz2 : g2.zones = g.zones ++ [g.zNext] := by rw [a3.zones, hz1]
  obtain ⟨g3, b1, b2, b3, b4⟩ := pre_faces a2 hz2 (by rw [a3.zFaces, hf1]) (b.faces.map (·.1))
  have hne : ∀ z ∈ g1.zones, z ∈ g.zones → z ≠ g.zNext := by rintro z _ hz' rfl; exact hz hz'
  have hfaces1 : g1.faces = g.faces := by rw [hg1]; rfl
  refine ⟨g3, b2, ?_, by rw [b3.zones, hz2], by rw [b3.zName, a3.zName, hm1], ?_, ?_, ?_, ?_⟩
  · refine ⟨?_, ?_, ?_, ?_, ?_, ?_, ?_, ?_, ?_, ?_, ?_⟩
    · rw [b3.name, a3.name, e1.name]
    · rw [b3.nodes]; exact e1.nodes.trans a3.nodes
    · intro n hn; rw [b3.nP, a3.nP n (e1.nodes.subset hn), e1.nP n hn]
    · intro n hn; rw [b3.nKey, a3.nKey n (e1.nodes.subset hn), e1.nKey n hn]
    · have := b3.faces; rw [a3.faces] at this; exact e1.faces.trans this
    · intro f hf
      rw [b3.fData f (by rw [a3.faces]; exact e1.faces.subset hf), a3.fData, e1.fData f hf]
    · intro f hf
      rw [b3.fNodes f (by rw [a3.faces]; exact e1.faces.subset hf), a3.fNodes, e1.fNodes f hf]
    · rw [b3.zones, a3.zones]; exact e1.zones
    · intro z hz'; rw [b3.zName, a3.zName, e1.zName z hz']
    · intro z hz'
      have hn : z ≠ g.zNext := by rintro rfl; exact hz hz'
      rw [b3.zFaces z hn, a3.zFaces, e1.zFaces z hz']
    · intro z hz'
      have hn : z ≠ g.zNext := by rintro rfl; exact hz hz'
      rw [b3.zNodes, a3.zNodes z hn, e1.zNodes z hz']
  · unfold addBlock
    show (b.pts.foldlM (blockNode rc merge g.zNext) (g.pushZone b.name) >>= _) = _
    rw [← hg1, a1, res_bind_ok, b1, res_bind_ok]
  · rw [b3.zNodes]
    exact a4.imp fun p n hn => hn.ext (by rw [b3.nodes]; exact List.prefix_refl _) (fun n _ => by rw [b3.nP]) (fun n _ => by rw [b3.nKey])
  · refine b4.imp fun d f hf => ⟨hf.1, ?_, hf.2.2⟩
    have := hf.2.1
    rw [a3.faces, hfaces1] at this
    exact this
  · rw [b3.nodes, b3.nP, a5]
    have : g1.nodes.map g1.nP = g.nodes.map g.nP := by rw [hg1]; rfl
    rw [this]

theorem addBlock_ok {rc : Vec F → R} {merge : Bool} {g : Grid F R} (h : Pre rc merge g) (b : ZoneBlock F) (hv : b.Valid) :
    ∃ g', addBlock rc merge g b = .ok g' ∧ Pre rc merge g' ∧ Ext g g' ∧ g'.zones = g.zones ++ [g.zNext] ∧
      BlockOk rc merge g' b g.zNext ∧ g'.nodes.map g'.nP = b.pts.foldl (register rc merge) (g.nodes.map g.nP) := by
  obtain ⟨g3, b2, e3, hz3, hm3, hr, hn3, hf3, hreg⟩ := addBlock_pre h b
  have hzz : g.zNext ∈ g3.zones := by rw [hz3]; simp
  have hfnd : (g3.zFaces g.zNext).Nodup := by
    have h1 := b2.faces_nodup
    rw [b2.part] at h1
    exact (List.nodup_flatMap.1 h1).1 _ hzz
  have hfree : ∀ f ∈ g3.zFaces g.zNext, f ∉ g.faces ∧ g3.fNodes f = [] := by
    intro f hf
    obtain ⟨i, hi⟩ := List.getElem?_of_mem hf
    obtain ⟨hi1, hi2⟩ := List.getElem?_eq_some_iff.1 hi
    have := (List.forall₂_iff_get.1 hf3).2 i (by rw [hf3.length_eq]; exact hi1) hi1
    simp only [List.get_eq_getElem, hi2] at this
    exact ⟨this.2.1, this.2.2.2⟩
  obtain ⟨nf, fn, c1, c2, c3, c4⟩ := pre_conns b2 hzz (b.faces.map (·.2)) (by rw [← hf3.length_eq]; simp) hfnd
    (fun f hf => (hfree f hf).2) (by
      intro c hc
      obtain ⟨fc, hfc, rfl⟩ := List.mem_map.1 hc
      obtain ⟨h1, h2⟩ := hv fc hfc
      exact ⟨h1, fun s hs => (point?_isSome hn3).1 (h2 s hs)⟩)
  refine ⟨{ g3 with nFaces := nf, fNodes := fn }, ?_, c2, ?_, hz3, ?_, hreg⟩
  · rw [hr, c1]
  · refine ⟨e3.name, e3.nodes, e3.nP, e3.nKey, e3.faces, e3.fData, ?_, e3.zones, e3.zName, e3.zFaces, e3.zNodes⟩
    intro f hf
    show fn f = _
    rw [c3 f (fun hc => (hfree f hc).1 hf), e3.fNodes f hf]
  · refine ⟨hm3, hn3, ?_⟩
    refine (forall₂_zip_map (·.1) (·.2) hf3 c4).imp ?_
    rintro fc f ⟨h1, h2⟩
    exact ⟨h1.1, h1.2.2.1, h2⟩

/-- A successful connectivity loop has only valid lists. -/
theorem conns_valid (z : Nat) (conns : List (List Int)) (g g' : Grid F R) (h : conns.zipIdx.foldlM (blockConn z) g = .ok g') :
    ∀ c ∈ conns, c.length = 3 ∧ ∀ s ∈ c, ∃ n, Py.get (g.zNodes z) (s - 1) = .ok n := by
  have H := foldlM_partial (blockConn z) conns.zipIdx (fun pre (s : Grid F R) => s.zNodes = g.zNodes ∧
    ∀ c ∈ pre, c.1.length = 3 ∧ ∀ s ∈ c.1, ∃ n, Py.get (g.zNodes z) (s - 1) = .ok n) g g' h ⟨rfl, by simp⟩ ?_
  · intro c hc
    obtain ⟨i, hi⟩ := List.getElem?_of_mem hc
    exact H.2 (c, i) (by rw [List.mem_zipIdx_iff_getElem?]; exact hi)
  · rintro pre a post s s' _ ⟨h1, h2⟩ hs
    unfold blockConn at hs
    rw [res_bind_eq_ok] at hs
    obtain ⟨f, hf, hs⟩ := hs
    rw [res_bind_eq_ok] at hs
    obtain ⟨ns, hns, hs⟩ := hs
    rw [mapM_forall₂, h1] at hns
    split at hs
    · rename_i x y w
      cases hs
      refine ⟨h1, ?_⟩
      intro c hc
      rcases List.mem_append.1 hc with hc | hc
      · exact h2 c hc
      · simp at hc; subst hc
        refine ⟨hns.length_eq, ?_⟩
        intro t ht
        obtain ⟨i, hi⟩ := List.getElem?_of_mem ht
        obtain ⟨hi1, hi2⟩ := List.getElem?_eq_some_iff.1 hi
        have := (List.forall₂_iff_get.1 hns).2 i hi1 (by rw [← hns.length_eq]; exact hi1)
        simp only [List.get_eq_getElem, hi2] at this
        exact ⟨_, this⟩
    · cases hs

theorem addBlock_valid {rc : Vec F → R} {merge : Bool} {g g' : Grid F R} (h : Pre rc merge g) (b : ZoneBlock F)
    (hr : addBlock rc merge g b = .ok g') : b.Valid := by
  obtain ⟨g3, b2, e3, hz3, hm3, hr3, hn3, hf3, _⟩ := addBlock_pre h b
  rw [hr3] at hr
  intro fc hfc
  obtain ⟨h1, h2⟩ := conns_valid _ _ _ _ hr fc.2 (List.mem_map_of_mem hfc)
  exact ⟨h1, fun s hs => (point?_isSome hn3).2 (h2 s hs)⟩

/-- All the blocks. -/
theorem addBlocks_ok {rc : Vec F → R} {merge : Bool} {g : Grid F R} (h : Pre rc merge g) (h0 : g.zones = [])
    (blocks : List (ZoneBlock F)) (hv : ∀ b ∈ blocks, b.Valid) :
    ∃ g', blocks.foldlM (addBlock rc merge) g = .ok g' ∧ Pre rc merge g' ∧ Ext g g' ∧
      List.Forall₂ (BlockOk rc merge g') blocks g'.zones ∧
      g'.nodes.map g'.nP = (blocks.flatMap (·.pts)).foldl (register rc merge) (g.nodes.map g.nP) := by
  refine foldlM_total (addBlock rc merge) blocks (fun pre g' => Pre rc merge g' ∧ Ext g g' ∧
      List.Forall₂ (BlockOk rc merge g') pre g'.zones ∧
      g'.nodes.map g'.nP = (pre.flatMap (·.pts)).foldl (register rc merge) (g.nodes.map g.nP)) g
      ⟨h, Ext.refl g, by rw [h0]; exact .nil, rfl⟩ ?_
  rintro pre b post s hs ⟨h1, h2, h3, hr⟩
  obtain ⟨g', a1, a2, a3, a4, a5, a6⟩ := addBlock_ok h1 b (hv b (by rw [hs]; simp))
  refine ⟨g', a1, a2, h2.trans a3, ?_, by rw [a6, hr, List.flatMap_append, List.foldl_append]; simp⟩
  rw [a4]
  refine forall₂_snoc ?_ a5
  rw [List.forall₂_iff_get] at h3 ⊢
  refine ⟨h3.1, fun i hi hi' => (h3.2 i hi hi').ext a3 (List.get_mem _ _)⟩

theorem addBlocks_valid {rc : Vec F → R} {merge : Bool} : ∀ (blocks : List (ZoneBlock F)) (g g' : Grid F R), Pre rc merge g →
    blocks.foldlM (addBlock rc merge) g = .ok g' → ∀ b ∈ blocks, b.Valid := by
  intro blocks
  induction blocks with
  | nil => intro g g' _ _ b hb; simp at hb
  | cons b bs ih =>
    intro g g' hp hr
    rw [List.foldlM_cons, res_bind_eq_ok] at hr
    obtain ⟨g1, h1, h2⟩ := hr
    have hv := addBlock_valid hp b h1
    obtain ⟨g1', a1, a2, _⟩ := addBlock_ok hp b hv
    rw [h1] at a1
    cases a1
    intro c hc
    rcases List.mem_cons.1 hc with rfl | hc
    · exact hv
    · exact ih g1 g' a2 h2 c hc

end Verif
