import Verif.Proofs.Stream
import Verif.Proofs.LoadAny
import Verif.Spec.Stream

/-! What a load that fails leaves behind. -/

namespace Verif
open Grid
variable {F R : Type}

/-- `P` holds of the value, and `Q` of the grid left behind if there is none. -/
def Leaves {α : Type} (Q : Grid F R → Prop) (P : α → Prop) : Left F R α → Prop
  | .ok a => P a
  | .error (_, g) => Q g

theorem Leaves.bind {α β : Type} {Q : Grid F R → Prop} {P : α → Prop} {P' : β → Prop} {x : Left F R α}
    {f : α → Left F R β} (h : Leaves Q P x) (hf : ∀ a, P a → Leaves Q P' (f a)) : Leaves Q P' (x >>= f) := by
  cases x with
  | ok a => exact hf a h
  | error e => exact h

theorem Leaves.bind_here {α β : Type} {Q : Grid F R → Prop} {P' : β → Prop} {g : Grid F R} {r : Res α}
    {f : α → Left F R β} (h : Q g) (hf : ∀ a, r = .ok a → Leaves Q P' (f a)) : Leaves Q P' (g.here r >>= f) := by
  cases r with
  | ok a => exact hf a rfl
  | error e => exact h

theorem Leaves.here {α : Type} {Q : Grid F R → Prop} {P : α → Prop} {g : Grid F R} {r : Res α}
    (h : Q g) (hf : ∀ a, r = .ok a → P a) : Leaves Q P (g.here r) := by
  cases r with
  | ok a => exact hf a rfl
  | error e => exact h

theorem Leaves.weaken {α : Type} {Q : Grid F R → Prop} {P P' : α → Prop} {x : Left F R α} (h : Leaves Q P x) (hp : ∀ a, P a → P' a) :
    Leaves Q P' x := by
  cases x with
  | ok a => exact hp a h
  | error e => exact h

theorem Leaves.foldlM_from {α β : Type} {Q : Grid F R → Prop} (I : Nat → β → Prop) {f : β → α → Left F R β} {l : List α} {s : β}
    (m : Nat) (h : I m s) (hf : ∀ k a s, l[k]? = some a → I (m + k) s → Leaves Q (I (m + k + 1)) (f s a)) :
    Leaves Q (I (m + l.length)) (l.foldlM f s) := by
  induction l generalizing s m with
  | nil => exact h
  | cons a l ih =>
    rw [List.foldlM_cons]
    refine Leaves.bind (hf 0 a s rfl h) (fun s' hs' => ?_)
    have := ih (s := s') (m + 1) hs' (fun k b t hk ht => by
      have := hf (k + 1) b t hk (by rw [show m + (k + 1) = m + 1 + k by omega]; exact ht)
      rw [show m + (k + 1) + 1 = m + 1 + k + 1 by omega] at this
      exact this)
    rw [show m + (a :: l).length = m + 1 + l.length by simp; omega]
    exact this

theorem Leaves.foldlM {α β : Type} {Q : Grid F R → Prop} (I : Nat → β → Prop) {f : β → α → Left F R β} {l : List α} {s : β}
    (h : I 0 s) (hf : ∀ k a s, l[k]? = some a → I k s → Leaves Q (I (k + 1)) (f s a)) :
    Leaves Q (I l.length) (l.foldlM f s) := by
  have := Leaves.foldlM_from (Q := Q) I 0 h (l := l) (f := f) (by simpa using hf)
  simpa using this

variable [DecidableEq R]

/-- Everything is newer than `old`. -/
structure NewerThan (old g : Grid F R) : Prop where
  all : AllNew old g
  n : old.nNext ≤ g.nNext
  e : old.eNext ≤ g.eNext
  f : old.fNext ≤ g.fNext
  z : old.zNext ≤ g.zNext

omit [DecidableEq R] in
theorem newer_clear (g : Grid F R) : NewerThan g g.clear :=
  ⟨by constructor <;> simp [Grid.clear], Nat.le_refl _, Nat.le_refl _, Nat.le_refl _, Nat.le_refl _⟩

omit [DecidableEq R] in
theorem newer_pushZone {old g : Grid F R} (h : NewerThan old g) (nm : Str) : NewerThan old (g.pushZone nm) := by
  refine ⟨⟨h.all.nodes, h.all.edges, h.all.faces, ?_⟩, h.n, h.e, h.f, Nat.le_succ_of_le h.z⟩
  intro z hz
  rcases List.mem_append.1 hz with hz | hz
  · exact h.all.zones z hz
  · rw [List.mem_singleton.1 hz]; exact h.z

theorem newer_node {old g g' : Grid F R} {rc : Vec F → R} {merge : Bool} {z : Nat} {p : Vec F} (h : NewerThan old g)
    (r : blockNode rc merge z g p = .ok g') : NewerThan old g' := by
  unfold blockNode addNode at r
  have push : NewerThan old (((g.newNode rc p).pushNode g.nNext).zoneAddNode z g.nNext) := by
    refine ⟨⟨?_, h.all.edges, h.all.faces, h.all.zones⟩, Nat.le_succ_of_le h.n, h.e, h.f, h.z⟩
    intro n hn
    rcases List.mem_append.1 hn with hn | hn
    · exact h.all.nodes n hn
    · rw [List.mem_singleton.1 hn]; exact h.n
  have keep : ∀ m, NewerThan old ((g.newNode rc p).zoneAddNode z m) := fun m =>
    ⟨⟨h.all.nodes, h.all.edges, h.all.faces, h.all.zones⟩, Nat.le_succ_of_le h.n, h.e, h.f, h.z⟩
  cases hf : (g.newNode rc p).findNearNode g.nNext with
  | error e => simp only [hf] at r; cases r
  | ok o =>
    cases o with
    | none => simp only [hf] at r; cases r; exact push
    | some m =>
      simp only [hf] at r
      cases merge
      · cases r; exact push
      · cases r; exact keep m

omit [DecidableEq R] in
theorem newer_face {old g g' : Grid F R} {z : Nat} {d : List (Str × F)} (h : NewerThan old g)
    (r : blockFace z g d = .ok g') : NewerThan old g' := by
  unfold blockFace at r
  obtain ⟨zf, fz, rfl⟩ := zoneAddFace_frame r
  refine ⟨⟨h.all.nodes, h.all.edges, ?_, h.all.zones⟩, h.n, h.e, Nat.le_succ_of_le h.f, h.z⟩
  intro f hf
  rcases List.mem_append.1 hf with hf | hf
  · exact h.all.faces f hf
  · rw [List.mem_singleton.1 hf]; exact h.f

/-- BetweenZones two lines that are not in a zone. -/
structure BetweenZones (rc : Vec F → R) (merge : Bool) (old g : Grid F R) : Prop where
  pre : Pre rc merge g
  newer : NewerThan old g
  corners : ∀ f ∈ g.faces, (g.fNodes f).length = 3

/-- What a failure in the file leaves. -/
def HalfNew (old g : Grid F R) : Prop := HalfRead g ∧ AllNew old g

omit [DecidableEq R] in
theorem BetweenZones.half {rc : Vec F → R} {merge : Bool} {old g : Grid F R} (h : BetweenZones rc merge old g) : HalfNew old g :=
  ⟨⟨h.pre.no_edges, h.pre.nedges, h.pre.fedges, h.pre.part, h.pre.points, fun f hf => .inl (h.corners f hf), h.pre.fnodes⟩, h.newer.all⟩

/-- In zone `z`, whose first `k` faces have got their corners. -/
structure InsideZone (rc : Vec F → R) (merge : Bool) (old : Grid F R) (z : Nat) (k : Nat) (g : Grid F R) : Prop where
  pre : Pre rc merge g
  newer : NewerThan old g
  last : ∃ zs, g.zones = zs ++ [z]
  others : ∀ f ∈ g.faces, f ∉ g.zFaces z → (g.fNodes f).length = 3
  done : ∀ (i f : Nat), (g.zFaces z)[i]? = some f → i < k → (g.fNodes f).length = 3
  todo : ∀ (i f : Nat), (g.zFaces z)[i]? = some f → k ≤ i → g.fNodes f = []

omit [DecidableEq R] in
theorem InsideZone.half {rc : Vec F → R} {merge : Bool} {old g : Grid F R} {z k : Nat} (h : InsideZone rc merge old z k g) : HalfNew old g := by
  refine ⟨⟨h.pre.no_edges, h.pre.nedges, h.pre.fedges, h.pre.part, h.pre.points, fun f hf => ?_, h.pre.fnodes⟩, h.newer.all⟩
  by_cases hz : f ∈ g.zFaces z
  · obtain ⟨i, hi⟩ := List.getElem?_of_mem hz
    rcases Nat.lt_or_ge i k with hk | hk
    · exact .inl (h.done i f hi hk)
    · refine .inr ⟨h.todo i f hi hk, ?_⟩
      obtain ⟨zs, hzs⟩ := h.last
      rw [hzs, List.getLast?_append, List.getLast?_singleton]
      exact h.pre.points z (by rw [hzs]; simp) f hz
  · exact .inl (h.others f hf hz)

omit [DecidableEq R] in
theorem pre_zFaces_nodup {rc : Vec F → R} {merge : Bool} {g : Grid F R} (h : Pre rc merge g) {z : Nat} (hz : z ∈ g.zones) :
    (g.zFaces z).Nodup := by
  have := h.faces_nodup
  rw [h.part] at this
  exact (List.nodup_flatMap.1 this).1 z hz

theorem conn_step {rc : Vec F → R} {merge : Bool} {old : Grid F R} {z k : Nat} {s : Grid F R × List Str} (h : InsideZone rc merge old z k s.1) :
    Leaves (HalfNew old) (fun s' : Grid F R × List Str => InsideZone rc merge old z (k + 1) s'.1 ∧ s'.1.zFaces z = s.1.zFaces z)
      (streamConn z s k) := by
  obtain ⟨g, ls⟩ := s
  unfold streamConn
  have hh := h.half
  refine Leaves.bind_here hh (fun f hf => ?_)
  refine Leaves.bind_here hh (fun ns hns => ?_)
  split
  · rename_i a b c
    obtain ⟨zs, hzs⟩ := h.last
    simp only at hzs hf hns h
    have hz : z ∈ g.zones := by rw [hzs]; simp
    have hfm := get_mem hf
    have hfk : (g.zFaces z)[k]? = some f := by
      rw [get_ofNat] at hf
      cases hk : (g.zFaces z)[k]? with
      | none => rw [hk] at hf; cases hf
      | some x => rw [hk] at hf; cases hf; rfl
    have hmem : ∀ n ∈ [a, b, c], n ∈ g.zNodes z := by
      have h2 := (mapM_forall₂ _ _ _).1 hns
      intro n hn
      obtain ⟨i, hi⟩ := List.getElem?_of_mem hn
      obtain ⟨hi1, hi2⟩ := List.getElem?_eq_some_iff.1 hi
      have := (List.forall₂_iff_get.1 h2).2 i (by rw [h2.length_eq]; exact hi1) hi1
      simp only [List.get_eq_getElem, hi2, res_bind_eq_ok] at this
      obtain ⟨_, _, this⟩ := this
      exact get_mem this
    have p1 : Pre rc merge (g.linkNodeFace a f) := pre_link h.pre hz hfm (hmem a (by simp))
    have p2 : Pre rc merge ((g.linkNodeFace a f).linkNodeFace b f) := pre_link p1 hz hfm (hmem b (by simp))
    have p3 : Pre rc merge (((g.linkNodeFace a f).linkNodeFace b f).linkNodeFace c f) := pre_link p2 hz hfm (hmem c (by simp))
    have hnd := pre_zFaces_nodup h.pre hz
    have hself : (((g.linkNodeFace a f).linkNodeFace b f).linkNodeFace c f).fNodes f = [a, b, c] := by
      simp only [Grid.linkNodeFace, upd_self, h.todo k f hfk (Nat.le_refl _)]
      rfl
    have hother : ∀ f', f' ≠ f → (((g.linkNodeFace a f).linkNodeFace b f).linkNodeFace c f).fNodes f' = g.fNodes f' := by
      intro f' hne
      simp only [Grid.linkNodeFace]
      rw [upd_ne _ _ hne, upd_ne _ _ hne, upd_ne _ _ hne]
    have hidx : ∀ i, (g.zFaces z)[i]? = some f → i = k := by
      intro i hi
      obtain ⟨q1, q2⟩ := List.getElem?_eq_some_iff.1 hi
      obtain ⟨q3, q4⟩ := List.getElem?_eq_some_iff.1 hfk
      exact (List.Nodup.getElem_inj_iff hnd).1 (q2.trans q4.symm)
    refine ⟨⟨p3, ⟨⟨h.newer.all.nodes, h.newer.all.edges, h.newer.all.faces, h.newer.all.zones⟩, h.newer.n, h.newer.e, h.newer.f, h.newer.z⟩, ⟨zs, hzs⟩, ?_, ?_, ?_⟩, rfl⟩
    · intro f' hf' hne
      have : f' ≠ f := by rintro rfl; exact hne hfm
      show ((((g.linkNodeFace a f).linkNodeFace b f).linkNodeFace c f).fNodes f').length = 3
      rw [hother f' this]
      exact h.others f' hf' hne
    · intro i f' hi hik
      show ((((g.linkNodeFace a f).linkNodeFace b f).linkNodeFace c f).fNodes f').length = 3
      by_cases e : f' = f
      · subst e; rw [hself]; rfl
      · rw [hother f' e]
        refine h.done i f' hi ?_
        rcases Nat.lt_or_ge i k with hk | hk
        · exact hk
        · have : i = k := by omega
          subst this
          have hi' : (g.zFaces z)[i]? = some f' := hi
          rw [hfk] at hi'
          cases hi'
          exact absurd rfl e
    · intro i f' hi hik
      have e : f' ≠ f := by
        rintro rfl
        have := hidx i hi
        omega
      show (((g.linkNodeFace a f).linkNodeFace b f).linkNodeFace c f).fNodes f' = []
      rw [hother f' e]
      exact h.todo i f' hi (by omega)
  · exact hh

theorem zone_leaves {rc : Vec F → R} {merge : Bool} {old g : Grid F R} (c : Codec F) (vars : List Str) (line : Str) (ls : List Str)
    (h : BetweenZones rc merge old g) :
    Leaves (HalfNew old) (fun s : Grid F R × List Str => BetweenZones rc merge old s.1) (streamZone rc c merge vars line ls g) := by
  unfold streamZone
  refine Leaves.bind_here h.half (fun zl _ => ?_)
  have hz : g.zNext ∉ g.zones := fun hc => by have := h.pre.zones_lt _ hc; omega
  obtain ⟨p1, e1⟩ := pre_pushZone h.pre (Py.slice zl (some 1) (some (-2)))
  have i1 : InsideZone rc merge old g.zNext 0 (g.pushZone (Py.slice zl (some 1) (some (-2)))) ∧
      (g.pushZone (Py.slice zl (some 1) (some (-2)))).zFaces g.zNext = [] := by
    have h0 : (g.pushZone (Py.slice zl (some 1) (some (-2)))).zFaces g.zNext = [] := by simp [Grid.pushZone, Grid.newZone]
    refine ⟨⟨p1, newer_pushZone h.newer _, ⟨g.zones, rfl⟩, fun f hf _ => h.corners f hf, ?_, ?_⟩, h0⟩
    · intro i f hi; rw [h0] at hi; cases hi
    · intro i f hi; rw [h0] at hi; cases hi
  generalize hg1 : g.pushZone (Py.slice zl (some 1) (some (-2))) = g1 at i1
  generalize g.zNext = z at i1
  simp only
  obtain ⟨nodesLine, facesLine, packing, ztype, varloc, hd⟩ : ∃ a b c d e, (readlines 5 ls).1 = [a, b, c, d, e] :=
    ⟨_, _, _, _, _, rfl⟩
  rw [hd]
  refine Leaves.bind_here i1.1.half (fun _ _ => ?_)
  refine Leaves.bind_here i1.1.half (fun nn _ => ?_)
  refine Leaves.bind_here i1.1.half (fun nf _ => ?_)
  refine Leaves.bind_here i1.1.half (fun cs _ => ?_)
  split
  · rename_i cx cy cz
    refine Leaves.bind (P := fun s => InsideZone rc merge old z 0 s ∧ s.zFaces z = []) ?_ (fun g2 i2 => ?_)
    · refine Leaves.foldlM (fun _ s => InsideZone rc merge old z 0 s ∧ s.zFaces z = []) i1 ?_
      intro k a s _ hs
      unfold streamNode
      refine Leaves.bind_here hs.1.half (fun p _ => Leaves.here hs.1.half (fun s' r => ?_))
      obtain ⟨zs, hzs⟩ := hs.1.last
      obtain ⟨g', n, r', q1, q2, _⟩ := pre_node hs.1.pre hzs p
      rw [r] at r'
      cases r'
      refine ⟨⟨q1, newer_node hs.1.newer r, ⟨zs, by rw [q2.zones, hzs]⟩, ?_, ?_, ?_⟩, by rw [q2.zFaces]; exact hs.2⟩
      · rw [q2.faces, q2.zFaces, q2.fNodes]; exact hs.1.others
      · rw [q2.zFaces, q2.fNodes]; exact hs.1.done
      · rw [q2.zFaces, q2.fNodes]; exact hs.1.todo
    · refine Leaves.bind_here i2.1.half (fun d _ => ?_)
      refine Leaves.bind (P := fun s => InsideZone rc merge old z 0 s ∧ (s.zFaces z).length = nf.toNat) ?_ (fun g3 i3 => ?_)
      · have := Leaves.foldlM (Q := HalfNew old) (l := List.range nf.toNat) (f := streamFace (vars.drop 3) d z) (s := g2)
          (fun k s => InsideZone rc merge old z 0 s ∧ (s.zFaces z).length = k) ⟨i2.1, by rw [i2.2]; rfl⟩ ?_
        · rw [List.length_range] at this; exact this
        intro k a s _ hs
        unfold streamFace
        refine Leaves.bind_here hs.1.half (fun dd _ => Leaves.here hs.1.half (fun s' r => ?_))
        obtain ⟨zs, hzs⟩ := hs.1.last
        obtain ⟨g', f, r', q1, q2, q3, q4, q5, _, q7⟩ := pre_face hs.1.pre hzs dd
        rw [r] at r'
        cases r'
        have hzz : z ∈ s.zones := by rw [hzs]; simp
        refine ⟨⟨q1, newer_face hs.1.newer r, ⟨zs, by rw [q2.zones, hzs]⟩, ?_, ?_, ?_⟩, by rw [q3, List.length_append, hs.2]; rfl⟩
        · intro f' hf' hn
          rw [q3] at hn
          have hn' : f' ∉ s.zFaces z ∧ f' ≠ f := by simpa using hn
          have hfs : f' ∈ s.faces := by
            rw [q1.part, List.mem_flatMap] at hf'
            obtain ⟨z', hz', hf'⟩ := hf'
            have hne : z' ≠ z := by rintro rfl; rw [q3] at hf'; exact hn hf'
            rw [q2.zFaces z' hne] at hf'
            rw [q2.zones] at hz'
            rw [hs.1.pre.part, List.mem_flatMap]
            exact ⟨z', hz', hf'⟩
          rw [q2.fNodes f' hfs]
          exact hs.1.others f' hfs hn'.1
        · intro i f' _ hi; omega
        · intro i f' hi _
          rw [q3] at hi
          rcases getElem?_snoc hi with hi | hi
          · have hfs : f' ∈ s.faces := by
              rw [hs.1.pre.part, List.mem_flatMap]; exact ⟨z, hzz, List.mem_of_getElem? hi⟩
            rw [q2.fNodes f' hfs]
            exact hs.1.todo i f' hi (Nat.zero_le _)
          · rw [hi.2]; exact q7
      · have := Leaves.foldlM (Q := HalfNew old) (l := List.range nf.toNat) (f := streamConn z)
          (s := (g3, (readlines (vars.drop 3).length (readlines 3 (readlines 5 ls).2).2).2))
          (fun k (s : Grid F R × List Str) => InsideZone rc merge old z k s.1 ∧ (s.1.zFaces z).length = nf.toNat) i3 ?_
        · rw [List.length_range] at this
          refine this.weaken ?_
          · rintro s ⟨i4, hl⟩
            refine ⟨i4.pre, i4.newer, ?_⟩
            intro f hf
            by_cases hz : f ∈ s.1.zFaces z
            · obtain ⟨i, hi⟩ := List.getElem?_of_mem hz
              obtain ⟨hi1, _⟩ := List.getElem?_eq_some_iff.1 hi
              exact i4.done i f hi (by omega)
            · exact i4.others f hf hz
        · intro k a s hk hs
          have ha : a = k := by
            obtain ⟨h1, h2⟩ := List.getElem?_eq_some_iff.1 hk
            rw [List.getElem_range] at h2
            exact h2.symm
          subst ha
          have := conn_step hs.1
          exact this.weaken (fun s' q => ⟨q.1, by rw [q.2]; exact hs.2⟩)
  · exact i1.1.half

theorem stream_leaves (rc : Vec F → R) (c : Codec F) (merge : Bool) (old : Grid F R) (n : Nat) (vars : List Str) (g : Grid F R)
    (ls : List Str) (h : BetweenZones rc merge old g) :
    Leaves (HalfNew old) (BetweenZones rc merge old) (stream rc c merge n vars g ls) := by
  induction n generalizing vars g ls with
  | zero => exact h
  | succ n ih =>
    cases ls with
    | nil => exact h
    | cons line ls =>
      unfold stream
      split
      · exact ih _ _ _ h
      split
      · refine Leaves.bind_here h.half (fun t _ => ih _ _ _ ?_)
        exact ⟨⟨h.pre.nodes_nodup, h.pre.nodes_lt, h.pre.keys, h.pre.bag, h.pre.nglo, h.pre.faces_nodup, h.pre.faces_lt, h.pre.fglo,
          h.pre.fnodes, h.pre.nfaces, h.pre.inc, h.pre.nedges, h.pre.fedges, h.pre.no_edges, h.pre.zones_nodup, h.pre.zones_lt,
          h.pre.part, h.pre.points, h.pre.znodes, h.pre.corners, h.pre.merged, h.pre.unmerged, h.pre.used⟩,
          ⟨⟨h.newer.all.nodes, h.newer.all.edges, h.newer.all.faces, h.newer.all.zones⟩, h.newer.n, h.newer.e, h.newer.f, h.newer.z⟩, h.corners⟩
      split
      · exact Leaves.bind_here h.half (fun v _ => ih _ _ _ h)
      split
      · exact Leaves.bind (zone_leaves c vars line ls h) (fun s hs => ih _ _ _ hs)
      · exact h.half

/-- While the edges are made. -/
structure LinkingEdges (old s0 g : Grid F R) : Prop where
  frame : LinkFrame s0 g
  nFaces : g.nFaces = s0.nFaces
  efaces : ∀ e ∈ g.edges, ∀ f ∈ g.eFaces e, f ∈ s0.faces
  edges : ∀ e ∈ g.edges, old.eNext ≤ e
  e : old.eNext ≤ g.eNext

omit [DecidableEq R] in
theorem linking_edgeFace {old s0 g g' : Grid F R} (h : LinkingEdges old s0 g) {e f : Nat} (hf : f ∈ s0.faces)
    (r : g.linkEdgeFace e f = .ok g') : LinkingEdges old s0 g' := by
  refine ⟨h.frame.trans (linkEdgeFace_frame r), ?_, ?_, ?_, ?_⟩
  all_goals
    unfold linkEdgeFace at r
    split at r
    · cases r
    cases r
  · exact h.nFaces
  · intro e' he' f' hf'
    simp only [upd_apply] at hf'
    split at hf'
    · rename_i q; subst q
      rcases List.mem_append.1 hf' with h1 | h1
      · exact h.efaces _ he' _ h1
      · rw [List.mem_singleton.1 h1]; exact hf
    · exact h.efaces _ he' _ hf'
  · exact h.edges
  · exact h.e

theorem linking_complex {old s0 g g' : Grid F R} (h : LinkingEdges old s0 g) {f a b : Nat} (hf : f ∈ s0.faces)
    (r : g.complexLink f a b = .ok g') : LinkingEdges old s0 g' := by
  unfold complexLink at r
  split at r
  · refine linking_edgeFace (g := (((g.newEdge.addEdge g.eNext).linkNodeEdge a g.eNext).linkNodeEdge b g.eNext)) ?_ hf r
    refine ⟨⟨h.frame.nodes, h.frame.nKey, h.frame.nP, h.frame.faces, h.frame.fNodes, h.frame.fData, h.frame.fZone, h.frame.zones,
      h.frame.zFaces, h.frame.zName⟩, h.nFaces, ?_, ?_, Nat.le_succ_of_le h.e⟩
    · intro e he f' hf'
      have hf2 : f' ∈ upd g.eFaces g.eNext [] e := hf'
      rw [upd_apply] at hf2
      split at hf2
      · cases hf2
      · rename_i q
        rcases List.mem_append.1 he with h1 | h1
        · exact h.efaces e h1 f' hf2
        · exact absurd (List.mem_singleton.1 h1) q
    · intro e he
      rcases List.mem_append.1 he with h1 | h1
      · exact h.edges e h1
      · rw [List.mem_singleton.1 h1]; exact h.e
  · exact linking_edgeFace h hf r

/-- All of the file has been read when the edges are made: the only thing that may go wrong is the third face of an edge. -/
theorem links_leave (rc : Vec F → R) (merge : Bool) (old s0 : Grid F R) (h : BetweenZones rc merge old s0) (x : Err × Grid F R)
    (hx : (do let g ← s0.faces.foldlM linkFaceX s0; g.linkNodesAndEdgesToZonesX) = (.error x : Left F R (Grid F R))) :
    x.1 = .exc "Too many faces linking with this edge" ∧ LinkFrame s0 x.2 ∧ ∀ e ∈ x.2.edges, old.eNext ≤ e := by
  have l0 : LinkingEdges old s0 s0 := ⟨LinkFrame.refl s0, rfl, by rw [h.pre.no_edges]; simp, by rw [h.pre.no_edges]; simp, h.newer.e⟩
  have key : ∀ (l : List Nat) (g : Grid F R), (∀ f ∈ l, f ∈ s0.faces) → LinkingEdges old s0 g → 
      match l.foldlM linkFaceX g with
      | .ok g' => LinkingEdges old s0 g'
      | .error x => x.1 = .exc "Too many faces linking with this edge" ∧ LinkingEdges old s0 x.2 := by
    intro l
    induction l with
    | nil => intro g _ hg; exact hg
    | cons f l ih =>
      intro g hl hg
      rw [List.foldlM_cons]
      have hf := hl f (by simp)
      obtain ⟨a, b, c, hn⟩ : ∃ a b c, g.fNodes f = [a, b, c] := by
        have := h.corners f hf
        rw [← hg.frame.fNodes] at this
        exact List.length_eq_three.1 this
      have step : match linkFaceX g f with
          | .ok g' => LinkingEdges old s0 g'
          | .error x => x.1 = .exc "Too many faces linking with this edge" ∧ LinkingEdges old s0 x.2 := by
        unfold linkFaceX
        rw [hn]
        show match (do let g ← g.here (g.complexLink f a b); let g ← g.here (g.complexLink f a c); g.here (g.complexLink f b c) : Left F R (Grid F R)) with
          | .ok g' => LinkingEdges old s0 g'
          | .error x => x.1 = .exc "Too many faces linking with this edge" ∧ LinkingEdges old s0 x.2
        cases h1 : g.complexLink f a b with
        | error e => exact ⟨complexLink_error h1, hg⟩
        | ok g1 =>
          have l1 := linking_complex hg hf h1
          show match (do let g ← g1.here (g1.complexLink f a c); g.here (g.complexLink f b c) : Left F R (Grid F R)) with
            | .ok g' => LinkingEdges old s0 g'
            | .error x => x.1 = .exc "Too many faces linking with this edge" ∧ LinkingEdges old s0 x.2
          cases h2 : g1.complexLink f a c with
          | error e => exact ⟨complexLink_error h2, l1⟩
          | ok g2 =>
            have l2 := linking_complex l1 hf h2
            show match (g2.here (g2.complexLink f b c) : Left F R (Grid F R)) with
              | .ok g' => LinkingEdges old s0 g'
              | .error x => x.1 = .exc "Too many faces linking with this edge" ∧ LinkingEdges old s0 x.2
            cases h3 : g2.complexLink f b c with
            | error e => exact ⟨complexLink_error h3, l2⟩
            | ok g3 => exact linking_complex l2 hf h3
      cases hs : linkFaceX g f with
      | error e => rw [hs] at step; exact step
      | ok g' => rw [hs] at step; exact ih g' (fun f' hf' => hl f' (by simp [hf'])) step
  have k := key s0.faces s0 (fun _ h => h) l0
  cases hk : s0.faces.foldlM linkFaceX s0 with
  | error e =>
    rw [hk] at k hx
    cases hx
    exact ⟨k.1, k.2.frame, k.2.edges⟩
  | ok g =>
    rw [hk] at k hx
    have hx' : g.linkNodesAndEdgesToZonesX = .error x := hx
    have hpl := links_plain g
    obtain ⟨zn, ze, zi, ok, _⟩ := link_spec g (by rw [k.frame.zones]; exact h.pre.zones_nodup) (by
      rw [k.frame.nodes, k.nFaces]
      intro n hn f hf
      rw [k.frame.fZone, k.frame.zones]
      have := h.pre.nfaces n hn f hf
      rw [h.pre.part, List.mem_flatMap] at this
      obtain ⟨z, hz, hfz⟩ := this
      exact ⟨z, hz, h.pre.points z hz f hfz⟩) (by
      intro e he f hf
      rw [k.frame.fZone, k.frame.zones]
      have := k.efaces e he f hf
      rw [h.pre.part, List.mem_flatMap] at this
      obtain ⟨z, hz, hfz⟩ := this
      exact ⟨z, hz, h.pre.points z hz f hfz⟩)
    rw [ok, hx'] at hpl
    cases hpl

omit [DecidableEq R] in
theorem parseFile_rename (c : Codec F) (n : Nat) (nm nm' : Str) (vars : List Str) (bs : List (ZoneBlock F)) (ls : List Str) :
    (parseFile c n ⟨nm, vars, bs⟩ ls).map (·.blocks) = (parseFile c n ⟨nm', vars, bs⟩ ls).map (·.blocks) := by
  induction n generalizing nm nm' vars bs ls with
  | zero => rfl
  | succ n ih =>
    cases ls with
    | nil => rfl
    | cons line ls =>
      unfold parseFile
      split
      · exact ih ..
      split
      · cases Py.get (Py.splitCh '=' line) 1 with
        | error e => rfl
        | ok t => rfl
      split
      · cases varsOf line with
        | error e => rfl
        | ok v => exact ih ..
      split
      · simp only
        cases parseZone c vars line ls with
        | error e => rfl
        | ok r => exact ih ..
      · rfl

omit [DecidableEq R] in
theorem fileZones_iff {c : Codec F} {text : Str} {blocks : List (ZoneBlock F)} (nm : Str) :
    FileZones c text blocks ↔ ∃ s, parseFile c (Py.readlines text).length ⟨nm, [], []⟩ (Py.readlines text) = .ok s ∧ s.blocks = blocks := by
  have h := parseFile_rename c (Py.readlines text).length [] nm [] [] (Py.readlines text)
  unfold FileZones
  constructor
  · rintro ⟨s, h1, h2⟩
    rw [h1] at h
    cases h3 : parseFile c (Py.readlines text).length ⟨nm, [], []⟩ (Py.readlines text) with
    | error e => rw [h3] at h; cases h
    | ok s' =>
      rw [h3] at h
      refine ⟨s', rfl, ?_⟩
      rw [← h2]
      exact (Except.ok.inj h).symm
  · rintro ⟨s, h1, h2⟩
    rw [h1] at h
    cases h3 : parseFile c (Py.readlines text).length ⟨[], [], []⟩ (Py.readlines text) with
    | error e => rw [h3] at h; cases h
    | ok s' =>
      rw [h3] at h
      refine ⟨s', rfl, ?_⟩
      rw [← h2]
      exact Except.ok.inj h

/-- What `load` leaves behind when it raises. -/
theorem load_leaves (rc : Vec F → R) (c : Codec F) (merge : Bool) (g : Grid F R) (text : Str) (e : Err) (left : Grid F R)
    (h : loadX rc c merge g (some text) = .error (e, left)) :
    AllNew g left ∧ (HalfRead left ∨ e = .exc "Too many faces linking with this edge" ∧
      ∃ blocks, FileZones c text blocks ∧ List.Forall₂ (Represents rc merge left) blocks left.zones) := by
  unfold loadX at h
  have hb : BetweenZones rc merge g g.clear := ⟨pre_clear rc merge g, newer_clear g, by simp [Grid.clear]⟩
  have hs := stream_leaves rc c merge g (Py.readlines text).length [] g.clear (Py.readlines text) hb
  have both := stream_both rc c merge (Py.readlines text).length [] g.name [] g.clear (Py.readlines text)
  rw [show opt ([].foldlM (addBlock rc merge) (named g.name g.clear)) = some g.clear from rfl] at both
  simp only [Option.bind_some] at both
  simp only at h
  cases hr : stream rc c merge (Py.readlines text).length [] g.clear (Py.readlines text) with
  | error x =>
    rw [hr] at h hs
    cases h
    exact ⟨hs.2, .inl hs.1⟩
  | ok s0 =>
    rw [hr] at h hs both
    obtain ⟨e1, e2, e3⟩ := links_leave rc merge g s0 hs (e, left) h
    simp only at e1 e2 e3
    have hn := hs.newer.all
    refine ⟨⟨by rw [e2.nodes]; exact hn.nodes, e3, by rw [e2.faces]; exact hn.faces, by rw [e2.zones]; exact hn.zones⟩, .inr ⟨e1, ?_⟩⟩
    cases hp : parseFile c (Py.readlines text).length ⟨g.name, [], []⟩ (Py.readlines text) with
    | error x => rw [hp] at both; cases both
    | ok s =>
      rw [hp] at both
      have hf : s.blocks.foldlM (addBlock rc merge) (named s.name g.clear) = .ok s0 := opt_eq_some.1 both
      have hpre : Pre rc merge (named s.name g.clear) := pre_clear rc merge (named s.name g)
      obtain ⟨s0', a1, a2, a3, a4, _⟩ := addBlocks_ok hpre rfl s.blocks (addBlocks_valid s.blocks _ _ hpre hf)
      rw [hf] at a1
      cases a1
      refine ⟨s.blocks, (fileZones_iff g.name).2 ⟨s, hp, rfl⟩, ?_⟩
      rw [e2.zones]
      refine a4.imp (fun b z hbz => ?_)
      have := hbz.represents
      refine ⟨by rw [e2.zName]; exact this.name, ?_⟩
      rw [e2.fData, e2.nodes, e2.nKey, e2.nP, e2.fNodes, e2.zFaces]
      exact this.faces

end Verif
