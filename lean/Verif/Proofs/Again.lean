import Verif.Proofs.Transform
import Verif.Spec.Again

/-! Transformations at a point which is an existing node: general part. -/

namespace Verif
namespace Grid
variable {F R : Type}

theorem joins_of {g : Grid F R} (m : Mesh g) {x a b : Nat} (hx : x ∈ g.edges) (ha : a ∈ g.eNodes x) (hb : b ∈ g.eNodes x)
    (hab : a ≠ b) : Joins g x a b := by
  obtain ⟨hl, hn, _⟩ := m.edge_nodes x hx
  obtain ⟨u, v, huv⟩ := List.length_eq_two.1 hl
  intro n
  rw [huv] at ha hb hn ⊢
  simp only [List.mem_cons, List.not_mem_nil, or_false] at ha hb ⊢
  rcases ha with rfl | rfl <;> rcases hb with rfl | rfl
  · exact absurd rfl hab
  · exact Iff.rfl
  · exact Or.comm
  · exact absurd rfl hab

/-- The node taken instead of `n`: `q` for `N`. -/
def moved (N q n : Nat) : Nat := if n = N then q else n

theorem moved_self (N q : Nat) : moved N q N = q := if_pos rfl
theorem moved_ne {N : Nat} (q : Nat) {n : Nat} (h : n ≠ N) : moved N q n = n := if_neg h

/-- The replacement which uses `q` instead of the new node `N`. -/
def _root_.Verif.Patch.move (P : Patch) (N q : Nat) : Patch :=
  { P with
    nn := []
    ne := P.ne.map (fun x => (moved N q x.1, x.2))
    nf := P.nf.map (fun x => (moved N q x.1, x.2)) }

theorem fstOf_move (N q : Nat) (l : List (Nat × Nat)) (b : Nat) :
    fstOf (l.map (fun x => (moved N q x.1, x.2))) b = (fstOf l b).map (moved N q) := by
  induction l with
  | nil => rfl
  | cons a l ih =>
    rw [List.map_cons, fstOf_cons, fstOf_cons, ih]
    by_cases h : a.2 = b <;> simp [h]

theorem Plan0.move {P : Patch} {g : Grid F R} (k : Plan0 P g) (N q : Nat) : Plan0 (P.move N q) g where
  df := k.df
  de := k.de
  de_faces := k.de_faces
  ne := fun p hp => by
    obtain ⟨x, hx, rfl⟩ := List.mem_map.1 hp
    exact k.ne x hx
  nf := fun p hp => by
    obtain ⟨x, hx, rfl⟩ := List.mem_map.1 hp
    exact k.nf x hx
  ef := k.ef
  old_edge := k.old_edge
  new_edge := k.new_edge

theorem placeNode_again [DecidableEq R] (rc : Vec F → R) (g : Grid F R) (z : Nat) (p : Vec F) {q : Nat} (hb : rc p ∈ g.bag)
    (hl : ∀ n ∈ g.nodes, n < g.nNext) (hq : q ∈ g.nodes) (hk : g.nKey q = rc p) (hu : ∀ n ∈ g.nodes, g.nKey n = rc p → n = q) :
    g.placeNode rc z p = .ok ({ g with
      nGlo := upd g.nGlo g.nNext 0
      nP := upd g.nP g.nNext p
      nKey := upd g.nKey g.nNext (rc p)
      nEdges := upd g.nEdges g.nNext []
      nFaces := upd g.nFaces g.nNext []
      nBorder := upd g.nBorder g.nNext false
      nNext := g.nNext + 1 }, q) := by
  have ne : ∀ n ∈ g.nodes, n ≠ g.nNext := fun n hn => Nat.ne_of_lt (hl n hn)
  have h1 : (g.newNode rc p).nKey g.nNext = rc p := by simp [newNode]
  have hold : ∀ n ∈ g.nodes, (g.newNode rc p).nKey n = g.nKey n := fun n hn => upd_ne _ _ (ne n hn)
  have hf : (g.newNode rc p).nodes.find? (fun m => decide ((g.newNode rc p).nKey m = rc p)) = some q := by
    cases hx : (g.newNode rc p).nodes.find? (fun m => decide ((g.newNode rc p).nKey m = rc p)) with
    | none =>
      rw [List.find?_eq_none] at hx
      have := hx q hq
      rw [hold q hq] at this
      simp [hk] at this
    | some m =>
      have hm : m ∈ g.nodes := List.mem_of_find?_eq_some hx
      have hp := List.find?_some hx
      rw [decide_eq_true_iff, hold m hm] at hp
      rw [hu m hm hp]
  have h2 : (g.newNode rc p).findNearNode g.nNext = .ok (some q) := by
    unfold findNearNode
    rw [h1, if_pos (show rc p ∈ (g.newNode rc p).bag from hb), hf]
  have h3 : (g.newNode rc p).addNode g.nNext true = .ok (g.newNode rc p, q) := by
    unfold addNode; rw [h2]; rfl
  unfold placeNode
  simp only [h3, res_bind_ok, if_neg (ne q hq)]
  rfl

/-- The replacement by an existing node is a correct one if the node is apart from the removed faces. -/
theorem Plan.move {P : Patch} {g : Grid F R} (k : Plan P g) (m : Mesh g) {N q : Nat} (hnn : P.nn = [N]) (hN : N ∉ g.nodes)
    (hq : q ∈ g.nodes) (q1 : ∀ x ∈ P.ne, x.1 ≠ q) (q2 : ∀ x ∈ P.nf, x.1 ≠ q)
    (hE : ∀ e ∈ P.en, (N, e) ∈ P.ne ∧ ∃ c, c ≠ N ∧ (c, e) ∈ P.ne)
    (hF : ∀ f ∈ P.fn, (N, f) ∈ P.nf ∧ ∃ c e, c ≠ N ∧ (c, f) ∈ P.nf ∧ (c, e) ∈ P.ne)
    (hJ : ∀ c e, (c, e) ∈ P.ne → c ≠ N → ∀ x ∈ g.edges, ¬ Joins g x q c) : Plan (P.move N q) g := by
  have inj : ∀ a b, a ≠ q → b ≠ q → moved N q a = moved N q b → a = b := by
    intro a b ha hb h
    unfold moved at h
    by_cases h1 : a = N <;> by_cases h2 : b = N <;> simp only [h1, h2, if_true, if_false] at h
    · rw [h1, h2]
    · exact absurd h.symm hb
    · exact absurd h ha
    · exact h
  have nod : ∀ l : List (Nat × Nat), (∀ x ∈ l, x.1 ≠ q) → l.Nodup → (l.map (fun x => (moved N q x.1, x.2))).Nodup := by
    intro l hl hn
    refine List.Nodup.map_on ?_ hn
    intro x hx y hy h
    have h1 := congrArg Prod.fst h
    have h2 := congrArg Prod.snd h
    exact Prod.ext (inj _ _ (hl x hx) (hl y hy) h1) h2
  have mem : ∀ l : List (Nat × Nat), (∀ x ∈ l, x.1 ≠ q) → ∀ b n, n ≠ q →
      (n ∈ fstOf l b ↔ moved N q n ∈ fstOf (l.map (fun x => (moved N q x.1, x.2))) b) := by
    intro l hl b n hn
    rw [fstOf_move, List.mem_map]
    constructor
    · intro h; exact ⟨n, h, rfl⟩
    · rintro ⟨x, hx, h⟩
      have hxq := hl _ (mem_fstOf.1 hx)
      rwa [inj x n hxq hn h] at hx
  have same : ∀ l : List (Nat × Nat), (∀ x ∈ l, x.1 ≠ q) → ∀ b b',
      (∀ n, n ∈ fstOf (l.map (fun x => (moved N q x.1, x.2))) b ↔ n ∈ fstOf (l.map (fun x => (moved N q x.1, x.2))) b') →
      ∀ n, n ∈ fstOf l b ↔ n ∈ fstOf l b' := by
    intro l hl b b' h n
    by_cases hn : n = q
    · constructor
      · intro h'; exact absurd hn (hl _ (mem_fstOf.1 h'))
      · intro h'; exact absurd hn (hl _ (mem_fstOf.1 h'))
    · rw [mem l hl b n hn, mem l hl b' n hn]; exact h _
  have mv : ∀ (l : List (Nat × Nat)) (b a a' : Nat), (∀ n, n ∈ fstOf l b ↔ n = a ∨ n = a') →
      ∀ n, n ∈ fstOf (l.map (fun x => (moved N q x.1, x.2))) b ↔ n = moved N q a ∨ n = moved N q a' := by
    intro l b a a' h n
    rw [fstOf_move, List.mem_map]
    constructor
    · rintro ⟨x, hx, rfl⟩
      rcases (h x).1 hx with rfl | rfl
      · exact Or.inl rfl
      · exact Or.inr rfl
    · rintro (rfl | rfl)
      · exact ⟨a, (h a).2 (Or.inl rfl), rfl⟩
      · exact ⟨a', (h a').2 (Or.inr rfl), rfl⟩
  have ends : ∀ x a b, Ends P g x a b → Ends (P.move N q) g x (moved N q a) (moved N q b) := by
    rintro x a b (⟨h1, h2⟩ | ⟨h1, h2, h3⟩)
    · exact Or.inl ⟨h1, mv P.ne x a b h2⟩
    · refine Or.inr ⟨h1, h2, ?_⟩
      have ha : a ≠ N := fun h => hN (h ▸ (m.edge_nodes x h1).2.2 a ((h3 a).2 (Or.inl rfl)))
      have hb : b ≠ N := fun h => hN (h ▸ (m.edge_nodes x h1).2.2 b ((h3 b).2 (Or.inr rfl)))
      rw [moved_ne q ha, moved_ne q hb]; exact h3
  have old : ∀ a, (a ∈ g.nodes ∨ a ∈ P.nn) → moved N q a ∈ g.nodes ∨ moved N q a ∈ (P.move N q).nn := by
    intro a ha
    rcases ha with ha | ha
    · have hx : a ≠ N := fun h => hN (h ▸ ha)
      rw [moved_ne q hx]; exact Or.inl ha
    · rw [hnn, List.mem_singleton] at ha
      rw [ha, moved_self]; exact Or.inl hq
  refine { df := k.df, de := k.de, de_faces := k.de_faces, ne := ⟨?_, nod P.ne q1 k.ne.2⟩, nf := ⟨?_, nod P.nf q2 k.nf.2⟩, ef := k.ef,
           edge2 := ?_, face3 := ?_, old_edge := k.old_edge, new_edge := k.new_edge, tri := ?_, uniq_new := ?_, uniq_old := ?_,
           simple_new := ?_, simple_old := ?_ }
  · intro p hp
    obtain ⟨x, hx, rfl⟩ := List.mem_map.1 hp
    exact ⟨old _ (k.ne.1 x hx).1, (k.ne.1 x hx).2⟩
  · intro p hp
    obtain ⟨x, hx, rfl⟩ := List.mem_map.1 hp
    exact ⟨old _ (k.nf.1 x hx).1, (k.nf.1 x hx).2⟩
  · intro e he
    show (fstOf (P.ne.map _) e).length = 2
    rw [fstOf_move, List.length_map]; exact k.edge2 e he
  · intro f hf
    refine ⟨?_, (k.face3 f hf).2⟩
    show (fstOf (P.nf.map _) f).length = 3
    rw [fstOf_move, List.length_map]; exact (k.face3 f hf).1
  · intro f hf
    obtain ⟨a, b, c, x, y, w, h1, h2, h3, h4, h5⟩ := k.tri f hf
    refine ⟨_, _, _, x, y, w, ?_, h2, ends _ _ _ h3, ends _ _ _ h4, ends _ _ _ h5⟩
    intro n
    show n ∈ fstOf (P.nf.map _) f ↔ _
    rw [fstOf_move, List.mem_map]
    constructor
    · rintro ⟨x, hx, rfl⟩
      rcases (h1 x).1 hx with rfl | rfl | rfl
      · exact Or.inl rfl
      · exact Or.inr (Or.inl rfl)
      · exact Or.inr (Or.inr rfl)
    · rintro (rfl | rfl | rfl)
      · exact ⟨a, (h1 a).2 (Or.inl rfl), rfl⟩
      · exact ⟨b, (h1 b).2 (Or.inr (Or.inl rfl)), rfl⟩
      · exact ⟨c, (h1 c).2 (Or.inr (Or.inr rfl)), rfl⟩
  · intro e he e' he' h
    exact k.uniq_new e he e' he' (same P.ne q1 e e' h)
  · intro e he x hx _ h
    obtain ⟨hNe, c, hcN, hc⟩ := hE e he
    refine hJ c e hc hcN x hx ?_
    have h1 : q ∈ g.eNodes x := (h q).1 (by
      show q ∈ fstOf (P.ne.map _) e
      rw [fstOf_move, List.mem_map]; exact ⟨N, mem_fstOf.2 hNe, moved_self N q⟩)
    have h2 : c ∈ g.eNodes x := (h c).1 (by
      show c ∈ fstOf (P.ne.map _) e
      rw [fstOf_move, List.mem_map]; exact ⟨c, mem_fstOf.2 hc, moved_ne q hcN⟩)
    exact joins_of m hx h1 h2 (fun h => q1 _ hc h.symm)
  · intro f hf h hh e
    exact k.simple_new f hf h hh (same P.nf q2 f h e)
  · intro f hf h hh _ e
    obtain ⟨hNf, c, y, hcN, hc, hy⟩ := hF f hf
    have h1 : q ∈ g.fNodes h := (e q).1 (by
      show q ∈ fstOf (P.nf.map _) f
      rw [fstOf_move, List.mem_map]; exact ⟨N, mem_fstOf.2 hNf, moved_self N q⟩)
    have h2 : c ∈ g.fNodes h := (e c).1 (by
      show c ∈ fstOf (P.nf.map _) f
      rw [fstOf_move, List.mem_map]; exact ⟨c, mem_fstOf.2 hc, moved_ne q hcN⟩)
    have hqc : q ≠ c := fun h => q2 _ hc h.symm
    obtain ⟨x, hx, hxq, hxc⟩ := m.sides h hh q h1 c h2 hqc
    have hxm := (m.face_edges h hh).2.2 x hx
    exact hJ c y hy hcN x hxm (joins_of m hxm hxq hxc hqc)

/-- What is known about the result of a transformation which takes an existing node as the new one. -/
theorem Built.reuses {P : Patch} {rc : Vec F → R} {z N q : Nat} {zfn : List Nat} {g g1 g' : Grid F R}
    (b : Built (P.move N q) rc z zfn g1 g') (d : Deleted P.df P.de g g1) (k : Plan P g) (G : Good rc g) (hnn : P.nn = [N])
    (hN : N ∉ g.nodes) (hq : q ∈ g.nodes) (hz : z ∈ g.zones)
    (ge : ∃ j, (P.en.map g'.eGlo).Perm (P.de.map g.eGlo ++ List.range' g.edges.length j))
    (gf : ∃ j, (P.fn.map g'.fGlo).Perm (P.df.map g.fGlo ++ List.range' g.faces.length j))
    (cv : ∀ n ∈ g.nodes, (∃ f ∈ P.df, n ∈ g.fNodes f) ↔ ∃ f ∈ P.fn, n ∈ fstOf P.nf f)
    (star : ∀ c, (∃ f ∈ P.df, c ∈ g.fNodes f) → ∃ e ∈ P.en, ∀ n, n ∈ fstOf P.ne e ↔ n = N ∨ n = c)
    (rays : ∀ x ∈ P.ne, x.1 ≠ N → ∃ f ∈ P.df, x.1 ∈ g.fNodes f)
    (hE : ∀ e ∈ P.en, (N, e) ∈ P.ne ∧ ∃ c, c ≠ N ∧ (c, e) ∈ P.ne)
    (hF : ∀ f ∈ P.fn, (N, f) ∈ P.nf ∧ ∃ c e, c ≠ N ∧ (c, f) ∈ P.nf ∧ (c, e) ∈ P.ne) (hne : P.fn ≠ [])
    (len : P.en.length + P.df.length = P.de.length + P.fn.length + 1) :
    Reuses rc q P.df P.de P.en P.fn z g g' := by
  have k0 : Plan0 (P.move N q) g := k.base.move N q
  have p := b.patched d k0 G.alloc
  have s := b.sound d k0 G hz ge gf
  obtain ⟨_, fr2, fr3⟩ := b.fresh d G.alloc
  have hqN : q ≠ N := fun h => hN (h ▸ hq)
  have edge : ∀ e ∈ P.en, ∀ c, (∀ n, n ∈ fstOf P.ne e ↔ n = N ∨ n = c) → c ≠ N → ∀ n, n ∈ g'.eNodes e ↔ n = q ∨ n = c := by
    intro e he c h hc n
    rw [p.eNodes_new e he]
    show n ∈ fstOf (P.ne.map _) e ↔ _
    rw [fstOf_move, List.mem_map]
    constructor
    · rintro ⟨x, hx, rfl⟩
      rcases (h x).1 hx with rfl | rfl
      · exact Or.inl (moved_self _ _)
      · exact Or.inr (moved_ne _ hc)
    · rintro (rfl | rfl)
      · exact ⟨N, (h N).2 (Or.inl rfl), moved_self _ _⟩
      · exact ⟨n, (h n).2 (Or.inr rfl), moved_ne _ hc⟩
  have cornerN : ∀ f ∈ P.df, ∀ c ∈ g.fNodes f, c ≠ N := fun f hf c hc h =>
    hN (h ▸ (G.mesh.face_nodes f (k.df.1 f hf)).2.2 c hc)
  have back : Unjoined g q P.df → Good rc g' := by
    intro A
    refine b.good d (k.move G.mesh hnn hN hq ?_ ?_ hE hF ?_) G hz ge gf
    · intro x hx h
      obtain ⟨f, hf, hc⟩ := rays x hx (h ▸ hqN)
      exact (A f hf).1 (h ▸ hc)
    · intro x hx h
      obtain ⟨f, hf, hc⟩ := (cv q hq).2 ⟨x.2, (k.nf.1 x hx).2, mem_fstOf.2 (h ▸ hx)⟩
      exact (A f hf).1 hc
    · intro c e hc hcN
      obtain ⟨f, hf, h⟩ := rays (c, e) hc hcN
      exact (A f hf).2 c h
  have there : Mesh g' → Unjoined g q P.df := by
    intro m
    have h1 : ∀ f ∈ P.df, q ∉ g.fNodes f := by
      intro f hf hc
      obtain ⟨e, he, h⟩ := star q ⟨f, hf, hc⟩
      have hn := edge e he q h hqN
      obtain ⟨hl, hnd, _⟩ := m.edge_nodes e (p.mem_edges.2 (Or.inr he))
      obtain ⟨u, v, huv⟩ := List.length_eq_two.1 hl
      rw [huv] at hn hnd
      have hu := (hn u).1 (by simp)
      have hv := (hn v).1 (by simp)
      rw [or_self] at hu hv
      simp [hu, hv] at hnd
    intro f hf
    refine ⟨h1 f hf, ?_⟩
    intro c hc x hx hj
    obtain ⟨e, he, h⟩ := star c ⟨f, hf, hc⟩
    have hn := edge e he c h (cornerN f hf c hc)
    have hxd : x ∉ P.de := by
      intro hd
      obtain ⟨y, hy⟩ : ∃ y, y ∈ g.eFaces x := by
        apply List.exists_mem_of_length_pos
        rcases (G.mesh.edge_faces x hx).1 with h | h <;> omega
      obtain ⟨hyf, hxy⟩ := (G.mesh.edge_face x hx y).1 hy
      exact h1 y (k.de_faces x hd y hyf hxy) (G.mesh.edge_in_face y hyf x hxy q ((hj q).2 (Or.inl rfl)))
    have hxe := m.edge_unique x (p.mem_edges.2 (Or.inl ⟨hx, hxd⟩)) e (p.mem_edges.2 (Or.inr he)) (fun n => by
      rw [p.eNodes x hx hxd, hn n]; exact hj n)
    exact fr2 e he (hxe ▸ hx)
  have hnl : ∀ n ∈ g.nodes, n < g1.nNext := fun n hn => by rw [d.nNext]; exact G.alloc.nodes n hn
  have hel : ∀ n ∈ g.edges, n < g1.eNext := fun n hn => by rw [d.eNext]; exact G.alloc.edges n hn
  have hfl : ∀ n ∈ g.faces, n < g1.fNext := fun n hn => by rw [d.fNext]; exact G.alloc.faces n hn
  have nodes : g'.nodes = g.nodes := by rw [p.nodes]; exact List.append_nil _
  refine { nodes := ⟨nodes, ?_⟩, swaps := ?_, edges := ?_, faces := ?_, zones := ⟨by rw [b.zones, d.zones], s.zones⟩, glo := s.glo,
           euler := ?_, mesh := ⟨there, fun A => (back A).mesh⟩, good := back, lists := ?_ }
  · intro n hn
    exact ⟨by rw [b.nP n (hnl n hn), d.nP], by rw [b.nGlo n (hnl n hn), d.nGlo]⟩
  · refine ⟨fun _ => by rw [nodes]; simp, fun _ => p.mem_edges, fun _ => p.mem_faces, ?_, fr2, fr3⟩
    intro n hn; cases hn
  · intro e he hd
    exact ⟨p.eNodes e he hd, by rw [b.eGlo e (hel e he), d.eGlo]⟩
  · intro f hf hd
    exact ⟨p.fNodes f hf hd, p.fEdges f hf hd, by rw [b.fData f (hfl f hf), d.fData],
      by rw [b.fZone f (hfl f hf), d.fZone], by rw [b.fGlo f (hfl f hf), d.fGlo]⟩
  · have l1 := k.length_df G.mesh
    have l2 := k.length_de G.mesh
    have l3 : g'.faces.length = (without g.faces P.df).length + P.fn.length := by
      rw [b.faces, List.length_append, d.faces]; rfl
    have l4 : g'.edges.length = (without g.edges P.de).length + P.en.length := by
      rw [b.edges, List.length_append, d.edges]; rfl
    unfold euler
    rw [nodes]; omega
  · intro L hs
    constructor
    · intro L'
      have h1 := L'.nodes z (by rw [b.zones, d.zones]; exact hz)
      have h2 : g'.zNodes z = g.zNodes z := by
        rw [b.zNodes, d.zNodes, if_pos rfl]; exact List.append_nil _
      rw [← h2, h1, List.mem_filter]
      refine ⟨by rw [nodes]; exact hq, ?_⟩
      obtain ⟨f, hf⟩ := List.exists_mem_of_ne_nil _ hne
      rw [List.any_eq_true]
      refine ⟨f, ?_, ?_⟩
      · rw [b.zFaces, if_pos rfl]
        exact List.mem_append_right _ (b.zfn_perm.mem_iff.2 hf)
      · rw [List.contains_iff_mem, p.fNodes_new f hf]
        show q ∈ fstOf (P.nf.map _) f
        rw [fstOf_move, List.mem_map]
        exact ⟨N, mem_fstOf.2 (hF f hf).1, moved_self _ _⟩
    · intro hqz
      refine b.zoneLists d k0 G L hs ?_ (fun n hn => by cases hn)
      intro n hn
      by_cases h : n = q
      · refine Or.inr ⟨?_, h ▸ hqz⟩
        obtain ⟨f, hf⟩ := List.exists_mem_of_ne_nil _ hne
        refine ⟨f, hf, ?_⟩
        show n ∈ fstOf (P.nf.map _) f
        rw [fstOf_move, List.mem_map, h]
        exact ⟨N, mem_fstOf.2 (hF f hf).1, moved_self _ _⟩
      · refine Or.inl ((cv n hn).trans ?_)
        have hnN : n ≠ N := fun h => hN (h ▸ hn)
        constructor
        · rintro ⟨f, hf, hc⟩
          refine ⟨f, hf, ?_⟩
          show n ∈ fstOf (P.nf.map _) f
          rw [fstOf_move, List.mem_map]
          exact ⟨n, hc, moved_ne _ hnN⟩
        · rintro ⟨f, hf, hc⟩
          change n ∈ fstOf (P.nf.map _) f at hc
          rw [fstOf_move, List.mem_map] at hc
          obtain ⟨x, hx, hxn⟩ := hc
          refine ⟨f, hf, ?_⟩
          unfold moved at hxn
          split at hxn
          · exact absurd hxn.symm h
          · rw [← hxn]; exact hx

theorem Reuses.isFace {rc : Vec F → R} {N q z : Nat} {P : Patch} {zfn : List Nat} {g1 g' : Grid F R}
    (b : Built (P.move N q) rc z zfn g1 g') {f a b' c : Nat} {data : List (Str × F)} (hf : f ∈ P.fn)
    (hc : fstOf (P.move N q).nf f = [a, b', c]) (hd : g'.fData f = data) : IsFace g' f a b' c data z :=
  ⟨by rw [b.faces]; exact List.mem_append_right _ hf, fun n => by rw [b.fNodes_new f hf, hc]; simp, hd, b.fZone_new f hf⟩

end Grid
end Verif
