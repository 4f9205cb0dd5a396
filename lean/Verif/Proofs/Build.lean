import Verif.Proofs.Delete
import Mathlib.Data.List.Perm.Basic
import Mathlib.Data.List.Perm.Subperm

/-! Deleting and then building new objects: when the result is a consistent grid again. -/

namespace Verif
namespace Grid
variable {F R : Type}

/-- `g'` is `g1` with the new objects of `P` added, linked, and put into zone `z`; the new faces are added to the zone
in the order `zfn`. -/
structure Built (P : Patch) (rc : Vec F → R) (z : Nat) (zfn : List Nat) (g1 g' : Grid F R) : Prop where
  nodes : g'.nodes = g1.nodes ++ P.nn
  edges : g'.edges = g1.edges ++ P.en
  faces : g'.faces = g1.faces ++ P.fn
  nEdges : ∀ n < g1.nNext, g'.nEdges n = g1.nEdges n ++ sndOf P.ne n
  nEdges_new : ∀ n ∈ P.nn, g'.nEdges n = sndOf P.ne n
  nFaces : ∀ n < g1.nNext, g'.nFaces n = g1.nFaces n ++ sndOf P.nf n
  nFaces_new : ∀ n ∈ P.nn, g'.nFaces n = sndOf P.nf n
  eNodes : ∀ e < g1.eNext, g'.eNodes e = g1.eNodes e ++ fstOf P.ne e
  eNodes_new : ∀ e ∈ P.en, g'.eNodes e = fstOf P.ne e
  eFaces : ∀ e < g1.eNext, g'.eFaces e = g1.eFaces e ++ sndOf P.ef e
  eFaces_new : ∀ e ∈ P.en, g'.eFaces e = sndOf P.ef e
  fNodes : ∀ f < g1.fNext, g'.fNodes f = g1.fNodes f ++ fstOf P.nf f
  fNodes_new : ∀ f ∈ P.fn, g'.fNodes f = fstOf P.nf f
  fEdges : ∀ f < g1.fNext, f ∉ P.df → g'.fEdges f = g1.fEdges f ++ fstOf P.ef f
  fEdges_new : ∀ f ∈ P.fn, g'.fEdges f = fstOf P.ef f
  nn : P.nn.Nodup ∧ ∀ n ∈ P.nn, g1.nNext ≤ n ∧ n < g'.nNext
  en : P.en = List.range' g1.eNext P.en.length
  fn : P.fn.Perm (List.range' g1.fNext P.fn.length)
  zfn_perm : zfn.Perm P.fn
  nNext : g1.nNext + P.nn.length ≤ g'.nNext
  eNext : g'.eNext = g1.eNext + P.en.length
  fNext : g'.fNext = g1.fNext + P.fn.length
  zNext : g'.zNext = g1.zNext
  zones : g'.zones = g1.zones
  zFaces : ∀ w, g'.zFaces w = g1.zFaces w ++ if w = z then zfn else []
  zNodes : ∀ w, g'.zNodes w = g1.zNodes w ++ if w = z then P.nn else []
  zEdges : ∀ w, g'.zEdges w = g1.zEdges w ++ if w = z then P.en else []
  fZone : ∀ f < g1.fNext, g'.fZone f = g1.fZone f
  fZone_new : ∀ f ∈ P.fn, g'.fZone f = some z
  fData : ∀ f < g1.fNext, g'.fData f = g1.fData f
  nP : ∀ n < g1.nNext, g'.nP n = g1.nP n
  nKey : ∀ n < g1.nNext, g'.nKey n = g1.nKey n
  nGlo : ∀ n < g1.nNext, g'.nGlo n = g1.nGlo n
  nBorder : ∀ n < g1.nNext, g'.nBorder n = g1.nBorder n
  eGlo : ∀ e < g1.eNext, g'.eGlo e = g1.eGlo e
  fGlo : ∀ f < g1.fNext, g'.fGlo f = g1.fGlo f
  key_new : ∀ n ∈ P.nn, g'.nKey n = rc (g'.nP n)
  key_inj : ∀ n ∈ P.nn, ∀ m ∈ P.nn, g'.nKey n = g'.nKey m → n = m
  key_fresh : ∀ n ∈ P.nn, g'.nKey n ∉ g1.bag
  bag : ∀ k, k ∈ g'.bag ↔ k ∈ g1.bag ∨ ∃ n ∈ P.nn, g'.nKey n = k
  glo_nodes : P.nn.map g'.nGlo = List.range' g1.nodes.length P.nn.length
  name : g'.name = g1.name
  borderCnt : g'.borderCnt = g1.borderCnt
  zId : g'.zId = g1.zId
  zName : g'.zName = g1.zName
  zFixed : g'.zFixed = g1.zFixed

/-- Ends of an old or new edge. -/
def Ends (P : Patch) (g : Grid F R) (e a b : Nat) : Prop :=
  (e ∈ P.en ∧ ∀ n, n ∈ fstOf P.ne e ↔ n = a ∨ n = b) ∨ (e ∈ g.edges ∧ e ∉ P.de ∧ ∀ n, n ∈ g.eNodes e ↔ n = a ∨ n = b)

/-- What has to be checked about a replacement. -/
structure Plan (P : Patch) (g : Grid F R) : Prop where
  df : (∀ f ∈ P.df, f ∈ g.faces) ∧ P.df.Nodup
  de : (∀ e ∈ P.de, e ∈ g.edges) ∧ P.de.Nodup
  de_faces : ∀ e ∈ P.de, ∀ f ∈ g.faces, e ∈ g.fEdges f → f ∈ P.df
  ne : (∀ p ∈ P.ne, (p.1 ∈ g.nodes ∨ p.1 ∈ P.nn) ∧ p.2 ∈ P.en) ∧ P.ne.Nodup
  nf : (∀ p ∈ P.nf, (p.1 ∈ g.nodes ∨ p.1 ∈ P.nn) ∧ p.2 ∈ P.fn) ∧ P.nf.Nodup
  ef : (∀ p ∈ P.ef, ((p.1 ∈ g.edges ∧ p.1 ∉ P.de) ∨ p.1 ∈ P.en) ∧ p.2 ∈ P.fn) ∧ P.ef.Nodup
  edge2 : ∀ e ∈ P.en, (fstOf P.ne e).length = 2
  face3 : ∀ f ∈ P.fn, (fstOf P.nf f).length = 3 ∧ (fstOf P.ef f).length = 3
  old_edge : ∀ e ∈ g.edges, e ∉ P.de → ((g.eFaces e).filter (fun f => decide (f ∈ P.df))).length = (sndOf P.ef e).length
  new_edge : ∀ e ∈ P.en, (sndOf P.ef e).length = 1 ∨ (sndOf P.ef e).length = 2
  tri : ∀ f ∈ P.fn, ∃ a b c x y w, (∀ n, n ∈ fstOf P.nf f ↔ n = a ∨ n = b ∨ n = c) ∧
    (∀ e, e ∈ fstOf P.ef f ↔ e = x ∨ e = y ∨ e = w) ∧ Ends P g x a b ∧ Ends P g y b c ∧ Ends P g w a c
  uniq_new : ∀ e ∈ P.en, ∀ e' ∈ P.en, (∀ n, n ∈ fstOf P.ne e ↔ n ∈ fstOf P.ne e') → e = e'
  uniq_old : ∀ e ∈ P.en, ∀ e' ∈ g.edges, e' ∉ P.de → ¬ (∀ n, n ∈ fstOf P.ne e ↔ n ∈ g.eNodes e')
  simple_new : ∀ f ∈ P.fn, ∀ h ∈ P.fn, (∀ n, n ∈ fstOf P.nf f ↔ n ∈ fstOf P.nf h) → f = h
  simple_old : ∀ f ∈ P.fn, ∀ h ∈ g.faces, h ∉ P.df → ¬ (∀ n, n ∈ fstOf P.nf f ↔ n ∈ g.fNodes h)

/-- The part of `Plan` which does not depend on where the new edges end. -/
structure Plan0 (P : Patch) (g : Grid F R) : Prop where
  df : (∀ f ∈ P.df, f ∈ g.faces) ∧ P.df.Nodup
  de : (∀ e ∈ P.de, e ∈ g.edges) ∧ P.de.Nodup
  de_faces : ∀ e ∈ P.de, ∀ f ∈ g.faces, e ∈ g.fEdges f → f ∈ P.df
  ne : ∀ p ∈ P.ne, p.2 ∈ P.en
  nf : ∀ p ∈ P.nf, p.2 ∈ P.fn
  ef : ∀ p ∈ P.ef, ((p.1 ∈ g.edges ∧ p.1 ∉ P.de) ∨ p.1 ∈ P.en) ∧ p.2 ∈ P.fn
  old_edge : ∀ e ∈ g.edges, e ∉ P.de → ((g.eFaces e).filter (fun f => decide (f ∈ P.df))).length = (sndOf P.ef e).length
  new_edge : ∀ e ∈ P.en, (sndOf P.ef e).length = 1 ∨ (sndOf P.ef e).length = 2

theorem Plan.base {P : Patch} {g : Grid F R} (k : Plan P g) : Plan0 P g where
  df := k.df
  de := k.de
  de_faces := k.de_faces
  ne := fun p hp => (k.ne.1 p hp).2
  nf := fun p hp => (k.nf.1 p hp).2
  ef := k.ef.1
  old_edge := k.old_edge
  new_edge := k.new_edge

instance {P : Patch} {g : Grid F R} : Coe (Plan P g) (Plan0 P g) := ⟨Plan.base⟩

/-- What is kept in any case, whether or not the new edges and faces fit into the grid. -/
structure Sound (rc : Vec F → R) (g : Grid F R) : Prop where
  zones : ZonesOk g
  zalloc : ZonesAlloc g
  alloc : Alloc g
  merged : Merged rc g
  glo : GloPerm g

variable {P : Patch} {rc : Vec F → R} {z : Nat} {zfn : List Nat} {g g1 g' : Grid F R}

theorem Built.nn_ge (b : Built P rc z zfn g1 g') {n : Nat} (h : n ∈ P.nn) : g1.nNext ≤ n ∧ n < g'.nNext := b.nn.2 n h
theorem Built.en_ge (b : Built P rc z zfn g1 g') {n : Nat} (h : n ∈ P.en) : g1.eNext ≤ n ∧ n < g'.eNext := by
  rw [b.en, List.mem_range'_1] at h; have := b.eNext; omega
theorem Built.fn_ge (b : Built P rc z zfn g1 g') {n : Nat} (h : n ∈ P.fn) : g1.fNext ≤ n ∧ n < g'.fNext := by
  rw [b.fn.mem_iff, List.mem_range'_1] at h; have := b.fNext; omega

theorem fstOf_eq_nil {l : List (Nat × Nat)} {b : Nat} (h : ∀ p ∈ l, p.2 ≠ b) : fstOf l b = [] := by
  rw [List.eq_nil_iff_forall_not_mem]
  intro a ha
  exact h _ (mem_fstOf.1 ha) rfl

theorem Built.patched (b : Built P rc z zfn g1 g') (d : Deleted P.df P.de g g1) (k : Plan0 P g) (al : Alloc g) : Patched P g g' where
  nodes := by rw [b.nodes, d.nodes]
  edges := by rw [b.edges, d.edges]
  faces := by rw [b.faces, d.faces]
  nEdges := fun n hn => by rw [b.nEdges n (by rw [d.nNext]; exact al.nodes n hn), d.nEdges n hn]
  nEdges_new := b.nEdges_new
  nFaces := fun n hn => by rw [b.nFaces n (by rw [d.nNext]; exact al.nodes n hn), d.nFaces n hn]
  nFaces_new := b.nFaces_new
  eNodes := fun e he _ => by
    have h1 := al.edges e he
    rw [b.eNodes e (by rw [d.eNext]; exact h1), d.eNodes, fstOf_eq_nil, List.append_nil]
    intro p hp h2
    have := (b.en_ge (k.ne p hp)).1
    rw [d.eNext] at this; omega
  eNodes_new := b.eNodes_new
  eFaces := fun e he hd => by rw [b.eFaces e (by rw [d.eNext]; exact al.edges e he), d.eFaces e he hd]
  eFaces_new := b.eFaces_new
  fNodes := fun f hf _ => by
    have h1 := al.faces f hf
    rw [b.fNodes f (by rw [d.fNext]; exact h1), d.fNodes, fstOf_eq_nil, List.append_nil]
    intro p hp h2
    have := (b.fn_ge (k.nf p hp)).1
    rw [d.fNext] at this; omega
  fNodes_new := b.fNodes_new
  fEdges := fun f hf hd => by
    have h1 := al.faces f hf
    rw [b.fEdges f (by rw [d.fNext]; exact h1) hd, d.fEdges f hf hd, fstOf_eq_nil, List.append_nil]
    · refine List.filter_eq_self.2 ?_
      intro e he
      simp only [decide_eq_true_eq]
      exact fun hde => hd (k.de_faces e hde f hf he)
    · intro p hp h2
      have := (b.fn_ge (k.ef p hp).2).1
      rw [d.fNext] at this; omega
  fEdges_new := b.fEdges_new

theorem Built.fresh (b : Built P rc z zfn g1 g') (d : Deleted P.df P.de g g1) (al : Alloc g) :
    (∀ n ∈ P.nn, n ∉ g.nodes) ∧ (∀ e ∈ P.en, e ∉ g.edges) ∧ (∀ f ∈ P.fn, f ∉ g.faces) := by
  refine ⟨fun n hn h => ?_, fun n hn h => ?_, fun n hn h => ?_⟩
  · have := (b.nn_ge hn).1; have := al.nodes n h; rw [d.nNext] at *; omega
  · have := (b.en_ge hn).1; have := al.edges n h; rw [d.eNext] at *; omega
  · have := (b.fn_ge hn).1; have := al.faces n h; rw [d.fNext] at *; omega

theorem Built.patchOk (b : Built P rc z zfn g1 g') (d : Deleted P.df P.de g g1) (k : Plan P g) (al : Alloc g) :
    PatchOk P g g' := by
  have p := b.patched d k al
  obtain ⟨fr1, fr2, fr3⟩ := b.fresh d al
  have ends : ∀ {e a b}, Ends P g e a b → ∀ n, n ∈ g'.eNodes e ↔ n = a ∨ n = b := by
    intro e a b' h
    rcases h with ⟨h1, h2⟩ | ⟨h1, h2, h3⟩
    · rw [p.eNodes_new e h1]; exact h2
    · rw [p.eNodes e h1 h2]; exact h3
  refine {
    de := k.de_faces
    nn := ⟨fr1, b.nn.1⟩
    en := ⟨fr2, by rw [b.en]; exact List.nodup_range'⟩
    fn := ⟨fr3, b.fn.nodup_iff.2 List.nodup_range'⟩
    ne := ⟨fun q hq => ⟨p.mem_nodes.2 (k.ne.1 q hq).1, (k.ne.1 q hq).2⟩, k.ne.2⟩
    nf := ⟨fun q hq => ⟨p.mem_nodes.2 (k.nf.1 q hq).1, (k.nf.1 q hq).2⟩, k.nf.2⟩
    ef := ⟨fun q hq => ⟨p.mem_edges.2 (k.ef.1 q hq).1, (k.ef.1 q hq).2⟩, k.ef.2⟩
    edge2 := k.edge2
    face3 := k.face3
    old_edge := k.old_edge
    new_edge := k.new_edge
    sides := ?_
    inface := ?_
    uniq := ?_ }
  · intro f hf u hu v hv huv
    obtain ⟨a, b', c, x, y, w, h1, h2, h3, h4, h5⟩ := k.tri f hf
    rw [h1] at hu hv
    have hx := ends h3
    have hy := ends h4
    have hw := ends h5
    rcases hu with rfl | rfl | rfl <;> rcases hv with rfl | rfl | rfl
    · exact absurd rfl huv
    · exact ⟨x, (h2 x).2 (by simp), (hx _).2 (by simp), (hx _).2 (by simp)⟩
    · exact ⟨w, (h2 w).2 (by simp), (hw _).2 (by simp), (hw _).2 (by simp)⟩
    · exact ⟨x, (h2 x).2 (by simp), (hx _).2 (by simp), (hx _).2 (by simp)⟩
    · exact absurd rfl huv
    · exact ⟨y, (h2 y).2 (by simp), (hy _).2 (by simp), (hy _).2 (by simp)⟩
    · exact ⟨w, (h2 w).2 (by simp), (hw _).2 (by simp), (hw _).2 (by simp)⟩
    · exact ⟨y, (h2 y).2 (by simp), (hy _).2 (by simp), (hy _).2 (by simp)⟩
    · exact absurd rfl huv
  · intro f hf e he n hn
    obtain ⟨a, b', c, x, y, w, h1, h2, h3, h4, h5⟩ := k.tri f hf
    rw [h1]
    rw [h2] at he
    rcases he with rfl | rfl | rfl
    · have := (ends h3 n).1 hn; tauto
    · have := (ends h4 n).1 hn; tauto
    · have := (ends h5 n).1 hn; tauto
  · intro e he e' he' hs
    rw [p.eNodes_new e he] at hs
    rcases p.mem_edges.1 he' with ⟨h1, h2⟩ | h1
    · rw [p.eNodes e' h1 h2] at hs
      exact absurd hs (k.uniq_old e he e' h1 h2)
    · rw [p.eNodes_new e' h1] at hs
      exact k.uniq_new e he e' h1 hs

theorem perm_without {l d : List Nat} (hl : l.Nodup) (hd : d.Nodup) (hs : ∀ a ∈ d, a ∈ l) : (without l d ++ d).Perm l := by
  refine (List.perm_ext_iff_of_nodup ?_ hl).2 ?_
  · rw [List.nodup_append]
    refine ⟨hl.filter _, hd, ?_⟩
    rintro a ha b hb rfl
    exact (mem_without.1 ha).2 hb
  · intro a
    rw [List.mem_append, mem_without]
    by_cases h : a ∈ d
    · simp [h, hs a h]
    · simp [h]

theorem glo_patch {l d x : List Nat} {gl gl' : Nat → Nat} {k : Nat} (hg : (l.map gl).Perm (List.range l.length))
    (hl : l.Nodup) (hd : d.Nodup) (hs : ∀ a ∈ d, a ∈ l) (old : ∀ a ∈ l, gl' a = gl a)
    (hx : (x.map gl').Perm (d.map gl ++ List.range' l.length k)) :
    ((without l d ++ x).map gl').Perm (List.range (without l d ++ x).length) := by
  have h1 := perm_without hl hd hs
  have h2 : (without l d).map gl' = (without l d).map gl := by
    refine List.map_congr_left ?_
    intro a ha; exact old a (mem_without.1 ha).1
  have hlen : (without l d ++ x).length = l.length + k := by
    have a := h1.length_eq
    have b := hx.length_eq
    simp at a b ⊢; omega
  rw [List.map_append, h2, hlen]
  have h3 : List.range (l.length + k) = List.range l.length ++ List.range' l.length k := by
    rw [List.range_eq_range', List.range_eq_range', ← List.range'_append]
    simp
  rw [h3]
  refine (List.Perm.append_left _ hx).trans ?_
  rw [← List.append_assoc, ← List.map_append]
  exact List.Perm.append_right _ ((h1.map gl).trans hg)

theorem flatMap_upd_append {zs : List Nat} {m m' : Nat → List Nat} {z : Nat} {x : List Nat} (hz : z ∈ zs) (hn : zs.Nodup)
    (h : ∀ w ∈ zs, m' w = m w ++ if w = z then x else []) : (zs.flatMap m').Perm (zs.flatMap m ++ x) := by
  induction zs with
  | nil => cases hz
  | cons a zs ih =>
    rw [List.nodup_cons] at hn
    have ha := h a List.mem_cons_self
    rw [List.flatMap_cons, List.flatMap_cons]
    by_cases e : a = z
    · subst e
      have hr : zs.flatMap m' = zs.flatMap m := by
        refine List.flatMap_congr ?_
        intro w hw
        have : w ≠ a := by rintro rfl; exact hn.1 hw
        rw [h w (List.mem_cons_of_mem _ hw), if_neg this, List.append_nil]
      rw [hr, ha, if_pos rfl, List.append_assoc, List.append_assoc]
      exact List.Perm.append_left _ List.perm_append_comm
    · rw [ha, if_neg e, List.append_nil, List.append_assoc]
      refine List.Perm.append_left _ (ih ?_ hn.2 (fun w hw => h w (List.mem_cons_of_mem _ hw)))
      rcases List.mem_cons.1 hz with h' | h'
      · exact absurd h'.symm e
      · exact h'

theorem flatMap_without (zs : List Nat) (m : Nat → List Nat) (d : List Nat) :
    zs.flatMap (fun w => without (m w) d) = without (zs.flatMap m) d := by
  unfold without; rw [List.filter_flatMap]

theorem Built.sound (b : Built P rc z zfn g1 g') (d : Deleted P.df P.de g g1) (k : Plan0 P g) (G : Good rc g) (hz : z ∈ g.zones)
    (ge : ∃ j, (P.en.map g'.eGlo).Perm (P.de.map g.eGlo ++ List.range' g.edges.length j))
    (gf : ∃ j, (P.fn.map g'.fGlo).Perm (P.df.map g.fGlo ++ List.range' g.faces.length j)) : Sound rc g' := by
  have p := b.patched d k G.alloc
  obtain ⟨fr1, fr2, fr3⟩ := b.fresh d G.alloc
  have kold : ∀ n ∈ g.nodes, g'.nKey n = g.nKey n := fun n hn => by
    rw [b.nKey n (by rw [d.nNext]; exact G.alloc.nodes n hn), d.nKey]
  have zf : ∀ w ∈ g.zones, g'.zFaces w = without (g.zFaces w) P.df ++ if w = z then zfn else [] := fun w hw => by
    rw [b.zFaces, d.zFaces w hw]
  refine { zones := ?_, zalloc := ?_, alloc := ?_, merged := ?_, glo := ?_ }
  · refine ⟨by rw [b.zones, d.zones]; exact G.zones.zones_nodup, ?_, ?_⟩
    · rw [b.zones, d.zones]
      refine (flatMap_upd_append hz G.zones.zones_nodup zf).trans ?_
      rw [flatMap_without, p.faces]
      exact List.Perm.append (G.zones.partition.filter _) b.zfn_perm
    · intro w hw f hf
      rw [b.zones, d.zones] at hw
      rw [zf w hw, List.mem_append, mem_without] at hf
      rcases hf with ⟨hf, hd⟩ | hf
      · have hff : f ∈ g.faces := G.zones.partition.mem_iff.1 (List.mem_flatMap.2 ⟨w, hw, hf⟩)
        rw [b.fZone f (by rw [d.fNext]; exact G.alloc.faces f hff), d.fZone]
        exact G.zones.points w hw f hf
      · split at hf
        · next h => subst h; exact b.fZone_new f (b.zfn_perm.mem_iff.1 hf)
        · cases hf
  · intro w hw
    rw [b.zones, d.zones] at hw
    rw [b.zNext, d.zNext]; exact G.zalloc w hw
  · refine ⟨?_, ?_, ?_⟩
    · intro n hn
      rcases p.mem_nodes.1 hn with h | h
      · have := G.alloc.nodes n h; have := b.nNext; rw [d.nNext] at this; omega
      · exact (b.nn_ge h).2
    · intro n hn
      rcases p.mem_edges.1 hn with ⟨h, _⟩ | h
      · have := G.alloc.edges n h; have := b.eNext; rw [d.eNext] at this; omega
      · exact (b.en_ge h).2
    · intro n hn
      rcases p.mem_faces.1 hn with ⟨h, _⟩ | h
      · have := G.alloc.faces n h; have := b.fNext; rw [d.fNext] at this; omega
      · exact (b.fn_ge h).2
  · refine ⟨?_, ?_, ?_⟩
    · intro n hn
      rcases p.mem_nodes.1 hn with h | h
      · rw [kold n h, b.nP n (by rw [d.nNext]; exact G.alloc.nodes n h), d.nP]; exact G.merged.key n h
      · exact b.key_new n h
    · have cross : ∀ n ∈ g.nodes, ∀ m ∈ P.nn, g'.nKey n ≠ g'.nKey m := by
        intro n hn m hm e
        apply b.key_fresh m hm
        rw [d.bag, G.merged.bag]
        exact ⟨n, hn, by rw [← kold n hn, e]⟩
      intro n hn m hm e
      rcases p.mem_nodes.1 hn with h | h <;> rcases p.mem_nodes.1 hm with h' | h'
      · rw [kold n h, kold m h'] at e; exact G.merged.inj n h m h' e
      · exact absurd e (cross n h m h')
      · exact absurd e.symm (cross m h' n h)
      · exact b.key_inj n h m h' e
    · intro x
      rw [b.bag, d.bag, G.merged.bag]
      constructor
      · rintro (⟨n, hn, e⟩ | ⟨n, hn, e⟩)
        · exact ⟨n, p.mem_nodes.2 (Or.inl hn), by rw [kold n hn, e]⟩
        · exact ⟨n, p.mem_nodes.2 (Or.inr hn), e⟩
      · rintro ⟨n, hn, e⟩
        rcases p.mem_nodes.1 hn with h | h
        · exact Or.inl ⟨n, h, by rw [← kold n h, e]⟩
        · exact Or.inr ⟨n, h, e⟩
  · refine ⟨?_, ?_, ?_⟩
    · rw [p.nodes, List.map_append, List.length_append, b.glo_nodes, d.nodes]
      have : List.range (g.nodes.length + P.nn.length) = List.range g.nodes.length ++ List.range' g.nodes.length P.nn.length := by
        rw [List.range_eq_range', List.range_eq_range', ← List.range'_append]; simp
      rw [this]
      refine List.Perm.append_right _ ?_
      rw [List.map_congr_left (g := g.nGlo)]
      · exact G.glo.nodes
      · intro n hn
        rw [b.nGlo n (by rw [d.nNext]; exact G.alloc.nodes n hn), d.nGlo]
    · obtain ⟨j, ge⟩ := ge
      rw [p.edges]
      refine glo_patch G.glo.edges G.mesh.edges_nodup k.de.2 k.de.1 ?_ ge
      intro n hn
      rw [b.eGlo n (by rw [d.eNext]; exact G.alloc.edges n hn), d.eGlo]
    · obtain ⟨j, gf⟩ := gf
      rw [p.faces]
      refine glo_patch G.glo.faces G.mesh.faces_nodup k.df.2 k.df.1 ?_ gf
      intro n hn
      rw [b.fGlo n (by rw [d.fNext]; exact G.alloc.faces n hn), d.fGlo]

theorem Built.good (b : Built P rc z zfn g1 g') (d : Deleted P.df P.de g g1) (k : Plan P g) (G : Good rc g) (hz : z ∈ g.zones)
    (ge : ∃ j, (P.en.map g'.eGlo).Perm (P.de.map g.eGlo ++ List.range' g.edges.length j))
    (gf : ∃ j, (P.fn.map g'.fGlo).Perm (P.df.map g.fGlo ++ List.range' g.faces.length j)) : Good rc g' := by
  have p := b.patched d k G.alloc
  have po := b.patchOk d k G.alloc
  have s := b.sound d k G hz ge gf
  refine { mesh := p.mesh G.mesh po, zones := s.zones, zalloc := s.zalloc, alloc := s.alloc, merged := s.merged, simple := ?_,
           glo := s.glo }
  · intro f hf h hh e
    rcases p.mem_faces.1 hf with ⟨a, a'⟩ | a <;> rcases p.mem_faces.1 hh with ⟨c, c'⟩ | c
    · rw [p.fNodes f a a', p.fNodes h c c'] at e; exact G.simple f a h c e
    · rw [p.fNodes f a a', p.fNodes_new h c] at e; exact absurd (fun n => (e n).symm) (k.simple_old h c f a a')
    · rw [p.fNodes_new f a, p.fNodes h c c'] at e; exact absurd e (k.simple_old f a h c c')
    · rw [p.fNodes_new f a, p.fNodes_new h c] at e; exact k.simple_new f a h c e

/-- Exact zone lists are kept when all removed faces are in the zone of the new ones. -/
theorem Built.zoneLists (b : Built P rc z zfn g1 g') (d : Deleted P.df P.de g g1) (k : Plan0 P g) (G : Good rc g)
    (L : ZoneLists g) (hz : ∀ f ∈ P.df, g.fZone f = some z)
    (hc : ∀ n ∈ g.nodes, ((∃ f ∈ P.df, n ∈ g.fNodes f) ↔ ∃ f ∈ P.fn, n ∈ fstOf P.nf f) ∨
      (∃ f ∈ P.fn, n ∈ fstOf P.nf f) ∧ n ∈ g.zNodes z)
    (hn : ∀ n ∈ P.nn, ∃ f ∈ P.fn, n ∈ fstOf P.nf f) : ZoneLists g' := by
  have p := b.patched d k G.alloc
  obtain ⟨fr1, fr2, fr3⟩ := b.fresh d G.alloc
  have zf : ∀ w ∈ g.zones, g'.zFaces w = without (g.zFaces w) P.df ++ if w = z then zfn else [] := fun w hw => by
    rw [b.zFaces, d.zFaces w hw]
  have inG : ∀ w ∈ g.zones, ∀ f ∈ g.zFaces w, f ∈ g.faces := fun w hw f hf =>
    G.zones.partition.mem_iff.1 (List.mem_flatMap.2 ⟨w, hw, hf⟩)
  have dfz : ∀ f ∈ P.df, ∀ w ∈ g.zones, (f ∈ g.zFaces w ↔ w = z) := by
    intro f hf w hw
    constructor
    · intro h
      have := G.zones.points w hw f h
      rw [hz f hf] at this; exact (Option.some.inj this).symm
    · rintro rfl
      obtain ⟨w', hw', h1, h2⟩ := zone_of G.zones (k.df.1 f hf)
      rw [hz f hf] at h2; rw [Option.some.inj h2]; exact h1
  -- a general form for nodes and edges
  have main : ∀ (old new : Nat → List Nat) (news : List (Nat × Nat)) (w : Nat), w ∈ g.zones → ∀ x,
      (∀ f ∈ g.faces, f ∉ P.df → new f = old f) → (∀ f ∈ P.fn, new f = fstOf news f) →
      ((∃ f ∈ P.df, x ∈ old f) ↔ ∃ f ∈ P.fn, x ∈ fstOf news f) →
      ((g'.zFaces w).any (fun f => (new f).contains x)) = ((g.zFaces w).any (fun f => (old f).contains x)) := by
    intro old new news w hw x ho hne hx
    rw [Bool.eq_iff_iff, List.any_eq_true, List.any_eq_true]
    simp only [List.contains_iff_mem]
    rw [zf w hw]
    constructor
    · rintro ⟨f, hf, hxf⟩
      rw [List.mem_append, mem_without] at hf
      rcases hf with ⟨hf, hfd⟩ | hf
      · rw [ho f (inG w hw f hf) hfd] at hxf; exact ⟨f, hf, hxf⟩
      · split at hf
        · next hwz =>
          have hfn := b.zfn_perm.mem_iff.1 hf
          rw [hne f hfn] at hxf
          obtain ⟨h, hh, hxh⟩ := hx.2 ⟨f, hfn, hxf⟩
          exact ⟨h, (dfz h hh w hw).2 hwz, hxh⟩
        · cases hf
    · rintro ⟨f, hf, hxf⟩
      by_cases hfd : f ∈ P.df
      · have hwz := (dfz f hfd w hw).1 hf
        obtain ⟨h, hh, hxh⟩ := hx.1 ⟨f, hfd, hxf⟩
        refine ⟨h, List.mem_append_right _ ?_, ?_⟩
        · rw [if_pos hwz]; exact b.zfn_perm.mem_iff.2 hh
        · rw [hne h hh]; exact hxh
      · exact ⟨f, List.mem_append_left _ (mem_without.2 ⟨hf, hfd⟩), by rw [ho f (inG w hw f hf) hfd]; exact hxf⟩
  have fresh_any : ∀ (old new : Nat → List Nat) (news : List (Nat × Nat)) (w : Nat), w ∈ g.zones → ∀ x,
      (∀ f ∈ g.faces, f ∉ P.df → new f = old f) → (∀ f ∈ P.fn, new f = fstOf news f) →
      (∀ f ∈ g.faces, x ∉ old f) → (∃ f ∈ P.fn, x ∈ fstOf news f) →
      ((g'.zFaces w).any (fun f => (new f).contains x)) = decide (w = z) := by
    intro old new news w hw x ho hne hno hx
    rw [Bool.eq_iff_iff, List.any_eq_true, decide_eq_true_iff]
    simp only [List.contains_iff_mem]
    rw [zf w hw]
    constructor
    · rintro ⟨f, hf, hxf⟩
      rw [List.mem_append, mem_without] at hf
      rcases hf with ⟨hf, hfd⟩ | hf
      · rw [ho f (inG w hw f hf) hfd] at hxf; exact absurd hxf (hno f (inG w hw f hf))
      · split at hf
        · assumption
        · cases hf
    · intro hwz
      obtain ⟨h, hh, hxh⟩ := hx
      refine ⟨h, List.mem_append_right _ ?_, ?_⟩
      · rw [if_pos hwz]; exact b.zfn_perm.mem_iff.2 hh
      · rw [hne h hh]; exact hxh
  have filt : ∀ (l : List Nat) (w : Nat) (q : Nat → Bool), (∀ x ∈ l, q x = decide (w = z)) → l.filter q = if w = z then l else [] := by
    intro l w q h
    split
    · next e => rw [List.filter_eq_self]; intro x hx; rw [h x hx]; simpa using e
    · next e => rw [List.filter_eq_nil_iff]; intro x hx; rw [h x hx]; simpa using e
  constructor
  · intro w hw
    rw [b.zones, d.zones] at hw
    rw [b.zNodes, d.zNodes, L.nodes w hw, p.nodes, List.filter_append]
    congr 1
    · refine List.filter_congr ?_
      intro n hn'
      rcases hc n hn' with hc' | ⟨⟨f, hf, hnf⟩, hnz⟩
      · exact (main g.fNodes g'.fNodes P.nf w hw n p.fNodes p.fNodes_new hc').symm
      · by_cases hwz : w = z
        · subst hwz
          rw [L.nodes w hw, List.mem_filter] at hnz
          rw [hnz.2, eq_comm, List.any_eq_true]
          refine ⟨f, ?_, by rw [List.contains_iff_mem, p.fNodes_new f hf]; exact hnf⟩
          rw [zf w hw, if_pos rfl]
          exact List.mem_append_right _ (b.zfn_perm.mem_iff.2 hf)
        · have hdf : without (g.zFaces w) P.df = g.zFaces w := by
            refine List.filter_eq_self.2 ?_
            intro x hx
            simp only [decide_eq_true_eq]
            exact fun h => hwz ((dfz x h w hw).1 hx)
          have hzf : g'.zFaces w = g.zFaces w := by rw [zf w hw, if_neg hwz, List.append_nil, hdf]
          rw [hzf, Bool.eq_iff_iff, List.any_eq_true, List.any_eq_true]
          have hco : ∀ x ∈ g.zFaces w, g'.fNodes x = g.fNodes x := fun x hx =>
            p.fNodes x (inG w hw x hx) (fun h => hwz ((dfz x h w hw).1 hx))
          exact ⟨fun ⟨x, hx, hy⟩ => ⟨x, hx, by rw [hco x hx]; exact hy⟩, fun ⟨x, hx, hy⟩ => ⟨x, hx, by rw [← hco x hx]; exact hy⟩⟩
    · refine (filt _ _ _ ?_).symm
      intro n hn'
      exact fresh_any g.fNodes g'.fNodes P.nf w hw n p.fNodes p.fNodes_new
        (fun f hf hh => fr1 n hn' ((G.mesh.face_nodes f hf).2.2 n hh)) (hn n hn')
  · intro w hw
    rw [b.zones, d.zones] at hw
    have hne : ((g.zEdges w)).Nodup := by rw [L.edges w hw]; exact G.mesh.edges_nodup.filter _
    have er : ∀ (de l : List Nat), l.Nodup → de.foldl List.erase l = without l de := by
      intro de
      induction de with
      | nil => intro l _; exact (without_nil l).symm
      | cons a de ih =>
        intro l hl
        rw [List.foldl_cons, ih _ (hl.erase a), hl.erase_eq_filter]
        unfold without
        rw [List.filter_filter]
        congr 1; funext y
        by_cases h1 : y = a <;> by_cases h2 : y ∈ de <;> simp [h1, h2]
    rw [b.zEdges, d.zEdges w hw]
    simp only
    rw [er _ _ hne, L.edges w hw, p.edges, List.filter_append]
    congr 1
    · have : without (g.edges.filter (fun e => (g.zFaces w).any (fun f => (g.fEdges f).contains e))) P.de =
          (without g.edges P.de).filter (fun e => (g.zFaces w).any (fun f => (g.fEdges f).contains e)) := by
        unfold without; rw [List.filter_filter, List.filter_filter]; congr 1; funext y; rw [Bool.and_comm]
      rw [this]
      refine List.filter_congr ?_
      intro e he
      rw [mem_without] at he
      refine (main g.fEdges g'.fEdges P.ef w hw e p.fEdges p.fEdges_new ?_).symm
      have hcount := k.old_edge e he.1 he.2
      constructor
      · rintro ⟨f, hf, hef⟩
        have : f ∈ (g.eFaces e).filter (fun f => decide (f ∈ P.df)) := by
          rw [List.mem_filter]; exact ⟨(G.mesh.edge_face e he.1 f).2 ⟨k.df.1 f hf, hef⟩, by simpa using hf⟩
        have := List.length_pos_of_mem this
        rw [hcount] at this
        obtain ⟨f', hf'⟩ := List.exists_mem_of_length_pos this
        exact ⟨f', (k.ef _ (mem_sndOf.1 hf')).2, mem_fstOf.2 (mem_sndOf.1 hf')⟩
      · rintro ⟨f, hf, hef⟩
        have := List.length_pos_of_mem (mem_sndOf.2 (mem_fstOf.1 hef))
        rw [← hcount] at this
        obtain ⟨f', hf'⟩ := List.exists_mem_of_length_pos this
        rw [List.mem_filter] at hf'
        exact ⟨f', by simpa using hf'.2, ((G.mesh.edge_face e he.1 f').1 hf'.1).2⟩
    · refine (filt _ _ _ ?_).symm
      intro e he
      refine fresh_any g.fEdges g'.fEdges P.ef w hw e p.fEdges p.fEdges_new
        (fun f hf hh => fr2 e he ((G.mesh.face_edges f hf).2.2 e hh)) ?_
      have h1 := k.new_edge e he
      obtain ⟨f', hf'⟩ := List.exists_mem_of_length_pos (l := sndOf P.ef e) (by omega)
      exact ⟨f', (k.ef _ (mem_sndOf.1 hf')).2, mem_fstOf.2 (mem_sndOf.1 hf')⟩

end Grid
end Verif
