import Verif.Proofs.Local
import Verif.Proofs.Divide
import Verif.Proofs.CutBorder
import Verif.Proofs.CutBorder2
import Verif.Proofs.CutInner
import Verif.Proofs.CutInner2
import Verif.Proofs.Flip

/-! Results of the transformations. -/

namespace Verif
namespace Grid
variable {F R : Type}

/-- The corners of the removed faces are the old corners of the new faces. -/
def Covers (P : Patch) (g : Grid F R) : Prop :=
  (∀ n ∈ g.nodes, (∃ f ∈ P.df, n ∈ g.fNodes f) ↔ ∃ f ∈ P.fn, n ∈ fstOf P.nf f) ∧
  ∀ n ∈ P.nn, ∃ f ∈ P.fn, n ∈ fstOf P.nf f

/-- What is known about the result of a transformation. -/
structure Outcome (P : Patch) (rc : Vec F → R) (z : Nat) (g g' : Grid F R) : Prop where
  good : Good rc g'
  keeps : Keeps P.df P.de g g'
  patched : Patched P g g'
  swaps : Swaps P.df P.de P.nn P.en P.fn g g'
  zone : ∀ f ∈ P.fn, g'.fZone f = some z
  zoneLists : ZoneLists g → (∀ f ∈ P.df, g.fZone f = some z) → ZoneLists g'
  lf : g'.faces.length + P.df.length = g.faces.length + P.fn.length
  le : g'.edges.length + P.de.length = g.edges.length + P.en.length
  ln : g'.nodes.length = g.nodes.length + P.nn.length
  covers : Covers P g

theorem Built.keeps {P : Patch} {rc : Vec F → R} {z : Nat} {zfn : List Nat} {g g1 g' : Grid F R} (b : Built P rc z zfn g1 g')
    (d : Deleted P.df P.de g g1) (k : Plan P g) (G : Good rc g) (cv : Covers P g) : Keeps P.df P.de g g' := by
  have p := b.patched d k G.alloc
  have po := b.patchOk d k G.alloc
  obtain ⟨fr1, fr2, fr3⟩ := b.fresh d G.alloc
  refine { name := ?_, zones := ?_, nodes := ?_, edges := ?_, faces := ?_, node_links := ?_, edge_links := ?_, gone := ?_ }
  · rw [b.name, d.name]
  · rw [b.zones, b.zId, b.zName, b.zFixed, d.zones, d.zId, d.zName, d.zFixed]; exact ⟨rfl, rfl, rfl, rfl⟩
  · intro n hn
    have hl : n < g1.nNext := by rw [d.nNext]; exact G.alloc.nodes n hn
    exact ⟨p.mem_nodes.2 (Or.inl hn), by rw [b.nP n hl, d.nP], by rw [b.nGlo n hl, d.nGlo]⟩
  · intro e he hd
    have hl : e < g1.eNext := by rw [d.eNext]; exact G.alloc.edges e he
    exact ⟨p.mem_edges.2 (Or.inl ⟨he, hd⟩), p.eNodes e he hd, by rw [b.eGlo e hl, d.eGlo]⟩
  · intro f hf hd
    have hl : f < g1.fNext := by rw [d.fNext]; exact G.alloc.faces f hf
    exact ⟨p.mem_faces.2 (Or.inl ⟨hf, hd⟩), p.fNodes f hf hd, p.fEdges f hf hd, by rw [b.fData f hl, d.fData],
      by rw [b.fZone f hl, d.fZone], by rw [b.fGlo f hl, d.fGlo]⟩
  · intro n hn hc
    have hnf : ∀ f ∈ P.fn, n ∉ fstOf P.nf f := fun f hf h => by
      obtain ⟨f', h1, h2⟩ := (cv.1 n hn).2 ⟨f, hf, h⟩
      exact hc f' h1 h2
    constructor
    · rw [p.nEdges n hn]
      have h1 : sndOf P.ne n = [] := by
        rw [List.eq_nil_iff_forall_not_mem]
        intro e he
        have hen := (k.ne.1 _ (mem_sndOf.1 he)).2
        obtain ⟨f, hf⟩ : ∃ f, f ∈ sndOf P.ef e := by
          apply List.exists_mem_of_length_pos
          rcases k.new_edge e hen with h | h <;> omega
        have hff := (k.ef.1 _ (mem_sndOf.1 hf)).2
        refine hnf f hff (po.inface f hff e (mem_fstOf.2 (mem_sndOf.1 hf)) n ?_)
        rw [p.eNodes_new e hen]; exact mem_fstOf.2 (mem_sndOf.1 he)
      rw [h1, List.append_nil]
      refine List.filter_eq_self.2 ?_
      intro e he
      simp only [decide_eq_true_eq]
      intro hde
      obtain ⟨hee, hne⟩ := (G.mesh.node_edge n hn e).1 he
      obtain ⟨f, hf⟩ : ∃ f, f ∈ g.eFaces e := by
        apply List.exists_mem_of_length_pos
        rcases (G.mesh.edge_faces e hee).1 with h | h <;> omega
      obtain ⟨hff, hef⟩ := (G.mesh.edge_face e hee f).1 hf
      exact hc f (k.de_faces e hde f hff hef) (G.mesh.edge_in_face f hff e hef n hne)
    · rw [p.nFaces n hn]
      have h1 : sndOf P.nf n = [] := by
        rw [List.eq_nil_iff_forall_not_mem]
        intro f hf
        exact hnf f (k.nf.1 _ (mem_sndOf.1 hf)).2 (mem_fstOf.2 (mem_sndOf.1 hf))
      rw [h1, List.append_nil]
      refine List.filter_eq_self.2 ?_
      intro f hf
      simp only [decide_eq_true_eq]
      exact fun hdf => hc f hdf ((G.mesh.node_face n hn f).1 hf).2
  · intro e he hd hc
    have h0 : (g.eFaces e).filter (fun f => decide (f ∈ P.df)) = [] := by
      rw [List.filter_eq_nil_iff]; intro f hf; simp only [decide_eq_true_eq]; exact fun h => hc f h hf
    have h1 := k.old_edge e he hd
    rw [h0] at h1
    have h2 : sndOf P.ef e = [] := List.eq_nil_of_length_eq_zero h1.symm
    rw [p.eFaces e he hd, h2, List.append_nil]
    refine List.filter_eq_self.2 ?_
    intro f hf
    simp only [decide_eq_true_eq]
    exact fun h => hc f h hf
  · refine ⟨fun f hf h => ?_, fun e he h => ?_⟩
    · rcases p.mem_faces.1 h with h | h
      · exact h.2 hf
      · exact fr3 f h (k.df.1 f hf)
    · rcases p.mem_edges.1 h with h | h
      · exact h.2 he
      · exact fr2 e h (k.de.1 e he)

theorem Built.outcome {P : Patch} {rc : Vec F → R} {z : Nat} {zfn : List Nat} {g g1 g' : Grid F R} (b : Built P rc z zfn g1 g')
    (d : Deleted P.df P.de g g1) (k : Plan P g) (G : Good rc g) (cv : Covers P g) (hz : z ∈ g.zones)
    (ge : ∃ j, (P.en.map g'.eGlo).Perm (P.de.map g.eGlo ++ List.range' g.edges.length j))
    (gf : ∃ j, (P.fn.map g'.fGlo).Perm (P.df.map g.fGlo ++ List.range' g.faces.length j)) : Outcome P rc z g g' where
  good := b.good d k G hz ge gf
  keeps := b.keeps d k G cv
  patched := b.patched d k G.alloc
  swaps := by
    have p := b.patched d k G.alloc
    exact ⟨fun _ => p.mem_nodes, fun _ => p.mem_edges, fun _ => p.mem_faces, b.fresh d G.alloc⟩
  zone := b.fZone_new
  zoneLists := fun L hs => b.zoneLists d k G L hs (fun n hn => Or.inl (cv.1 n hn)) cv.2
  lf := by rw [b.faces, List.length_append, d.faces]; have := k.length_df G.mesh; omega
  le := by rw [b.edges, List.length_append, d.edges]; have := k.length_de G.mesh; omega
  ln := by rw [b.nodes, List.length_append, d.nodes]
  covers := cv

theorem Outcome.isFace {P : Patch} {rc : Vec F → R} {z : Nat} {g g' : Grid F R} (o : Outcome P rc z g g') {f a b c : Nat}
    {data : List (Str × F)} (hf : f ∈ P.fn) (hc : ∀ n, n ∈ fstOf P.nf f ↔ n = a ∨ n = b ∨ n = c) (hd : g'.fData f = data) :
    IsFace g' f a b c data z :=
  ⟨o.patched.mem_faces.2 (Or.inr hf), by rw [o.patched.fNodes_new f hf]; exact hc, hd, o.zone f hf⟩

theorem Outcome.corners {P : Patch} {rc : Vec F → R} {z : Nat} {g g' : Grid F R} (o : Outcome P rc z g g') {f : Nat} {l : List Nat}
    (hf : f ∈ P.fn) (hc : fstOf P.nf f = l) : g'.fNodes f = l := (o.patched.fNodes_new f hf).trans hc

theorem zone_mem {rc : Vec F → R} {g : Grid F R} (G : Good rc g) {f z : Nat} (hf : f ∈ g.faces) (hz : g.fZone f = some z) :
    z ∈ g.zones := by
  obtain ⟨w, hw, _, h⟩ := zone_of G.zones hf
  rw [hz] at h; rw [Option.some.inj h]; exact hw

variable [DecidableEq R]

theorem divideFace_outcome {rc : Vec F → R} {g : Grid F R} (G : Good rc g) {f a b c z : Nat} {p : Vec F} (hf : f ∈ g.faces)
    (hn : g.fNodes f = [a, b, c]) (hz : g.fZone f = some z) (hp : NewPlace rc g p) :
    ∃ P g', P.df = [f] ∧ P.de = [] ∧ P.nn = [g.nNext] ∧ P.en = [g.eNext, g.eNext + 1, g.eNext + 2] ∧
      P.fn = [g.fNext, g.fNext + 1, g.fNext + 2] ∧ g.divideFace rc f p = .ok g' ∧ Outcome P rc z g g' ∧ g'.nP g.nNext = p ∧
      IsFace g' g.fNext a b g.nNext (g.fData f) z ∧ IsFace g' (g.fNext + 1) b c g.nNext (g.fData f) z ∧
      IsFace g' (g.fNext + 2) a c g.nNext (g.fData f) z ∧
      g'.fNodes g.fNext = [a, b, g.nNext] ∧ g'.fNodes (g.fNext + 1) = [b, c, g.nNext] ∧ g'.fNodes (g.fNext + 2) = [a, c, g.nNext] := by
  obtain ⟨n1, n2, n3, e12, e23, e13, hl, t⟩ := tri G.mesh hf
  rw [hn] at hl
  simp only [List.cons.injEq, and_true] at hl
  obtain ⟨rfl, rfl, rfl⟩ := hl
  obtain ⟨g1, g', d, hr, hb, ⟨x1, x2, x3⟩, hp', gf, ge⟩ := divideFace_run G hf hn t hz hp
  have o := hb.outcome d (divideFace_plan G hf t) G ?_ (zone_mem G hf hz) ⟨3, by rw [ge]; exact List.Perm.refl _⟩
    ⟨2, by rw [gf]; exact List.Perm.refl _⟩
  · refine ⟨_, g', rfl, rfl, rfl, rfl, rfl, hr, o, hp', o.isFace ?_ ?_ x1, o.isFace ?_ ?_ x2, o.isFace ?_ ?_ x3,
      o.corners (by simp [divideFacePatch]) ?_, o.corners (by simp [divideFacePatch]) ?_, o.corners (by simp [divideFacePatch]) ?_⟩
    all_goals (simp [divideFacePatch, fstOf_cons, fstOf_nil])
  · constructor
    · intro n hm
      have h0 : n ≠ g.nNext := Nat.ne_of_lt (G.alloc.nodes n hm)
      simp [divideFacePatch, fstOf_cons, fstOf_nil, hn, h0]
      tauto
    · simp [divideFacePatch, fstOf_cons, fstOf_nil]

theorem cutBorder_outcome {rc : Vec F → R} {g : Grid F R} (G : Good rc g) {e f a b z : Nat} {p : Vec F} (he : e ∈ g.edges)
    (hf : g.eFaces e = [f]) (hn : g.eNodes e = [a, b]) (hz : g.fZone f = some z) (hp : NewPlace rc g p) :
    ∃ P g' c, P.df = [f] ∧ P.de = [e] ∧ P.nn = [g.nNext] ∧ P.en = [g.eNext, g.eNext + 1, g.eNext + 2] ∧
      P.fn = [g.fNext, g.fNext + 1] ∧ g.cutBorder rc e p = .ok g' ∧ Outcome P rc z g g' ∧ g'.nP g.nNext = p ∧
      (∀ n, n ∈ g.fNodes f ↔ n = a ∨ n = b ∨ n = c) ∧ (c ≠ a ∧ c ≠ b) ∧
      IsFace g' g.fNext a g.nNext c (g.fData f) z ∧ IsFace g' (g.fNext + 1) b g.nNext c (g.fData f) z ∧
      g'.fNodes g.fNext = [c, g.nNext, a] ∧ g'.fNodes (g.fNext + 1) = [c, g.nNext, b] := by
  obtain ⟨hfm, hfe⟩ := (G.mesh.edge_face e he f).1 (by simp [hf])
  obtain ⟨c, e13, e23, t⟩ := corner G.mesh hfm hfe hn
  obtain ⟨g1, g', d, hr, hb, ⟨x1, x2⟩, hp', gf, ge⟩ := cutBorder_run G he hf hn t hz hp
  have o := hb.outcome d (cutBorder_plan G he hf t) G ?_ (zone_mem G hfm hz) ⟨2, by rw [ge]; exact List.Perm.refl _⟩
    ⟨1, by rw [gf]; exact List.Perm.refl _⟩
  · refine ⟨_, g', c, rfl, rfl, rfl, rfl, rfl, hr, o, hp', t.corners, ⟨t.n13.symm, t.n23.symm⟩, o.isFace ?_ ?_ x1, o.isFace ?_ ?_ x2,
      o.corners (by simp [cutBorderPatch]) ?_, o.corners (by simp [cutBorderPatch]) ?_⟩
    all_goals (simp [cutBorderPatch, fstOf_cons, fstOf_nil] <;> tauto)
  · constructor
    · intro n hm
      have h0 : n ≠ g.nNext := Nat.ne_of_lt (G.alloc.nodes n hm)
      simp [cutBorderPatch, fstOf_cons, fstOf_nil, t.corners, h0]
      tauto
    · simp [cutBorderPatch, fstOf_cons, fstOf_nil]

theorem cutBorder2_outcome {rc : Vec F → R} {g : Grid F R} (G : Good rc g) {e f a b z : Nat} {p1 p2 : Vec F} (he : e ∈ g.edges)
    (hf : g.eFaces e = [f]) (hn : g.eNodes e = [a, b]) (hz : g.fZone f = some z) (hp1 : NewPlace rc g p1)
    (hp2 : NewPlace rc g p2) (hpp : rc p2 ≠ rc p1) :
    ∃ P g' c, P.df = [f] ∧ P.de = [e] ∧ P.nn = [g.nNext, g.nNext + 1] ∧
      P.en = [g.eNext, g.eNext + 1, g.eNext + 2, g.eNext + 3, g.eNext + 4] ∧
      P.fn = [g.fNext, g.fNext + 1, g.fNext + 2] ∧ g.cutBorder2 rc e p1 p2 = .ok g' ∧ Outcome P rc z g g' ∧
      g'.nP g.nNext = p1 ∧ g'.nP (g.nNext + 1) = p2 ∧
      (∀ n, n ∈ g.fNodes f ↔ n = a ∨ n = b ∨ n = c) ∧ (c ≠ a ∧ c ≠ b) ∧
      IsFace g' g.fNext a g.nNext c (g.fData f) z ∧ IsFace g' (g.fNext + 1) g.nNext (g.nNext + 1) c (g.fData f) z ∧
      IsFace g' (g.fNext + 2) b (g.nNext + 1) c (g.fData f) z := by
  obtain ⟨hfm, hfe⟩ := (G.mesh.edge_face e he f).1 (by simp [hf])
  obtain ⟨c, e13, e23, t⟩ := corner G.mesh hfm hfe hn
  obtain ⟨g1, g', d, hr, hb, ⟨x1, x2, x3⟩, hp1', hp2', gf, ge⟩ := cutBorder2_run G he hf hn t hz hp1 hp2 hpp
  have o := hb.outcome d (cutBorder2_plan G he hf t) G ?_ (zone_mem G hfm hz) ⟨4, by rw [ge]; exact List.Perm.refl _⟩
    ⟨2, by rw [gf]; exact List.Perm.refl _⟩
  · refine ⟨_, g', c, rfl, rfl, rfl, rfl, rfl, hr, o, hp1', hp2', t.corners, ⟨t.n13.symm, t.n23.symm⟩, o.isFace ?_ ?_ x1, o.isFace ?_ ?_ x2,
      o.isFace ?_ ?_ x3⟩
    all_goals (simp [cutBorder2Patch, fstOf_cons, fstOf_nil] <;> tauto)
  · constructor
    · intro n hm
      have h1 := G.alloc.nodes n hm
      have h0 : n ≠ g.nNext := by omega
      have h2 : n ≠ g.nNext + 1 := by omega
      simp [cutBorder2Patch, fstOf_cons, fstOf_nil, t.corners, h0, h2]
      tauto
    · simp [cutBorder2Patch, fstOf_cons, fstOf_nil]

theorem cutInner_outcome {rc : Vec F → R} {g : Grid F R} (G : Good rc g) {e f h a b z : Nat} {p : Vec F} (he : e ∈ g.edges)
    (hf : g.eFaces e = [f, h]) (hn : g.eNodes e = [a, b]) (hz : g.fZone f = some z) (hp : NewPlace rc g p) :
    ∃ P g' c c', P.df = [f, h] ∧ P.de = [e] ∧ P.nn = [g.nNext] ∧ P.en = [g.eNext, g.eNext + 1, g.eNext + 2, g.eNext + 3] ∧
      P.fn = [g.fNext, g.fNext + 2, g.fNext + 1, g.fNext + 3] ∧ g.cutInner rc e p = .ok g' ∧ Outcome P rc z g g' ∧ g'.nP g.nNext = p ∧
      (∀ n, n ∈ g.fNodes f ↔ n = a ∨ n = b ∨ n = c) ∧ (∀ n, n ∈ g.fNodes h ↔ n = a ∨ n = b ∨ n = c') ∧ [a, b, c, c'].Nodup ∧
      IsFace g' g.fNext b g.nNext c (g.fData f) z ∧ IsFace g' (g.fNext + 1) a g.nNext c (g.fData f) z ∧
      IsFace g' (g.fNext + 2) a g.nNext c' (g.fData h) z ∧ IsFace g' (g.fNext + 3) b g.nNext c' (g.fData h) z ∧
      g'.fNodes g.fNext = [g.nNext, b, c] ∧ g'.fNodes (g.fNext + 1) = [g.nNext, a, c] ∧
      g'.fNodes (g.fNext + 2) = [g.nNext, a, c'] ∧ g'.fNodes (g.fNext + 3) = [g.nNext, b, c'] := by
  obtain ⟨c, c', e13, e23, e14, e24, t⟩ := corner2 G.mesh G.simple he hf hn
  obtain ⟨g1, g', d, hr, hb, ⟨x1, x2, x3, x4⟩, hp', gf, ge⟩ := cutInner_run G he hf hn t hz hp
  have o := hb.outcome d (cutInner_plan G he hf t) G ?_ (zone_mem G t.hf hz) ⟨3, by rw [ge]; exact List.Perm.refl _⟩
    ⟨2, by rw [gf]; exact List.Perm.refl _⟩
  · refine ⟨_, g', c, c', rfl, rfl, rfl, rfl, rfl, hr, o, hp', t.c.corners, t.d.corners, ?_, o.isFace ?_ ?_ x1, o.isFace ?_ ?_ x2,
      o.isFace ?_ ?_ x3, o.isFace ?_ ?_ x4, o.corners (by simp [cutInnerPatch]) ?_, o.corners (by simp [cutInnerPatch]) ?_,
      o.corners (by simp [cutInnerPatch]) ?_, o.corners (by simp [cutInnerPatch]) ?_⟩
    · simp [t.c.n12, t.c.n13, t.c.n23, t.d.n13, t.d.n23, t.n34]
    all_goals (simp [cutInnerPatch, fstOf_cons, fstOf_nil] <;> tauto)
  · constructor
    · intro n hm
      have h0 : n ≠ g.nNext := Nat.ne_of_lt (G.alloc.nodes n hm)
      simp [cutInnerPatch, fstOf_cons, fstOf_nil, t.c.corners, t.d.corners, h0]
      tauto
    · simp [cutInnerPatch, fstOf_cons, fstOf_nil]

theorem cutInner2_outcome {rc : Vec F → R} {g : Grid F R} (G : Good rc g) {e f h a b z : Nat} {p1 p2 : Vec F} (he : e ∈ g.edges)
    (hf : g.eFaces e = [f, h]) (hn : g.eNodes e = [a, b]) (hz : g.fZone f = some z) (hp1 : NewPlace rc g p1)
    (hp2 : NewPlace rc g p2) (hpp : rc p2 ≠ rc p1) :
    ∃ P g' c c', P.df = [f, h] ∧ P.de = [e] ∧ P.nn = [g.nNext, g.nNext + 1] ∧
      P.en = [g.eNext, g.eNext + 1, g.eNext + 2, g.eNext + 3, g.eNext + 4, g.eNext + 5, g.eNext + 6] ∧
      P.fn = [g.fNext, g.fNext + 1, g.fNext + 2, g.fNext + 3, g.fNext + 4, g.fNext + 5] ∧ g.cutInner2 rc e p1 p2 = .ok g' ∧
      Outcome P rc z g g' ∧ g'.nP g.nNext = p1 ∧ g'.nP (g.nNext + 1) = p2 ∧
      (∀ n, n ∈ g.fNodes f ↔ n = a ∨ n = b ∨ n = c) ∧ (∀ n, n ∈ g.fNodes h ↔ n = a ∨ n = b ∨ n = c') ∧ [a, b, c, c'].Nodup ∧
      IsFace g' g.fNext a g.nNext c (g.fData f) z ∧ IsFace g' (g.fNext + 1) g.nNext (g.nNext + 1) c (g.fData f) z ∧
      IsFace g' (g.fNext + 2) b (g.nNext + 1) c (g.fData f) z ∧ IsFace g' (g.fNext + 3) a g.nNext c' (g.fData h) z ∧
      IsFace g' (g.fNext + 4) g.nNext (g.nNext + 1) c' (g.fData h) z ∧ IsFace g' (g.fNext + 5) b (g.nNext + 1) c' (g.fData h) z := by
  obtain ⟨c, c', e13, e23, e14, e24, t⟩ := corner2 G.mesh G.simple he hf hn
  obtain ⟨g1, g', d, hr, hb, ⟨x1, x2, x3, x4, x5, x6⟩, hp1', hp2', gf, ge⟩ := cutInner2_run G he hf hn t hz hp1 hp2 hpp
  have o := hb.outcome d (cutInner2_plan G he hf t) G ?_ (zone_mem G t.hf hz) ⟨6, by rw [ge]; exact List.Perm.refl _⟩
    ⟨4, by rw [gf]; exact List.Perm.refl _⟩
  · refine ⟨_, g', c, c', rfl, rfl, rfl, rfl, rfl, hr, o, hp1', hp2', t.c.corners, t.d.corners, ?_, o.isFace ?_ ?_ x1, o.isFace ?_ ?_ x2,
      o.isFace ?_ ?_ x3, o.isFace ?_ ?_ x4, o.isFace ?_ ?_ x5, o.isFace ?_ ?_ x6⟩
    · simp [t.c.n12, t.c.n13, t.c.n23, t.d.n13, t.d.n23, t.n34]
    all_goals (simp [cutInner2Patch, fstOf_cons, fstOf_nil] <;> tauto)
  · constructor
    · intro n hm
      have h1 := G.alloc.nodes n hm
      have h0 : n ≠ g.nNext := by omega
      have h2 : n ≠ g.nNext + 1 := by omega
      simp [cutInner2Patch, fstOf_cons, fstOf_nil, t.c.corners, t.d.corners, h0, h2]
      tauto
    · simp [cutInner2Patch, fstOf_cons, fstOf_nil]

omit [DecidableEq R] in
theorem Corner2.swap {g : Grid F R} {f h e n1 n2 n3 n4 e13 e23 e14 e24 : Nat} (t : Corner2 g f h e n1 n2 n3 n4 e13 e23 e14 e24) :
    Corner2 g h f e n1 n2 n4 n3 e14 e24 e13 e23 :=
  ⟨t.d, t.c, t.fh.symm, t.n34.symm, t.x1.symm, t.x3.symm, t.x2.symm, t.x4.symm, t.hh, t.hf⟩

omit [DecidableEq R] in
/-- The two faces at an edge, in either order. -/
theorem corner2_any {g : Grid F R} (m : Mesh g) (s : Simple g) {f h e n1 n2 : Nat} (he : e ∈ g.edges)
    (hf : ∀ x, x ∈ g.eFaces e ↔ x = f ∨ x = h) (hfh : f ≠ h) (hn : g.eNodes e = [n1, n2]) :
    ∃ n3 n4 e13 e23 e14 e24, Corner2 g f h e n1 n2 n3 n4 e13 e23 e14 e24 := by
  have hp : [f, h].Perm (g.eFaces e) := by
    refine (List.perm_ext_iff_of_nodup (by simp [hfh]) (m.edge_faces e he).2).2 fun x => ?_
    rw [hf]; simp
  rcases perm_pair hp with h1 | h1
  · exact corner2 m s he h1 hn
  · obtain ⟨n3, n4, e13, e23, e14, e24, t⟩ := corner2 m s he h1 hn
    exact ⟨n4, n3, e14, e24, e13, e23, t.swap⟩

omit [DecidableEq R] in
theorem flip_outcome {rc : Vec F → R} {g : Grid F R} (G : Good rc g) {f h e a b c c' z : Nat} (he : e ∈ g.edges)
    (hf : ∀ x, x ∈ g.eFaces e ↔ x = f ∨ x = h) (hfh : f ≠ h) (hn : g.eNodes e = [a, b])
    (hcf : ∀ n, n ∈ g.fNodes f ↔ n = a ∨ n = b ∨ n = c) (hch : ∀ n, n ∈ g.fNodes h ↔ n = a ∨ n = b ∨ n = c')
    (hz : g.fZone f = some z) (hj : ∀ x ∈ g.edges, ¬ Joins g x c c') :
    ∃ P g', P.df = [f, h] ∧ P.de = [e] ∧ P.nn = [] ∧ P.en = [g.eNext] ∧ P.fn = [g.fNext, g.fNext + 1] ∧
      g.flipEdge f e = .ok g' ∧ Outcome P rc z g g' ∧
      IsFace g' g.fNext a c c' (g.fData f) z ∧ IsFace g' (g.fNext + 1) b c c' (g.fData f) z ∧
      Joins g' g.eNext c c' := by
  obtain ⟨n3, n4, e13, e23, e14, e24, t⟩ := corner2_any G.mesh G.simple he hf hfh hn
  have third : ∀ {f' x y : Nat}, f' ∈ g.faces → (∀ n, n ∈ g.fNodes f' ↔ n = a ∨ n = b ∨ n = x) →
      (∀ n, n ∈ g.fNodes f' ↔ n = a ∨ n = b ∨ n = y) → x ≠ a → x ≠ b → x = y := by
    intro f' x y _ h1 h2 h3 h4
    rcases (h2 x).1 ((h1 x).2 (Or.inr (Or.inr rfl))) with h | h | h
    · exact absurd h h3
    · exact absurd h h4
    · exact h
  obtain rfl : n3 = c := third t.hf t.c.corners hcf t.c.n13.symm t.c.n23.symm
  obtain rfl : n4 = c' := third t.hh t.d.corners hch t.d.n13.symm t.d.n23.symm
  obtain ⟨g1, g', d, hr, hb, ⟨x1, x2⟩, gf, ge⟩ := flip_run G he hf hn t hz
  have o := hb.outcome d (flip_plan G he hf t hj) G ?_ (zone_mem G t.hf hz) ⟨0, by rw [ge]; exact List.Perm.refl _⟩
    ⟨0, by rw [gf]; exact List.Perm.refl _⟩
  · refine ⟨_, g', rfl, rfl, rfl, rfl, rfl, hr, o, o.isFace ?_ ?_ x1, o.isFace ?_ ?_ x2, ?_⟩
    rotate_right
    · intro n
      rw [o.patched.eNodes_new g.eNext (by simp [flipPatch])]
      simp [flipPatch, fstOf_cons, fstOf_nil]
    all_goals (simp [flipPatch, fstOf_cons, fstOf_nil])
  · constructor
    · intro n hm
      simp [flipPatch, fstOf_cons, fstOf_nil, t.c.corners, t.d.corners]
      tauto
    · simp [flipPatch]

end Grid
end Verif
