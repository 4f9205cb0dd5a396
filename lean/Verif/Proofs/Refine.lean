import Verif.Proofs.Steps2
import Verif.Model.Refine

/-! What the refining transformations leave as it was, also of objects which are not in the grid any more. -/

namespace Verif
open Grid
variable {F R : Type}

/-- `g` was made from `g0` by operations that change objects of `g0` only in the following way: faces in `M` may lose the edge `e`, edges
outside `S` may only lose faces; the faces `L` have lost `e`. -/
structure Frame (S M : Nat → Prop) (e : Nat) (L : Nat → Prop) (g0 g : Grid F R) : Prop where
  nNext : g0.nNext ≤ g.nNext
  eNext : g0.eNext ≤ g.eNext
  fNext : g0.fNext ≤ g.fNext
  nP : ∀ n < g0.nNext, g.nP n = g0.nP n
  eNodes : ∀ x < g0.eNext, g.eNodes x = g0.eNodes x
  eFaces : ∀ x < g0.eNext, ¬ S x → (g.eFaces x).Sublist (g0.eFaces x)
  fEdges : ∀ f < g0.fNext, (g.fEdges f).Sublist (g0.fEdges f)
  kept : ∀ f < g0.fNext, ∀ x ∈ g0.fEdges f, x ≠ e ∨ ¬ M f → x ∈ g.fEdges f
  fZone : ∀ f < g0.fNext, g.fZone f = g0.fZone f
  lost : ∀ f < g0.fNext, L f → e ∉ g.fEdges f

namespace Frame
variable {S M L : Nat → Prop} {e : Nat} {g0 g g' : Grid F R}

theorem refl (S M : Nat → Prop) (e : Nat) (g : Grid F R) : Frame S M e (fun _ => False) g g :=
  ⟨le_rfl, le_rfl, le_rfl, fun _ _ => rfl, fun _ _ => rfl, fun _ _ _ => List.Sublist.refl _, fun _ _ => List.Sublist.refl _,
    fun _ _ _ h _ => h, fun _ _ => rfl, fun _ _ h => h.elim⟩

theorem dropFrom_sub (x : Nat) (l : List Nat) : ∀ (m : Nat → List Nat) (o : Nat), (l.foldl (dropFrom x) m o).Sublist (m o) := by
  induction l with
  | nil => intro m o; exact List.Sublist.refl _
  | cons a l ih =>
    intro m o
    refine (ih _ o).trans ?_
    unfold dropFrom
    split
    · by_cases ho : o = a
      · subst ho; rw [upd_self]; exact List.erase_sublist
      · rw [upd_ne _ _ ho]
    · exact List.Sublist.refl _

theorem delFace (h : Frame S M e L g0 g) {f : Nat} (hr : g.delFace f = .ok g') : Frame S M e L g0 g' := by
  unfold Grid.delFace at hr
  simp only at hr
  split at hr
  · cases hr
  · rw [res_bind_eq_ok] at hr
    obtain ⟨l, -, hr⟩ := hr
    rw [res_bind_eq_ok] at hr
    obtain ⟨l', -, hr⟩ := hr
    obtain rfl := Except.ok.inj hr
    exact ⟨h.nNext, h.eNext, h.fNext, h.nP, h.eNodes, fun x hx hs => (dropFrom_sub _ _ _ _).trans (h.eFaces x hx hs), h.fEdges, h.kept, h.fZone, h.lost⟩

theorem faceDropEdge (h : Frame S M e L g0 g) {f : Nat} (hm : M f) (hr : Grid.faceDropEdge e g f = .ok g') : Frame S M e L g0 g' := by
  unfold Grid.faceDropEdge at hr
  rw [res_bind_eq_ok] at hr
  obtain ⟨l, hl, hr⟩ := hr
  obtain rfl := Except.ok.inj hr
  unfold Py.remove at hl
  split at hl
  · obtain rfl := Except.ok.inj hl
    refine ⟨h.nNext, h.eNext, h.fNext, h.nP, h.eNodes, h.eFaces, ?_, ?_, h.fZone, ?_⟩
    · intro k hk
      by_cases hkf : k = f
      · subst hkf; simp only [upd_self]; exact List.erase_sublist.trans (h.fEdges k hk)
      · simp only [upd_ne _ _ hkf]; exact h.fEdges k hk
    · intro k hk x hx hne
      by_cases hkf : k = f
      · subst hkf; simp only [upd_self]; exact (List.mem_erase_of_ne (hne.resolve_right (not_not_intro hm))).2 (h.kept k hk x hx hne)
      · simp only [upd_ne _ _ hkf]; exact h.kept k hk x hx hne
    · intro k hk hL
      by_cases hkf : k = f
      · subst hkf; simp only [upd_self]; exact fun hx => h.lost k hk hL (List.erase_subset hx)
      · simp only [upd_ne _ _ hkf]; exact h.lost k hk hL
  · cases hl

theorem lose (h : Frame S M e L g0 g) {f : Nat} (hf : f < g0.fNext) (hn : (g0.fEdges f).Nodup) (hm : M f) (hr : Grid.faceDropEdge e g f = .ok g') :
    Frame S M e (fun k => L k ∨ k = f) g0 g' ∧ g'.fEdges f = (g.fEdges f).erase e ∧ (∀ k ≠ f, g'.fEdges k = g.fEdges k) ∧
      g'.eNodes = g.eNodes ∧ g'.eNext = g.eNext ∧ g'.fNext = g.fNext := by
  have k := h.faceDropEdge hm hr
  unfold Grid.faceDropEdge at hr
  rw [res_bind_eq_ok] at hr
  obtain ⟨l, hl, hr⟩ := hr
  obtain rfl := Except.ok.inj hr
  unfold Py.remove at hl
  split at hl
  · obtain rfl := Except.ok.inj hl
    refine ⟨⟨k.nNext, k.eNext, k.fNext, k.nP, k.eNodes, k.eFaces, k.fEdges, k.kept, k.fZone, ?_⟩, upd_self _ _ _,
      fun i hi => upd_ne _ _ hi, rfl, rfl, rfl⟩
    rintro i hi (hL | rfl)
    · exact k.lost i hi hL
    · simp only [upd_self]
      exact fun hx => (((h.fEdges i hf).nodup hn).mem_erase_iff.1 hx).1 rfl
  · cases hl

theorem faceDropEdges (l : List Nat) : ∀ {g g' : Grid F R}, Frame S M e L g0 g → (∀ f ∈ l, M f) → l.foldlM (Grid.faceDropEdge e) g = .ok g' → Frame S M e L g0 g' := by
  induction l with
  | nil => intro g g' h _ hr; obtain rfl := Except.ok.inj hr; exact h
  | cons a l ih =>
    intro g g' h hm hr
    rw [List.foldlM_cons, res_bind_eq_ok] at hr
    obtain ⟨g1, h1, hr⟩ := hr
    exact ih (h.faceDropEdge (hm a List.mem_cons_self) h1) (fun f hf => hm f (List.mem_cons_of_mem _ hf)) hr

theorem dropEdgeAt (h : Frame S M e L g0 g) {x : Nat} {i : Int} (hr : g.dropEdgeAt x i = .ok g') : Frame S M e L g0 g' ∧ g'.eFaces = g.eFaces ∧ g'.eNodes = g.eNodes := by
  unfold Grid.dropEdgeAt at hr
  rw [res_bind_eq_ok] at hr
  obtain ⟨n, -, hr⟩ := hr
  rw [res_bind_eq_ok] at hr
  obtain ⟨l, -, hr⟩ := hr
  obtain rfl := Except.ok.inj hr
  exact ⟨⟨h.nNext, h.eNext, h.fNext, h.nP, h.eNodes, h.eFaces, h.fEdges, h.kept, h.fZone, h.lost⟩, rfl, rfl⟩

theorem delEdge (h : Frame S M e L g0 g) (hm : ∀ f ∈ g.eFaces e, M f) (hr : g.delEdge e = .ok g') : Frame S M e L g0 g' := by
  unfold Grid.delEdge at hr
  rw [res_bind_eq_ok] at hr
  obtain ⟨g1, h1, hr⟩ := hr
  rw [res_bind_eq_ok] at hr
  obtain ⟨g2, h2, hr⟩ := hr
  rw [res_bind_eq_ok] at hr
  obtain ⟨g3, h3, hr⟩ := hr
  rw [res_bind_eq_ok] at hr
  obtain ⟨l, -, hr⟩ := hr
  obtain rfl := Except.ok.inj hr
  obtain ⟨k1, q1, -⟩ := h.dropEdgeAt h1
  obtain ⟨k2, q2, -⟩ := k1.dropEdgeAt h2
  have k := faceDropEdges _ k2 (by rw [q2, q1]; exact hm) h3
  exact ⟨k.nNext, k.eNext, k.fNext, k.nP, k.eNodes, k.eFaces, k.fEdges, k.kept, k.fZone, k.lost⟩

theorem newFaces (h : Frame S M e L g0 g) (l : List (List (Str × F))) : Frame S M e L g0 (g.newFaces l) := by
  rw [newFaces_eq]
  have hn : ∀ f < g0.fNext, ¬ (g.fNext ≤ f ∧ f < g.fNext + l.length) := fun f hf => by have := h.fNext; omega
  refine ⟨h.nNext, h.eNext, ?_, h.nP, h.eNodes, h.eFaces, ?_, ?_, ?_, ?_⟩
  · have := h.fNext; simp only; omega
  · intro f hf; simp only [if_neg (hn f hf)]; exact h.fEdges f hf
  · intro f hf; simp only [if_neg (hn f hf)]; exact h.kept f hf
  · intro f hf; simp only [if_neg (hn f hf)]; exact h.fZone f hf
  · intro f hf; simp only [if_neg (hn f hf)]; exact h.lost f hf

theorem addFaces (h : Frame S M e L g0 g) (l : List (Nat × Option Nat)) : Frame S M e L g0 (g.addFaces l) := by
  rw [addFaces_eq]
  exact ⟨h.nNext, h.eNext, h.fNext, h.nP, h.eNodes, h.eFaces, h.fEdges, h.kept, h.fZone, h.lost⟩

theorem addEdges (h : Frame S M e L g0 g) (l : List (Nat × Option Nat)) : Frame S M e L g0 (g.addEdges l) := by
  rw [addEdges_eq]
  exact ⟨h.nNext, h.eNext, h.fNext, h.nP, h.eNodes, h.eFaces, h.fEdges, h.kept, h.fZone, h.lost⟩

theorem newEdges (h : Frame S M e L g0 g) (k : Nat) : Frame S M e L g0 (g.newEdges k) := by
  rw [newEdges_eq]
  have hn : ∀ f < g0.eNext, ¬ (g.eNext ≤ f ∧ f < g.eNext + k) := fun f hf => by have := h.eNext; omega
  refine ⟨h.nNext, ?_, h.fNext, h.nP, ?_, ?_, h.fEdges, h.kept, h.fZone, h.lost⟩
  · have := h.eNext; simp only; omega
  · intro f hf; simp only [if_neg (hn f hf)]; exact h.eNodes f hf
  · intro f hf; simp only [if_neg (hn f hf)]; exact h.eFaces f hf

theorem placeNode [DecidableEq R] (h : Frame S M e L g0 g) {rc : Vec F → R} {z m : Nat} {p : Vec F} (hr : g.placeNode rc z p = .ok (g', m)) :
    Frame S M e L g0 g' ∧ g'.fEdges = g.fEdges ∧ g'.eNodes = g.eNodes ∧ g'.fNext = g.fNext ∧ g'.eNext = g.eNext ∧
      ∀ n < g.nNext, g'.nEdges n = g.nEdges n := by
  have key : ∀ {k : Grid F R} {i : Nat}, (g.newNode rc p).addNode g.nNext true = .ok (k, i) →
      k.nNext = g.nNext + 1 ∧ k.eNext = g.eNext ∧ k.fNext = g.fNext ∧ k.nP = upd g.nP g.nNext p ∧ k.eNodes = g.eNodes ∧ k.eFaces = g.eFaces ∧
        k.fEdges = g.fEdges ∧ k.fZone = g.fZone ∧ k.nEdges = upd g.nEdges g.nNext [] := by
    intro k i hk
    unfold addNode at hk
    rw [res_bind_eq_ok] at hk
    obtain ⟨o, -, hk⟩ := hk
    cases o with
    | none =>
      obtain ⟨rfl, -⟩ := Prod.ext_iff.1 (Except.ok.inj hk)
      exact ⟨rfl, rfl, rfl, rfl, rfl, rfl, rfl, rfl, rfl⟩
    | some m =>
      obtain ⟨rfl, -⟩ := Prod.ext_iff.1 (Except.ok.inj hk)
      exact ⟨rfl, rfl, rfl, rfl, rfl, rfl, rfl, rfl, rfl⟩
  unfold Grid.placeNode at hr
  simp only at hr
  rw [res_bind_eq_ok] at hr
  obtain ⟨⟨k, i⟩, hk, hr⟩ := hr
  obtain ⟨k1, k2, k3, k4, k5, k6, k7, k8, k9⟩ := key hk
  have fin : Frame S M e L g0 k ∧ k.fEdges = g.fEdges ∧ k.eNodes = g.eNodes ∧ k.fNext = g.fNext ∧ k.eNext = g.eNext ∧
      ∀ n < g.nNext, k.nEdges n = g.nEdges n := by
    refine ⟨⟨?_, ?_, ?_, ?_, ?_, ?_, ?_, ?_, ?_, ?_⟩, k7, k5, k3, k2, ?_⟩
    · rw [k1]; have := h.nNext; omega
    · rw [k2]; exact h.eNext
    · rw [k3]; exact h.fNext
    · intro n hn
      have := h.nNext
      rw [k4, upd_ne _ _ (by omega)]; exact h.nP n hn
    · rw [k5]; exact h.eNodes
    · rw [k6]; exact h.eFaces
    · rw [k7]; exact h.fEdges
    · rw [k7]; exact h.kept
    · rw [k8]; exact h.fZone
    · rw [k7]; exact h.lost
    · intro n hn; rw [k9, upd_ne _ _ (by omega)]
  simp only at hr
  split at hr
  · obtain ⟨rfl, -⟩ := Prod.ext_iff.1 (Except.ok.inj hr)
    obtain ⟨f, a, b, c, d, e'⟩ := fin
    exact ⟨⟨f.nNext, f.eNext, f.fNext, f.nP, f.eNodes, f.eFaces, f.fEdges, f.kept, f.fZone, f.lost⟩, a, b, c, d, e'⟩
  · obtain ⟨rfl, -⟩ := Prod.ext_iff.1 (Except.ok.inj hr)
    exact fin

theorem linkNE (h : Frame S M e L g0 g) (l : List (Nat × Nat)) (hl : ∀ p ∈ l, g0.eNext ≤ p.2) : Frame S M e L g0 (g.linkNE l) := by
  rw [linkNE_eq]
  refine ⟨h.nNext, h.eNext, h.fNext, h.nP, ?_, h.eFaces, h.fEdges, h.kept, h.fZone, h.lost⟩
  intro x hx
  have : fstOf l x = [] := by
    rw [List.eq_nil_iff_forall_not_mem]
    intro n hn
    have := hl _ (mem_fstOf.1 hn)
    simp only at this
    omega
  simp only [this, List.append_nil]
  exact h.eNodes x hx

theorem linkNF (h : Frame S M e L g0 g) (l : List (Nat × Nat)) : Frame S M e L g0 (g.linkNF l) := by
  rw [linkNF_eq]
  exact ⟨h.nNext, h.eNext, h.fNext, h.nP, h.eNodes, h.eFaces, h.fEdges, h.kept, h.fZone, h.lost⟩

theorem linkEF (l : List (Nat × Nat)) : ∀ {g g' : Grid F R}, Frame S M e L g0 g → (∀ p ∈ l, g0.fNext ≤ p.2 ∧ (S p.1 ∨ g0.eNext ≤ p.1)) →
    g.linkEF l = .ok g' → Frame S M e L g0 g' := by
  induction l with
  | nil => intro g g' h _ hr; obtain rfl := Except.ok.inj hr; exact h
  | cons p l ih =>
    intro g g' h hl hr
    unfold Grid.linkEF at hr
    rw [List.foldlM_cons, res_bind_eq_ok] at hr
    obtain ⟨g1, h1, hr⟩ := hr
    refine ih ?_ (fun q hq => hl q (List.mem_cons_of_mem _ hq)) hr
    obtain ⟨hp, hp'⟩ := hl p List.mem_cons_self
    unfold linkEdgeFace at h1
    split at h1
    · cases h1
    · obtain rfl := Except.ok.inj h1
      refine ⟨h.nNext, h.eNext, h.fNext, h.nP, h.eNodes, ?_, ?_, ?_, h.fZone, ?_⟩
      · intro x hx hs
        have : x ≠ p.1 := by
          rintro rfl
          rcases hp' with hp' | hp'
          · exact hs hp'
          · omega
        simp only [upd_ne _ _ this]; exact h.eFaces x hx hs
      · intro f hf
        simp only [upd_ne _ _ (show f ≠ p.2 by omega)]; exact h.fEdges f hf
      · intro f hf
        simp only [upd_ne _ _ (show f ≠ p.2 by omega)]; exact h.kept f hf
      · intro f hf
        simp only [upd_ne _ _ (show f ≠ p.2 by omega)]; exact h.lost f hf

theorem zoneAddFaces {z : Nat} (l : List Nat) : ∀ {g g' : Grid F R}, Frame S M e L g0 g → (∀ f ∈ l, g0.fNext ≤ f) →
    g.zoneAddFaces z l = .ok g' → Frame S M e L g0 g' := by
  induction l with
  | nil => intro g g' h _ hr; obtain rfl := Except.ok.inj hr; exact h
  | cons p l ih =>
    intro g g' h hl hr
    unfold Grid.zoneAddFaces at hr
    rw [List.foldlM_cons, res_bind_eq_ok] at hr
    obtain ⟨g1, h1, hr⟩ := hr
    refine ih ?_ (fun q hq => hl q (List.mem_cons_of_mem _ hq)) hr
    have hp := hl p List.mem_cons_self
    unfold zoneAddFace at h1
    rw [res_bind_eq_ok] at h1
    obtain ⟨g2, h2, h1⟩ := h1
    obtain rfl := Except.ok.inj h1
    have k : Frame S M e L g0 g2 := by
      split at h2
      · unfold unlinkFromZone at h2
        split at h2
        · obtain rfl := Except.ok.inj h2; exact h
        · rw [res_bind_eq_ok] at h2
          obtain ⟨l', -, h2⟩ := h2
          obtain rfl := Except.ok.inj h2
          refine ⟨h.nNext, h.eNext, h.fNext, h.nP, h.eNodes, h.eFaces, h.fEdges, h.kept, fun f hf => ?_, h.lost⟩
          simp only [upd_ne _ _ (show f ≠ p by omega)]; exact h.fZone f hf
      · obtain rfl := Except.ok.inj h2; exact h
    refine ⟨k.nNext, k.eNext, k.fNext, k.nP, k.eNodes, k.eFaces, k.fEdges, k.kept, fun f hf => ?_, k.lost⟩
    simp only [upd_ne _ _ (show f ≠ p by omega)]; exact k.fZone f hf

theorem zoneAddEdges (z : Nat) (l : List Nat) : ∀ {g : Grid F R}, Frame S M e L g0 g → Frame S M e L g0 (g.zoneAddEdges z l) := by
  induction l with
  | nil => intro g h; exact h
  | cons p l ih =>
    intro g h
    exact ih (g := g.zoneAddEdge z p) ⟨h.nNext, h.eNext, h.fNext, h.nP, h.eNodes, h.eFaces, h.fEdges, h.kept, h.fZone, h.lost⟩

end Frame

/-- The edge found by `edgeAt` is an edge of the face. -/
theorem edgeAt_mem {g : Grid F R} {f n x : Nat} (h : g.edgeAt f n = .ok x) : x ∈ g.fEdges f := by
  unfold edgeAt at h
  have : x ∈ (g.fEdges f).flatMap (fun e => ((g.eNodes e).filter (fun k => decide (k = n))).map (fun _ => e)) := by
    generalize (g.fEdges f).flatMap _ = l at h
    cases l with
    | nil => cases h
    | cons a l => obtain rfl := Except.ok.inj h; exact List.mem_cons_self
  rw [List.mem_flatMap] at this
  obtain ⟨e, he, hx⟩ := this
  rw [List.mem_map] at hx
  obtain ⟨_, -, rfl⟩ := hx
  exact he

theorem delFace_eFaces {g g' : Grid F R} {f x : Nat} (hn : (g.fEdges f).Nodup) (hx : x ∈ g.fEdges f) (hr : g.delFace f = .ok g') :
    g'.eFaces x = (g.eFaces x).erase f ∧ g'.fEdges = g.fEdges := by
  unfold Grid.delFace at hr
  simp only at hr
  split at hr
  · cases hr
  · rw [res_bind_eq_ok] at hr
    obtain ⟨l, -, hr⟩ := hr
    rw [res_bind_eq_ok] at hr
    obtain ⟨l', -, hr⟩ := hr
    obtain rfl := Except.ok.inj hr
    refine ⟨?_, rfl⟩
    show (g.fEdges f).foldl (dropFrom f) g.eFaces x = _
    rw [dropFrom_fold _ _ _ hn, if_pos hx]

/-- What cutting the edge `e` does to objects that exist already. -/
theorem cutBorder_frame [DecidableEq R] {rc : Vec F → R} {g g' : Grid F R} {e f : Nat} {p : Vec F} (hf : g.eFaces e = [f]) (hl : f < g.fNext)
    (hn : (g.fEdges f).Nodup) (he : e ∈ g.fEdges f) (hel : e < g.eNext) (h : g.cutBorder rc e p = .ok g') :
    Frame (fun x => x ≠ e ∧ x ∈ g.fEdges f) (fun k => k = f) e (fun k => k = f) g g' ∧ g'.eFaces e = [] := by
  unfold cutBorder at h
  simp only [hf, show Py.get [f] 0 = .ok f from rfl, res_bind_ok] at h
  simp only [res_bind_eq_ok] at h
  obtain ⟨z, hz, ga, ha, gb, hb, n1, hn1, n2, hn2, n3, hn3, ⟨gc, n4⟩, hc, gd, hd, e13, h13, e23, h23, gl, hgl, gz, hgz, h⟩ := h
  obtain rfl := Except.ok.inj h
  obtain ⟨d1, d2⟩ := delFace_eFaces hn he ha
  have he0 : ∀ k ∈ ga.eFaces e, k = f := by rw [d1, hf]; simp
  have head : ∀ {L : Nat → Prop} {g0 : Grid F R}, Frame (fun x => x ≠ e ∧ x ∈ g.fEdges f) (fun k => k = f) e L g0 ga → f < g0.fNext → (g0.fEdges f).Nodup →
      Frame (fun x => x ≠ e ∧ x ∈ g.fEdges f) (fun k => k = f) e (fun k => L k ∨ k = f) g0 gd ∧ g0.fNext ≤ gb.fNext := fun F0 h1 h2 =>
    ⟨((((F0.delEdge he0 hb).newFaces _).addFaces _).placeNode hc).1.lose h1 h2 rfl hd |>.1, (F0.delEdge he0 hb).fNext⟩
  have hg := (head ((Frame.refl _ _ e g).delFace ha) hl hn).1
  have mem : ∀ {x n}, gd.edgeAt f n = .ok x → x ≠ e ∧ x ∈ g.fEdges f := fun hx =>
    ⟨fun he => hg.lost f hl (Or.inr rfl) (he ▸ edgeAt_mem hx), (hg.fEdges f hl).subset (edgeAt_mem hx)⟩
  have m13 := mem h13
  have m23 := mem h23
  have tail : ∀ {L : Nat → Prop} {g0 : Grid F R}, Frame (fun x => x ≠ e ∧ x ∈ g.fEdges f) (fun k => k = f) e L g0 ga → f < g0.fNext → (g0.fEdges f).Nodup →
      Frame (fun x => x ≠ e ∧ x ∈ g.fEdges f) (fun k => k = f) e (fun k => L k ∨ k = f) g0 (gz.zoneAddEdges z [gd.eNext, gd.eNext + 1, gd.eNext + 2]) := by
    intro L g0 F0 h1 h2
    obtain ⟨k, hk⟩ := head F0 h1 h2
    have := k.eNext
    refine Frame.zoneAddEdges _ _ (Frame.zoneAddFaces _ (Frame.linkEF _ ((((k.newEdges 3).addEdges _).linkNE _ ?_).linkNF _) ?_ hgl) ?_ hgz)
    · simp only [List.forall_mem_cons, List.not_mem_nil, false_imp_iff, implies_true, and_true]; omega
    · simp only [List.forall_mem_cons, List.not_mem_nil, false_imp_iff, implies_true, and_true, m13, m23, true_or, ne_eq, not_false_eq_true, true_and]; omega
    · simp only [List.forall_mem_cons, List.not_mem_nil, false_imp_iff, implies_true, and_true]; omega
  have fa := (Frame.refl (fun x => x ≠ e ∧ x ∈ g.fEdges f) (fun k => k = f) e g).delFace ha
  have t1 := tail fa hl hn
  have t2 := tail (Frame.refl _ _ e ga) (lt_of_lt_of_le hl fa.fNext) (d2 ▸ hn)
  refine ⟨⟨t1.nNext, t1.eNext, t1.fNext, t1.nP, t1.eNodes, t1.eFaces, t1.fEdges, t1.kept, t1.fZone, fun k hk hL => t1.lost k hk (Or.inr hL)⟩, ?_⟩
  have := t2.eFaces e (lt_of_lt_of_le hel fa.eNext) (fun h => h.1 rfl)
  rw [d1, hf] at this
  simpa using this

@[inherit_doc cutBorder_frame]
theorem cutBorder2_frame [DecidableEq R] {rc : Vec F → R} {g g' : Grid F R} {e f : Nat} {p1 p2 : Vec F} (hf : g.eFaces e = [f]) (hl : f < g.fNext)
    (hn : (g.fEdges f).Nodup) (he : e ∈ g.fEdges f) (hel : e < g.eNext) (h : g.cutBorder2 rc e p1 p2 = .ok g') :
    Frame (fun x => x ≠ e ∧ x ∈ g.fEdges f) (fun k => k = f) e (fun k => k = f) g g' ∧ g'.eFaces e = [] := by
  unfold cutBorder2 at h
  simp only [hf, show Py.get [f] 0 = .ok f from rfl, res_bind_ok] at h
  simp only [res_bind_eq_ok] at h
  obtain ⟨z, hz, ga, ha, gb, hb, n1, hn1, n2, hn2, n3, hn3, ⟨gc0, m0⟩, hc0, ⟨gc1, m1⟩, hc1, gd, hd, e13, h13, e23, h23, gl, hgl, gz, hgz, h⟩ := h
  obtain rfl := Except.ok.inj h
  obtain ⟨d1, d2⟩ := delFace_eFaces hn he ha
  have he0 : ∀ k ∈ ga.eFaces e, k = f := by rw [d1, hf]; simp
  have head : ∀ {L : Nat → Prop} {g0 : Grid F R}, Frame (fun x => x ≠ e ∧ x ∈ g.fEdges f) (fun k => k = f) e L g0 ga → f < g0.fNext → (g0.fEdges f).Nodup →
      Frame (fun x => x ≠ e ∧ x ∈ g.fEdges f) (fun k => k = f) e (fun k => L k ∨ k = f) g0 gd ∧ g0.fNext ≤ gb.fNext := fun F0 h1 h2 =>
    ⟨(((((F0.delEdge he0 hb).newFaces _).addFaces _).placeNode hc0).1.placeNode hc1).1.lose h1 h2 rfl hd |>.1, (F0.delEdge he0 hb).fNext⟩
  have hg := (head ((Frame.refl _ _ e g).delFace ha) hl hn).1
  have mem : ∀ {x n}, gd.edgeAt f n = .ok x → x ≠ e ∧ x ∈ g.fEdges f := fun hx =>
    ⟨fun he => hg.lost f hl (Or.inr rfl) (he ▸ edgeAt_mem hx), (hg.fEdges f hl).subset (edgeAt_mem hx)⟩
  have m13 := mem h13
  have m23 := mem h23
  have tail : ∀ {L : Nat → Prop} {g0 : Grid F R}, Frame (fun x => x ≠ e ∧ x ∈ g.fEdges f) (fun k => k = f) e L g0 ga → f < g0.fNext → (g0.fEdges f).Nodup →
      Frame (fun x => x ≠ e ∧ x ∈ g.fEdges f) (fun k => k = f) e (fun k => L k ∨ k = f) g0 (gz.zoneAddEdges z [gd.eNext, gd.eNext + 1, gd.eNext + 2, gd.eNext + 3, gd.eNext + 4]) := by
    intro L g0 F0 h1 h2
    obtain ⟨k, hk⟩ := head F0 h1 h2
    have := k.eNext
    refine Frame.zoneAddEdges _ _ (Frame.zoneAddFaces _ (Frame.linkEF _ ((((k.newEdges 5).addEdges _).linkNE _ ?_).linkNF _) ?_ hgl) ?_ hgz)
    · simp only [List.forall_mem_cons, List.not_mem_nil, false_imp_iff, implies_true, and_true]; omega
    · simp only [List.forall_mem_cons, List.not_mem_nil, false_imp_iff, implies_true, and_true, m13, m23, true_or, ne_eq, not_false_eq_true, true_and]; omega
    · simp only [List.forall_mem_cons, List.not_mem_nil, false_imp_iff, implies_true, and_true]; omega
  have fa := (Frame.refl (fun x => x ≠ e ∧ x ∈ g.fEdges f) (fun k => k = f) e g).delFace ha
  have t1 := tail fa hl hn
  have t2 := tail (Frame.refl _ _ e ga) (lt_of_lt_of_le hl fa.fNext) (d2 ▸ hn)
  refine ⟨⟨t1.nNext, t1.eNext, t1.fNext, t1.nP, t1.eNodes, t1.eFaces, t1.fEdges, t1.kept, t1.fZone, fun k hk hL => t1.lost k hk (Or.inr hL)⟩, ?_⟩
  have := t2.eFaces e (lt_of_lt_of_le hel fa.eNext) (fun h => h.1 rfl)
  rw [d1, hf] at this
  simpa using this

@[inherit_doc cutBorder_frame]
theorem cutInner_frame [DecidableEq R] {rc : Vec F → R} {g g' : Grid F R} {e f k : Nat} {p : Vec F} (hf : g.eFaces e = [f, k])
    (hl : f < g.fNext ∧ k < g.fNext) (hfk : f ≠ k)
    (hn : (g.fEdges f).Nodup ∧ (g.fEdges k).Nodup) (he : e ∈ g.fEdges f ∧ e ∈ g.fEdges k) (hel : e < g.eNext) (h : g.cutInner rc e p = .ok g') :
    Frame (fun x => x ≠ e ∧ (x ∈ g.fEdges f ∨ x ∈ g.fEdges k)) (fun x => x = f ∨ x = k) e (fun x => x = f ∨ x = k) g g' ∧ g'.eFaces e = [] := by
  unfold cutInner at h
  simp only [hf, show Py.get [f, k] 0 = .ok f from rfl, show Py.get [f, k] 1 = .ok k from rfl, res_bind_ok] at h
  simp only [res_bind_eq_ok] at h
  obtain ⟨z, hz, ga0, ha0, ga, ha, gb, hb, n1, hn1, n2, hn2, n3, hn3, n4, hn4, ⟨gc0, m0⟩, hc0, gd0, hd0, gd, hd, e13, h13, e23, h23, e14, h14, e24, h24, gl, hgl, gz, hgz, h⟩ := h
  obtain rfl := Except.ok.inj h
  obtain ⟨d1, d2⟩ := delFace_eFaces hn.1 he.1 ha0
  obtain ⟨d3, d4⟩ := delFace_eFaces (d2 ▸ hn.2) (d2 ▸ he.2) ha
  have he0 : ∀ x ∈ ga.eFaces e, x = f ∨ x = k := by rw [d3, d1, hf]; simp
  have head : ∀ {L : Nat → Prop} {g0 : Grid F R}, Frame (fun x => x ≠ e ∧ (x ∈ g.fEdges f ∨ x ∈ g.fEdges k)) (fun x => x = f ∨ x = k) e L g0 ga → f < g0.fNext ∧ k < g0.fNext →
      (g0.fEdges f).Nodup ∧ (g0.fEdges k).Nodup →
      Frame (fun x => x ≠ e ∧ (x ∈ g.fEdges f ∨ x ∈ g.fEdges k)) (fun x => x = f ∨ x = k) e (fun x => (L x ∨ x = f) ∨ x = k) g0 gd ∧ g0.fNext ≤ gb.fNext := fun F0 h1 h2 =>
    ⟨(((((F0.delEdge he0 hb).newFaces _).addFaces _).placeNode hc0).1.lose h1.1 h2.1 (Or.inl rfl) hd0).1.lose h1.2 h2.2 (Or.inr rfl) hd |>.1, (F0.delEdge he0 hb).fNext⟩
  have hg := (head (((Frame.refl _ _ e g).delFace ha0).delFace ha) hl hn).1
  have memf : ∀ {x n}, gd.edgeAt f n = .ok x → x ≠ e ∧ (x ∈ g.fEdges f ∨ x ∈ g.fEdges k) := fun hx =>
    ⟨fun he => hg.lost f hl.1 (Or.inl (Or.inr rfl)) (he ▸ edgeAt_mem hx), Or.inl ((hg.fEdges f hl.1).subset (edgeAt_mem hx))⟩
  have memk : ∀ {x n}, gd.edgeAt k n = .ok x → x ≠ e ∧ (x ∈ g.fEdges f ∨ x ∈ g.fEdges k) := fun hx =>
    ⟨fun he => hg.lost k hl.2 (Or.inr rfl) (he ▸ edgeAt_mem hx), Or.inr ((hg.fEdges k hl.2).subset (edgeAt_mem hx))⟩
  have m13 := memf h13
  have m23 := memf h23
  have m14 := memk h14
  have m24 := memk h24
  have tail : ∀ {L : Nat → Prop} {g0 : Grid F R}, Frame (fun x => x ≠ e ∧ (x ∈ g.fEdges f ∨ x ∈ g.fEdges k)) (fun x => x = f ∨ x = k) e L g0 ga → f < g0.fNext ∧ k < g0.fNext →
      (g0.fEdges f).Nodup ∧ (g0.fEdges k).Nodup →
      Frame (fun x => x ≠ e ∧ (x ∈ g.fEdges f ∨ x ∈ g.fEdges k)) (fun x => x = f ∨ x = k) e (fun x => (L x ∨ x = f) ∨ x = k) g0 (gz.zoneAddEdges z [gd.eNext, gd.eNext + 1, gd.eNext + 2, gd.eNext + 3]) := by
    intro L g0 F0 h1 h2
    obtain ⟨q, hk⟩ := head F0 h1 h2
    have := q.eNext
    refine Frame.zoneAddEdges _ _ (Frame.zoneAddFaces _ (Frame.linkEF _ ((((q.newEdges 4).addEdges _).linkNE _ ?_).linkNF _) ?_ hgl) ?_ hgz)
    · simp only [List.forall_mem_cons, List.not_mem_nil, false_imp_iff, implies_true, and_true]; omega
    · simp only [List.forall_mem_cons, List.not_mem_nil, false_imp_iff, implies_true, and_true, m13, m23, m14, m24, true_or, ne_eq, not_false_eq_true, true_and]; omega
    · simp only [List.forall_mem_cons, List.not_mem_nil, false_imp_iff, implies_true, and_true]; omega
  have fa := ((Frame.refl (fun x => x ≠ e ∧ (x ∈ g.fEdges f ∨ x ∈ g.fEdges k)) (fun x => x = f ∨ x = k) e g).delFace ha0).delFace ha
  have t1 := tail fa hl hn
  have t2 := tail (Frame.refl _ _ e ga) ⟨lt_of_lt_of_le hl.1 fa.fNext, lt_of_lt_of_le hl.2 fa.fNext⟩ (by rw [d4, d2]; exact hn)
  refine ⟨⟨t1.nNext, t1.eNext, t1.fNext, t1.nP, t1.eNodes, t1.eFaces, t1.fEdges, t1.kept, t1.fZone, fun x hk hL => t1.lost x hk ?_⟩, ?_⟩
  · rcases hL with hL | hL
    · exact Or.inl (Or.inr hL)
    · exact Or.inr hL
  have := t2.eFaces e (lt_of_lt_of_le hel fa.eNext) (fun h => h.1 rfl)
  rw [d3, d1, hf] at this
  simpa using this

@[inherit_doc cutBorder_frame]
theorem cutInner2_frame [DecidableEq R] {rc : Vec F → R} {g g' : Grid F R} {e f k : Nat} {p1 p2 : Vec F} (hf : g.eFaces e = [f, k])
    (hl : f < g.fNext ∧ k < g.fNext) (hfk : f ≠ k)
    (hn : (g.fEdges f).Nodup ∧ (g.fEdges k).Nodup) (he : e ∈ g.fEdges f ∧ e ∈ g.fEdges k) (hel : e < g.eNext) (h : g.cutInner2 rc e p1 p2 = .ok g') :
    Frame (fun x => x ≠ e ∧ (x ∈ g.fEdges f ∨ x ∈ g.fEdges k)) (fun x => x = f ∨ x = k) e (fun x => x = f ∨ x = k) g g' ∧ g'.eFaces e = [] := by
  unfold cutInner2 at h
  simp only [hf, show Py.get [f, k] 0 = .ok f from rfl, show Py.get [f, k] 1 = .ok k from rfl, res_bind_ok] at h
  simp only [res_bind_eq_ok] at h
  obtain ⟨z, hz, ga0, ha0, ga, ha, gb, hb, n1, hn1, n2, hn2, n3, hn3, n4, hn4, ⟨gc0, m0⟩, hc0, ⟨gc1, m1⟩, hc1, gd0, hd0, gd, hd, e13, h13, e23, h23, e14, h14, e24, h24, gl, hgl, gz, hgz, h⟩ := h
  obtain rfl := Except.ok.inj h
  obtain ⟨d1, d2⟩ := delFace_eFaces hn.1 he.1 ha0
  obtain ⟨d3, d4⟩ := delFace_eFaces (d2 ▸ hn.2) (d2 ▸ he.2) ha
  have he0 : ∀ x ∈ ga.eFaces e, x = f ∨ x = k := by rw [d3, d1, hf]; simp
  have head : ∀ {L : Nat → Prop} {g0 : Grid F R}, Frame (fun x => x ≠ e ∧ (x ∈ g.fEdges f ∨ x ∈ g.fEdges k)) (fun x => x = f ∨ x = k) e L g0 ga → f < g0.fNext ∧ k < g0.fNext →
      (g0.fEdges f).Nodup ∧ (g0.fEdges k).Nodup →
      Frame (fun x => x ≠ e ∧ (x ∈ g.fEdges f ∨ x ∈ g.fEdges k)) (fun x => x = f ∨ x = k) e (fun x => (L x ∨ x = f) ∨ x = k) g0 gd ∧ g0.fNext ≤ gb.fNext := fun F0 h1 h2 =>
    ⟨((((((F0.delEdge he0 hb).newFaces _).addFaces _).placeNode hc0).1.placeNode hc1).1.lose h1.1 h2.1 (Or.inl rfl) hd0).1.lose h1.2 h2.2 (Or.inr rfl) hd |>.1, (F0.delEdge he0 hb).fNext⟩
  have hg := (head (((Frame.refl _ _ e g).delFace ha0).delFace ha) hl hn).1
  have memf : ∀ {x n}, gd.edgeAt f n = .ok x → x ≠ e ∧ (x ∈ g.fEdges f ∨ x ∈ g.fEdges k) := fun hx =>
    ⟨fun he => hg.lost f hl.1 (Or.inl (Or.inr rfl)) (he ▸ edgeAt_mem hx), Or.inl ((hg.fEdges f hl.1).subset (edgeAt_mem hx))⟩
  have memk : ∀ {x n}, gd.edgeAt k n = .ok x → x ≠ e ∧ (x ∈ g.fEdges f ∨ x ∈ g.fEdges k) := fun hx =>
    ⟨fun he => hg.lost k hl.2 (Or.inr rfl) (he ▸ edgeAt_mem hx), Or.inr ((hg.fEdges k hl.2).subset (edgeAt_mem hx))⟩
  have m13 := memf h13
  have m23 := memf h23
  have m14 := memk h14
  have m24 := memk h24
  have tail : ∀ {L : Nat → Prop} {g0 : Grid F R}, Frame (fun x => x ≠ e ∧ (x ∈ g.fEdges f ∨ x ∈ g.fEdges k)) (fun x => x = f ∨ x = k) e L g0 ga → f < g0.fNext ∧ k < g0.fNext →
      (g0.fEdges f).Nodup ∧ (g0.fEdges k).Nodup →
      Frame (fun x => x ≠ e ∧ (x ∈ g.fEdges f ∨ x ∈ g.fEdges k)) (fun x => x = f ∨ x = k) e (fun x => (L x ∨ x = f) ∨ x = k) g0 (gz.zoneAddEdges z [gd.eNext, gd.eNext + 1, gd.eNext + 2, gd.eNext + 3, gd.eNext + 4, gd.eNext + 5, gd.eNext + 6]) := by
    intro L g0 F0 h1 h2
    obtain ⟨q, hk⟩ := head F0 h1 h2
    have := q.eNext
    refine Frame.zoneAddEdges _ _ (Frame.zoneAddFaces _ (Frame.linkEF _ ((((q.newEdges 7).addEdges _).linkNE _ ?_).linkNF _) ?_ hgl) ?_ hgz)
    · simp only [List.forall_mem_cons, List.not_mem_nil, false_imp_iff, implies_true, and_true]; omega
    · simp only [List.forall_mem_cons, List.not_mem_nil, false_imp_iff, implies_true, and_true, m13, m23, m14, m24, true_or, ne_eq, not_false_eq_true, true_and]; omega
    · simp only [List.forall_mem_cons, List.not_mem_nil, false_imp_iff, implies_true, and_true]; omega
  have fa := ((Frame.refl (fun x => x ≠ e ∧ (x ∈ g.fEdges f ∨ x ∈ g.fEdges k)) (fun x => x = f ∨ x = k) e g).delFace ha0).delFace ha
  have t1 := tail fa hl hn
  have t2 := tail (Frame.refl _ _ e ga) ⟨lt_of_lt_of_le hl.1 fa.fNext, lt_of_lt_of_le hl.2 fa.fNext⟩ (by rw [d4, d2]; exact hn)
  refine ⟨⟨t1.nNext, t1.eNext, t1.fNext, t1.nP, t1.eNodes, t1.eFaces, t1.fEdges, t1.kept, t1.fZone, fun x hk hL => t1.lost x hk ?_⟩, ?_⟩
  · rcases hL with hL | hL
    · exact Or.inl (Or.inr hL)
    · exact Or.inr hL
  have := t2.eFaces e (lt_of_lt_of_le hel fa.eNext) (fun h => h.1 rfl)
  rw [d3, d1, hf] at this
  simpa using this

theorem findEdge_mem [DecidableEq R] {g : Grid F R} {a b e : Nat} (h : g.findEdge a b = some e) : e ∈ g.nEdges a :=
  List.mem_of_find?_eq_some h

theorem someEdge_ok {o : Option Nat} {e : Nat} (h : someEdge o = .ok e) : o = some e := by
  cases o with
  | none => cases h
  | some x => obtain rfl := Except.ok.inj h; rfl

theorem divideFace_frame [DecidableEq R] {rc : Vec F → R} {g g' : Grid F R} (G : Good rc g) {f : Nat} {p : Vec F} (hf : f ∈ g.faces) (e : Nat)
    (h : g.divideFace rc f p = .ok g') : Frame (fun x => x ∈ g.edges) (fun _ => False) e (fun _ => False) g g' := by
  unfold divideFace at h
  simp only [res_bind_eq_ok] at h
  obtain ⟨z, hz, ga, ha, n1, hn1, n2, hn2, n3, hn3, ⟨gc, n4⟩, hc, e1, he1, e2, he2, e3, he3, gl, hgl, gz, hgz, h⟩ := h
  obtain rfl := Except.ok.inj h
  obtain ⟨na, nb, nc, hn⟩ := List.length_eq_three.1 (G.mesh.face_nodes f hf).1
  rw [hn] at hn1 hn2 hn3
  obtain rfl : na = n1 := Except.ok.inj hn1
  obtain rfl : nb = n2 := Except.ok.inj hn2
  obtain rfl : nc = n3 := Except.ok.inj hn3
  have k1 := ((Frame.refl (fun x => x ∈ g.edges) (fun _ => False) e g).delFace ha).newFaces [g.fData f, g.fData f, g.fData f]
  obtain ⟨k2, -, -, q3, q4, q5⟩ := k1.placeNode hc
  have hne : (ga.newFaces [g.fData f, g.fData f, g.fData f]).nEdges = g.nEdges := by
    rw [newFaces_eq]
    unfold Grid.delFace at ha
    simp only at ha
    split at ha
    · cases ha
    · rw [res_bind_eq_ok] at ha
      obtain ⟨l, -, ha⟩ := ha
      rw [res_bind_eq_ok] at ha
      obtain ⟨l', -, ha⟩ := ha
      obtain rfl := Except.ok.inj ha
      rfl
  have mem : ∀ {n x}, n ∈ g.fNodes f → x ∈ gc.nEdges n → x ∈ g.edges := by
    intro n x hnf hx
    have hn := (G.mesh.face_nodes f hf).2.2 n hnf
    rw [q5 n (lt_of_lt_of_le (G.alloc.nodes n hn) k1.nNext), hne] at hx
    exact ((G.mesh.node_edge n hn x).1 hx).1
  have m1 := mem (n := na) (by rw [hn]; simp) (findEdge_mem (someEdge_ok he1))
  have m2 := mem (n := nb) (by rw [hn]; simp) (findEdge_mem (someEdge_ok he2))
  have m3 := mem (n := na) (by rw [hn]; simp) (findEdge_mem (someEdge_ok he3))
  have := k2.eNext
  have hk := ((Frame.refl (fun x => x ∈ g.edges) (fun _ => False) e g).delFace ha).fNext
  refine Frame.zoneAddEdges _ _ (Frame.zoneAddFaces _ (((Frame.linkEF _ ((k2.newEdges 3).linkNE _ ?_) ?_ hgl).linkNF _).addFaces _ |>.addEdges _) ?_ hgz)
  · simp only [List.forall_mem_cons, List.not_mem_nil, false_imp_iff, implies_true, and_true]; omega
  · simp only [List.forall_mem_cons, List.not_mem_nil, false_imp_iff, implies_true, and_true, m1, m2, m3, true_or, true_and]; omega
  · simp only [List.forall_mem_cons, List.not_mem_nil, false_imp_iff, implies_true, and_true]; omega

end Verif
