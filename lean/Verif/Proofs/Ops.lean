import Verif.Proofs.Patch
import Verif.Proofs.Zones

/-! Closed forms of the building blocks of grid transformations. -/

namespace Verif
namespace Grid
variable {F R : Type}

theorem sndOf_nil (a : Nat) : sndOf [] a = [] := rfl
theorem fstOf_nil (a : Nat) : fstOf [] a = [] := rfl
theorem sndOf_cons (p : Nat × Nat) (l : List (Nat × Nat)) (a : Nat) :
    sndOf (p :: l) a = (if p.1 = a then [p.2] else []) ++ sndOf l a := by
  unfold sndOf; by_cases h : p.1 = a <;> simp [h]
theorem fstOf_cons (p : Nat × Nat) (l : List (Nat × Nat)) (a : Nat) :
    fstOf (p :: l) a = (if p.2 = a then [p.1] else []) ++ fstOf l a := by
  unfold fstOf; by_cases h : p.2 = a <;> simp [h]

theorem upd_eta {α : Type _} (m : Nat → α) (z : Nat) : upd m z (m z) = m := by
  funext j; simp only [upd]; split
  · next h => rw [h]
  · rfl

theorem linkNE_eq (l : List (Nat × Nat)) : ∀ g : Grid F R, g.linkNE l =
    { g with nEdges := fun n => g.nEdges n ++ sndOf l n, eNodes := fun e => g.eNodes e ++ fstOf l e } := by
  induction l with
  | nil => intro g; simp [linkNE, sndOf_nil, fstOf_nil]
  | cons p l ih =>
    intro g
    show (g.linkNodeEdge p.1 p.2).linkNE l = _
    rw [ih]
    unfold linkNodeEdge
    congr 1
    · funext n; rw [sndOf_cons]; simp only [upd]
      by_cases h : n = p.1
      · subst h; simp
      · simp [h, Ne.symm h]
    · funext n; rw [fstOf_cons]; simp only [upd]
      by_cases h : n = p.2
      · subst h; simp
      · simp [h, Ne.symm h]

theorem linkNF_eq (l : List (Nat × Nat)) : ∀ g : Grid F R, g.linkNF l =
    { g with nFaces := fun n => g.nFaces n ++ sndOf l n, fNodes := fun f => g.fNodes f ++ fstOf l f } := by
  induction l with
  | nil => intro g; simp [linkNF, sndOf_nil, fstOf_nil]
  | cons p l ih =>
    intro g
    show (g.linkNodeFace p.1 p.2).linkNF l = _
    rw [ih]
    unfold linkNodeFace
    congr 1
    · funext n; rw [sndOf_cons]; simp only [upd]
      by_cases h : n = p.1
      · subst h; simp
      · simp [h, Ne.symm h]
    · funext n; rw [fstOf_cons]; simp only [upd]
      by_cases h : n = p.2
      · subst h; simp
      · simp [h, Ne.symm h]

theorem linkEF_ok (l : List (Nat × Nat)) : ∀ g : Grid F R,
    (∀ e, ∀ p ∈ l, p.1 = e → (g.eFaces e).length + (sndOf l e).length ≤ 2) → g.linkEF l = .ok
    { g with eFaces := fun e => g.eFaces e ++ sndOf l e, fEdges := fun f => g.fEdges f ++ fstOf l f } := by
  induction l with
  | nil => intro g _; simp [linkEF, sndOf_nil, fstOf_nil]
  | cons p l ih =>
    intro g h
    show (g.linkEdgeFace p.1 p.2 >>= fun g => g.linkEF l) = _
    have h1 := h p.1 p List.mem_cons_self rfl
    rw [sndOf_cons, if_pos rfl] at h1
    simp at h1
    have : g.linkEdgeFace p.1 p.2 = .ok { g with
        eFaces := upd g.eFaces p.1 (g.eFaces p.1 ++ [p.2])
        fEdges := upd g.fEdges p.2 (g.fEdges p.2 ++ [p.1]) } := by
      unfold linkEdgeFace; rw [if_neg (by omega)]
    rw [this, res_bind_ok, ih]
    · congr 2
      · funext n; rw [sndOf_cons]; simp only [upd]
        by_cases h : n = p.1
        · subst h; simp
        · simp [h, Ne.symm h]
      · funext n; rw [fstOf_cons]; simp only [upd]
        by_cases h : n = p.2
        · subst h; simp
        · simp [h, Ne.symm h]
    · intro e q hq he
      have := h e q (List.mem_cons_of_mem _ hq) he
      rw [sndOf_cons] at this
      simp only [upd]
      by_cases h : e = p.1
      · subst h; simp at this ⊢; omega
      · simp [h, Ne.symm h] at this ⊢; omega

theorem zoneAddEdges_eq (z : Nat) (l : List Nat) : ∀ g : Grid F R,
    g.zoneAddEdges z l = { g with zEdges := upd g.zEdges z (g.zEdges z ++ l) } := by
  induction l with
  | nil =>
    intro g; simp only [zoneAddEdges, List.foldl_nil, List.append_nil]
    rw [upd_eta]
  | cons e l ih =>
    intro g
    show (g.zoneAddEdge z e).zoneAddEdges z l = _
    rw [ih]; unfold zoneAddEdge; congr 1
    funext j; simp only [upd]; split <;> simp

theorem zoneAddFaces_ok (z : Nat) (l : List Nat) : ∀ g : Grid F R, (∀ f ∈ l, g.fZone f = none) → l.Nodup →
    g.zoneAddFaces z l = .ok { g with
      fZone := fun f => if f ∈ l then some z else g.fZone f
      zFaces := upd g.zFaces z (g.zFaces z ++ l) } := by
  induction l with
  | nil =>
    intro g _ _; simp only [zoneAddFaces, List.foldlM_nil, List.append_nil, res_pure]
    rw [upd_eta]
    simp
  | cons f l ih =>
    intro g h hn
    show (g.zoneAddFace z f >>= fun g => g.zoneAddFaces z l) = _
    have h1 : g.zoneAddFace z f = .ok { g with fZone := upd g.fZone f (some z), zFaces := upd g.zFaces z (g.zFaces z ++ [f]) } := by
      unfold zoneAddFace; rw [if_neg (by simp [h f List.mem_cons_self]), res_bind_ok]
    rw [h1, res_bind_ok, ih]
    · congr 2
      · funext k; simp only [upd]
        by_cases hk : k = f
        · subst hk; simp
        · simp [hk]
      · funext j; simp only [upd]; split <;> simp
    · intro k hk
      rw [List.nodup_cons] at hn
      have : k ≠ f := by rintro rfl; exact hn.1 hk
      simp only [upd, this, if_false]; exact h k (List.mem_cons_of_mem _ hk)
    · exact (List.nodup_cons.1 hn).2

/-- Identifiers after a sequence of `add_face` or `add_edge` calls. -/
def gloFold (m : Nat → Nat) (len : Nat) : List (Nat × Option Nat) → Nat → Nat
  | [] => m
  | p :: t => gloFold (upd m p.1 (p.2.getD len)) (len + 1) t

theorem addFaces_eq (l : List (Nat × Option Nat)) : ∀ g : Grid F R, g.addFaces l =
    { g with faces := g.faces ++ l.map Prod.fst, fGlo := gloFold g.fGlo g.faces.length l } := by
  induction l with
  | nil => intro g; simp [addFaces, gloFold]
  | cons p l ih =>
    intro g
    show (g.addFace p.1 p.2).addFaces l = _
    rw [ih]; unfold addFace; congr 1
    · simp
    · rw [gloFold]; simp

theorem addEdges_eq (l : List (Nat × Option Nat)) : ∀ g : Grid F R, g.addEdges l =
    { g with edges := g.edges ++ l.map Prod.fst, eGlo := gloFold g.eGlo g.edges.length l } := by
  induction l with
  | nil => intro g; simp [addEdges, gloFold]
  | cons p l ih =>
    intro g
    show (g.addEdge p.1 p.2).addEdges l = _
    rw [ih]; unfold addEdge; congr 1
    · simp
    · rw [gloFold]; simp

theorem gloFold_ne (l : List (Nat × Option Nat)) : ∀ (m : Nat → Nat) (len x : Nat), (∀ p ∈ l, p.1 ≠ x) → gloFold m len l x = m x := by
  induction l with
  | nil => intros; rfl
  | cons p l ih =>
    intro m len x h
    rw [gloFold, ih _ _ _ (fun q hq => h q (List.mem_cons_of_mem _ hq)), upd_ne _ _ (h p List.mem_cons_self).symm]

theorem newFaces_eq (l : List (List (Str × F))) : ∀ g : Grid F R, g.newFaces l = { g with
    fGlo := fun f => if g.fNext ≤ f ∧ f < g.fNext + l.length then 0 else g.fGlo f
    fData := fun f => if g.fNext ≤ f ∧ f < g.fNext + l.length then l[f - g.fNext]?.getD [] else g.fData f
    fNodes := fun f => if g.fNext ≤ f ∧ f < g.fNext + l.length then [] else g.fNodes f
    fEdges := fun f => if g.fNext ≤ f ∧ f < g.fNext + l.length then [] else g.fEdges f
    fZone := fun f => if g.fNext ≤ f ∧ f < g.fNext + l.length then none else g.fZone f
    fMark := fun f => if g.fNext ≤ f ∧ f < g.fNext + l.length then false else g.fMark f
    fNext := g.fNext + l.length } := by
  induction l with
  | nil =>
    intro g
    have : ∀ f, ¬ (g.fNext ≤ f ∧ f < g.fNext + 0) := by intro f; omega
    simp only [newFaces, List.foldl_nil, List.length_nil, this, if_false]; rfl
  | cons d l ih =>
    intro g
    show (g.newFace d).newFaces l = _
    rw [ih]; unfold newFace
    have key : ∀ f, f ≠ g.fNext → ((g.fNext + 1 ≤ f ∧ f < g.fNext + 1 + l.length) ↔ (g.fNext ≤ f ∧ f < g.fNext + (l.length + 1))) := by
      intro f hf; omega
    have key0 : ¬ (g.fNext + 1 ≤ g.fNext ∧ g.fNext < g.fNext + 1 + l.length) := by omega
    have key1 : (g.fNext ≤ g.fNext ∧ g.fNext < g.fNext + (l.length + 1)) := by omega
    congr 1
    case e_fNext => simp; omega
    case e_fData =>
      funext f; simp only [upd, List.length_cons]
      by_cases h : f = g.fNext
      · subst h; rw [if_neg key0, if_pos rfl, if_pos key1]; simp
      · simp only [key f h, h, if_false]
        split
        · next hh =>
          have : f - g.fNext = (f - (g.fNext + 1)) + 1 := by omega
          rw [this, List.getElem?_cons_succ]
        · rfl
    all_goals
      funext f; simp only [upd, List.length_cons]
      by_cases h : f = g.fNext
      · subst h; simp
      · simp only [key f h, h, if_false]

theorem newEdges_eq (g : Grid F R) (k : Nat) : g.newEdges k = { g with
    eGlo := fun e => if g.eNext ≤ e ∧ e < g.eNext + k then 0 else g.eGlo e
    eNodes := fun e => if g.eNext ≤ e ∧ e < g.eNext + k then [] else g.eNodes e
    eFaces := fun e => if g.eNext ≤ e ∧ e < g.eNext + k then [] else g.eFaces e
    eNext := g.eNext + k } := by
  induction k with
  | zero =>
    have : ∀ f, ¬ (g.eNext ≤ f ∧ f < g.eNext + 0) := by intro f; omega
    simp only [newEdges, this, if_false]; rfl
  | succ k ih =>
    show (g.newEdges k).newEdge = _
    rw [ih]; unfold newEdge
    have key : ∀ f, f ≠ g.eNext + k → ((g.eNext ≤ f ∧ f < g.eNext + k) ↔ (g.eNext ≤ f ∧ f < g.eNext + (k + 1))) := by
      intro f hf; omega
    congr 1
    all_goals
      funext f; simp only [upd]
      by_cases h : f = g.eNext + k
      · subst h; simp
      · simp only [key f h, h, if_false]

theorem placeNode_ok [DecidableEq R] (rc : Vec F → R) (g : Grid F R) (z : Nat) (p : Vec F) (h : rc p ∉ g.bag) :
    g.placeNode rc z p = .ok ({ g with
      nodes := g.nodes ++ [g.nNext]
      bag := g.bag ++ [rc p]
      nGlo := upd g.nGlo g.nNext g.nodes.length
      nP := upd g.nP g.nNext p
      nKey := upd g.nKey g.nNext (rc p)
      nEdges := upd g.nEdges g.nNext []
      nFaces := upd g.nFaces g.nNext []
      nBorder := upd g.nBorder g.nNext false
      nNext := g.nNext + 1
      zNodes := upd g.zNodes z (g.zNodes z ++ [g.nNext]) }, g.nNext) := by
  have h1 : (g.newNode rc p).nKey g.nNext = rc p := by simp [newNode]
  have h2 : (g.newNode rc p).findNearNode g.nNext = .ok none := by
    unfold findNearNode; rw [h1]; exact if_neg h
  have h3 : (g.newNode rc p).addNode g.nNext true = .ok ((g.newNode rc p).pushNode g.nNext, g.nNext) := by
    unfold addNode; rw [h2]; rfl
  unfold placeNode
  simp only [h3, res_bind_ok, if_true]
  congr 2
  unfold pushNode zoneAddNode newNode
  simp only [upd_self]
  congr 1
  · exact if_neg h
  · funext j; simp only [upd]; split <;> rfl

theorem dropFrom_fold (x : Nat) (l : List Nat) : ∀ m : Nat → List Nat, l.Nodup → ∀ o,
    l.foldl (dropFrom x) m o = if o ∈ l then (m o).erase x else m o := by
  induction l with
  | nil => intros; rfl
  | cons a l ih =>
    intro m hn o
    rw [List.nodup_cons] at hn
    have h1 : ∀ o, dropFrom x m a o = if o = a then (m o).erase x else m o := by
      intro o; unfold dropFrom
      by_cases h : x ∈ m a
      · rw [if_pos h]; simp only [upd]; split
        · next h => rw [h]
        · rfl
      · rw [if_neg h]; split
        · next h' => rw [h', List.erase_of_not_mem h]
        · rfl
    rw [List.foldl_cons, ih _ hn.2, h1]
    by_cases ho : o = a
    · subst ho; simp [hn.1]
    · simp [ho]

end Grid
end Verif
