import Verif.Proofs.Local

/-! `collapse_edge`: closed forms of its steps. -/

namespace Verif
namespace Grid
variable {F R : Type}

theorem delEdge_eq {g : Grid F R} {e : Nat} (hl : (g.eNodes e).length = 2) (hnd : (g.eNodes e).Nodup) (hin : ∀ n ∈ g.eNodes e, e ∈ g.nEdges n)
    (hn : (g.eFaces e).Nodup) (hf : ∀ f ∈ g.eFaces e, e ∈ g.fEdges f) (he : e ∈ g.edges) :
    g.delEdge e = .ok { g with
      nEdges := fun n => if n ∈ g.eNodes e then (g.nEdges n).erase e else g.nEdges n
      fEdges := fun f => if f ∈ g.eFaces e then (g.fEdges f).erase e else g.fEdges f
      zEdges := g.zones.foldl (dropFrom e) g.zEdges
      edges := g.edges.erase e } := by
  obtain ⟨a, b, hab⟩ := List.length_eq_two.1 hl
  have hne : a ≠ b := by rw [hab] at hnd; simpa using hnd
  have ea : e ∈ g.nEdges a := hin a (by simp [hab])
  have eb : e ∈ g.nEdges b := hin b (by simp [hab])
  have h1 : g.dropEdgeAt e 0 = .ok { g with nEdges := upd g.nEdges a ((g.nEdges a).erase e) } := by
    unfold dropEdgeAt; rw [hab]
    show (Py.remove (g.nEdges a) e >>= _) = _
    unfold Py.remove; rw [if_pos ea]; rfl
  obtain ⟨ga, hga⟩ : ∃ ga, ga = { g with nEdges := upd g.nEdges a ((g.nEdges a).erase e) } := ⟨_, rfl⟩
  rw [← hga] at h1
  have h2 : ga.dropEdgeAt e 1 = .ok { g with nEdges := fun n => if n ∈ g.eNodes e then (g.nEdges n).erase e else g.nEdges n } := by
    unfold dropEdgeAt
    rw [show ga.eNodes e = [a, b] by rw [hga]; exact hab]
    show (Py.remove (ga.nEdges b) e >>= _) = _
    rw [show ga.nEdges b = g.nEdges b by rw [hga]; exact upd_ne _ _ hne.symm]
    unfold Py.remove; rw [if_pos eb, res_bind_ok]
    congr 1
    rw [hga]
    show ({ g with nEdges := _ } : Grid F R) = _
    congr 1
    funext n
    simp only [upd, hab]
    by_cases hb : n = b
    · subst hb; simp
    · by_cases ha : n = a
      · subst ha; simp [hb]
      · simp [ha, hb]
  unfold delEdge
  rw [h1, res_bind_ok, h2, res_bind_ok]
  have h3 := faceDropEdge_fold e (g.eFaces e)
    { g with nEdges := fun n => if n ∈ g.eNodes e then (g.nEdges n).erase e else g.nEdges n } hn hf
  show (List.foldlM (faceDropEdge e) _ (g.eFaces e) >>= _) = _
  rw [h3, res_bind_ok]
  simp only
  unfold Py.remove
  rw [if_pos he, res_bind_ok]

theorem relink_eq {g : Grid F R} {f n e1 e3 : Nat} (h1 : (g.eFaces e1).length ≤ 1) (h3 : g.edgeAt f n = .ok e3)
    (h4 : (g.eFaces e3).length ≤ 1) : g.relink f n e1 = .ok { g with
      eFaces := upd g.eFaces e3 (g.eFaces e3 ++ g.eFaces e1)
      fEdges := fun k => if k ∈ g.eFaces e1 then g.fEdges k ++ [e3] else g.fEdges k } := by
  unfold relink
  match hm : g.eFaces e1, h1 with
  | [], _ =>
    simp only [List.append_nil, List.not_mem_nil, if_false]
    rw [upd_eta]
  | [k], _ =>
    simp only [h3, res_bind_ok, linkEdgeFace]
    rw [if_neg (by omega)]
    congr 2
    funext j
    simp only [upd, List.mem_singleton]
    split
    · next h => rw [h]
    · rfl

theorem erasekey [DecidableEq R] {key : Nat → R} {s : Nat} {l : List Nat} (h : ∀ k ∈ l, key k = key s → k = s) :
    l.eraseP (fun k => decide (key k = key s)) = l.erase s := by
  rw [List.erase_eq_eraseP]
  induction l with
  | nil => rfl
  | cons a l ih =>
    by_cases ha : a = s
    · subst ha; simp
    · have h1 : key a ≠ key s := fun hh => ha (h a List.mem_cons_self hh)
      rw [List.eraseP_cons_of_neg (by simpa using h1), List.eraseP_cons_of_neg (by simpa using Ne.symm ha),
        ih (fun k hk => h k (List.mem_cons_of_mem _ hk))]

theorem swapNode_fold [DecidableEq R] (key : Nat → R) (s n : Nat) (l : List Nat) : ∀ m : Nat → List Nat, l.Nodup →
    (∀ o ∈ l, s ∈ m o ∧ ∀ k ∈ m o, key k = key s → k = s) →
    l.foldlM (swapNode key s n) m = .ok (fun o => if o ∈ l then (m o).erase s ++ [n] else m o) := by
  induction l with
  | nil => intro m _ _; simp
  | cons a l ih =>
    intro m hn h
    rw [List.nodup_cons] at hn
    obtain ⟨h1, h2⟩ := h a List.mem_cons_self
    have hs : swapNode key s n m a = .ok (upd m a ((m a).erase s ++ [n])) := by
      unfold swapNode Py.removeBy
      rw [if_pos (List.any_eq_true.2 ⟨s, h1, by simp⟩), erasekey h2]; rfl
    rw [List.foldlM_cons, hs, res_bind_ok, ih _ hn.2]
    · congr 1; funext k; simp only [upd, List.mem_cons]
      by_cases hk : k = a
      · subst hk; simp [hn.1]
      · simp [hk]
    · intro o ho
      have : o ≠ a := by rintro rfl; exact hn.1 ho
      simp only [upd, this, if_false]; exact h o (List.mem_cons_of_mem _ ho)

theorem dropNodeFrom_noop [DecidableEq R] (key : Nat → R) (n : Nat) (l : List Nat) (m : Nat → List Nat)
    (h : ∀ o ∈ l, ∀ k ∈ m o, key k ≠ key n) : l.foldl (dropNodeFrom key n) m = m := by
  induction l with
  | nil => rfl
  | cons a l ih =>
    have h1 : dropNodeFrom key n m a = m := by
      unfold dropNodeFrom
      rw [if_neg]
      simp only [List.any_eq_true, decide_eq_true_eq, not_exists, not_and]
      exact h a List.mem_cons_self
    rw [List.foldl_cons, h1]
    exact ih (fun o ho => h o (List.mem_cons_of_mem _ ho))

theorem get_neg {l t : List Nat} {x : Nat} {i : Int} (hi : i = -((t.length : Int) + 1)) : Py.get (l ++ x :: t) i = .ok x := by
  unfold Py.get
  have hj : (if i < 0 then i + ((l ++ x :: t).length : Int) else i) = l.length := by
    rw [if_pos (by omega)]; simp; omega
  simp only [hj]
  rw [if_neg (by omega)]
  simp

end Grid
end Verif
