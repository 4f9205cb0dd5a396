import Verif.Proofs.Farhat

/-! A prefix of a breadth-first path of a connected set is connected. -/

namespace Verif
variable {F R : Type}

theorem reach_symm {adj : Nat → Nat → Prop} (hs : ∀ a b, adj a b → adj b a) {p : Nat → Prop} {a b : Nat}
    (h : Reach adj p a b) : Reach adj p b a := by
  induction h with
  | refl h => exact .refl h
  | step h1 h2 h3 ih =>
    exact reach_trans (.step (.refl h3) (hs _ _ h2) (reach_mem_group h1).2) ih

theorem grown_reach {adj : Nat → Nat → Prop} {l : List Nat} (hg : Grown adj l) {h : Nat} (h0 : l[0]? = some h) :
    ∀ (j f : Nat), l[j]? = some f → Reach adj (· ∈ l) h f := by
  intro j
  induction j using Nat.strongRecOn with
  | _ j ih =>
    intro f hf
    by_cases hj : j = 0
    · subst hj
      rw [h0] at hf
      cases hf
      exact .refl (List.mem_of_getElem? h0)
    · obtain ⟨k, f', hk, hf', ha⟩ := hg j f (by omega) hf
      exact .step (ih k hk f' hf') ha (List.mem_of_getElem? hf)

theorem grown_connected {adj : Nat → Nat → Prop} (hs : ∀ a b, adj a b → adj b a) {l : List Nat} (hg : Grown adj l) :
    Connected adj l := by
  intro a ha b hb
  obtain ⟨i, hi⟩ := List.getElem?_of_mem ha
  obtain ⟨j, hj⟩ := List.getElem?_of_mem hb
  cases l with
  | nil => simp at ha
  | cons h t =>
    have h0 : (h :: t)[0]? = some h := rfl
    exact reach_trans (reach_symm hs (grown_reach hg h0 i a hi)) (grown_reach hg h0 j b hj)

theorem grown_take {adj : Nat → Nat → Prop} {l : List Nat} (hg : Grown adj l) (n : Nat) : Grown adj (l.take n) := by
  intro j f hj hf
  rw [List.getElem?_take] at hf
  split at hf
  · rename_i hn
    obtain ⟨k, f', hk, hf', ha⟩ := hg j f hj hf
    exact ⟨k, f', hk, by rw [List.getElem?_take, if_pos (by omega)]; exact hf', ha⟩
  · cases hf

/-- If the visited faces are connected, the path is a single group. -/
theorem PathOf.grown {g : Grid F R} {p : Nat → Prop} {path : List Nat} (h : PathOf g p path)
    (hc : Connected (Adj g) path) : Grown (Adj g) path := by
  obtain ⟨gs, h1, h2⟩ := h.groups
  cases gs with
  | nil => rw [h1]; intro j f _ hf; simp at hf
  | cons c cs =>
    obtain ⟨hd, tl, e, _, hm, hg⟩ := h2 c (by simp)
    have hhd : hd ∈ path := by rw [h1, List.flatten_cons, e]; simp
    have hsub : ∀ f ∈ path, f ∈ c := by
      intro f hf
      rw [hm]
      have := hc hd hhd f hf
      clear hm hg h2
      induction this with
      | refl ha => exact .refl ((h.mem _).1 hhd)
      | step r1 r2 r3 ih => exact .step (ih (reach_mem_group r1).2) r2 ((h.mem _).1 r3)
    have hr : cs.flatten = [] := by
      rw [List.eq_nil_iff_forall_not_mem]
      intro f hf
      have hnd := h.nodup
      rw [h1, List.flatten_cons] at hnd
      have := (List.nodup_append.1 hnd).2.2 f (hsub f (by rw [h1]; simp [hf])) f hf
      exact this rfl
    rw [h1, List.flatten_cons, hr, List.append_nil]
    exact hg

theorem PathOf.take_connected {g : Grid F R} {p : Nat → Prop} {path : List Nat} (h : PathOf g p path)
    (hc : Connected (Adj g) path) (n : Nat) : Connected (Adj g) (path.take n) :=
  grown_connected (fun _ _ h => h.symm) (grown_take (h.grown hc) n)

end Verif
