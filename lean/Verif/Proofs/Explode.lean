import Verif.Model.Explode
import Verif.Spec.Explode
import Verif.Proofs.Basic
import Verif.Proofs.LoadAll
import Mathlib.Algebra.CharZero.Defs
import Mathlib.Tactic.FieldSimp
import Mathlib.Tactic.Ring
import Mathlib.Tactic.LinearCombination

/-! Moving zones away from the mean point. -/

namespace Verif
variable {F R : Type} [Field F] [DecidableEq F] [CharZero F]
open Grid

theorem foldl_add_vec (l : List (Vec F)) : ∀ a : Vec F, l.foldl Vec.add a = ⟨a.x + (l.map (·.x)).sum, a.y + (l.map (·.y)).sum, a.z + (l.map (·.z)).sum⟩ := by
  induction l with
  | nil => intro a; simp
  | cons v t ih => intro a; rw [List.foldl_cons, ih]; simp [Vec.add, add_assoc]

theorem meanP_nil (g : Grid F R) : g.meanP [] = .error .zeroDiv := by
  simp [meanP, Vec.div]

theorem meanP_ok (g : Grid F R) {ns : List Nat} (h : ns ≠ []) : ∃ m, g.meanP ns = .ok m ∧ IsMean g.nP ns m := by
  have hl : (ns.length : F) ≠ 0 := by
    rw [Nat.cast_ne_zero]
    exact fun e => h (List.length_eq_zero_iff.1 e)
  refine ⟨((ns.map g.nP).foldl Vec.add ⟨0, 0, 0⟩).smul (1 / (ns.length : F)), ?_, ?_⟩
  · unfold meanP Vec.div
    rw [if_neg hl]
  · rw [foldl_add_vec]
    refine ⟨h, ?_, ?_, ?_⟩ <;> simp only [Vec.smul, List.map_map, Function.comp_def, zero_add] <;> field_simp

theorem isMean_unique {P : Nat → Vec F} {ns : List Nat} {m m' : Vec F} (h : IsMean P ns m) (h' : IsMean P ns m') : m = m' := by
  have hl : (ns.length : F) ≠ 0 := by
    rw [Nat.cast_ne_zero]
    exact fun e => h.1 (List.length_eq_zero_iff.1 e)
  obtain ⟨x, y, z⟩ := m
  obtain ⟨x', y', z'⟩ := m'
  have h1 := mul_left_cancel₀ hl (h.2.1.symm.trans h'.2.1)
  have h2 := mul_left_cancel₀ hl (h.2.2.1.symm.trans h'.2.2.1)
  have h3 := mul_left_cancel₀ hl (h.2.2.2.symm.trans h'.2.2.2)
  simp only at h1 h2 h3
  rw [h1, h2, h3]

omit [DecidableEq F] [CharZero F] in
theorem isMean_congr {P P' : Nat → Vec F} {ns : List Nat} {m : Vec F} (h : IsMean P ns m) (e : ∀ n ∈ ns, P' n = P n) : IsMean P' ns m := by
  obtain ⟨h0, h1, h2, h3⟩ := h
  refine ⟨h0, ?_, ?_, ?_⟩
  · rw [← h1]; exact congrArg _ (List.map_congr_left (fun n hn => by rw [e n hn]))
  · rw [← h2]; exact congrArg _ (List.map_congr_left (fun n hn => by rw [e n hn]))
  · rw [← h3]; exact congrArg _ (List.map_congr_left (fun n hn => by rw [e n hn]))

omit [DecidableEq F] [CharZero F] in
theorem sum_shift (ns : List Nat) (f f' : Nat → F) (c : F) (e : ∀ n ∈ ns, f' n = f n + c) : (ns.map f').sum = (ns.map f).sum + ns.length * c := by
  induction ns with
  | nil => simp
  | cons a t ih =>
    simp only [List.map_cons, List.sum_cons, List.length_cons]
    rw [ih (fun n hn => e n (List.mem_cons_of_mem _ hn)), e a List.mem_cons_self]
    push_cast
    ring

omit [DecidableEq F] [CharZero F] in
theorem isMean_shift {P P' : Nat → Vec F} {ns : List Nat} {m s : Vec F} (h : IsMean P ns m) (e : ∀ n ∈ ns, P' n = (P n).add s) :
    IsMean P' ns (m.add s) := by
  obtain ⟨h0, h1, h2, h3⟩ := h
  refine ⟨h0, ?_, ?_, ?_⟩
  · rw [sum_shift ns (fun n => (P n).x) _ s.x (fun n hn => by rw [e n hn]; rfl), h1]; simp only [Vec.add]; ring
  · rw [sum_shift ns (fun n => (P n).y) _ s.y (fun n hn => by rw [e n hn]; rfl), h2]; simp only [Vec.add]; ring
  · rw [sum_shift ns (fun n => (P n).z) _ s.z (fun n hn => by rw [e n hn]; rfl), h3]; simp only [Vec.add]; ring

omit [DecidableEq F] [CharZero F] in
theorem shiftNodes_eq (s : Vec F) (ns : List Nat) (h : ns.Nodup) : ∀ g : Grid F R, ∃ P, ns.foldl (shiftNode s) g = { g with nP := P } ∧
    (∀ n ∈ ns, P n = (g.nP n).add s) ∧ ∀ n, n ∉ ns → P n = g.nP n := by
  induction ns with
  | nil => intro g; exact ⟨g.nP, rfl, fun _ h => absurd h List.not_mem_nil, fun _ _ => rfl⟩
  | cons a t ih =>
    intro g
    obtain ⟨ha, ht⟩ := List.nodup_cons.1 h
    obtain ⟨P, h1, h2, h3⟩ := ih ht (shiftNode s g a)
    refine ⟨P, h1, ?_, ?_⟩
    · intro n hn
      rcases List.mem_cons.1 hn with rfl | hn
      · rw [h3 n ha]; simp only [shiftNode, upd_self]
      · rw [h2 n hn]
        simp only [shiftNode]
        rw [upd_ne _ _ (fun (e : n = a) => ha (e ▸ hn))]
    · intro n hn
      rw [h3 n (fun x => hn (List.mem_cons_of_mem _ x))]
      simp only [shiftNode]
      rw [upd_ne _ _ (fun (e : n = a) => hn (e ▸ List.mem_cons_self))]

/-- The loop over zones. -/
theorem explode_loop (gm : Vec F) (k : F) (g : Grid F R) (hn : ∀ z ∈ g.zones, (g.zNodes z).Nodup) (he : ∀ z ∈ g.zones, g.zNodes z ≠ [])
    (ha : ZonesApart g) : ∀ (zs : List Nat), zs.Nodup → (∀ z ∈ zs, z ∈ g.zones) → ∀ P0 : Nat → Vec F,
    ∃ P, zs.foldlM (explodeZone gm k) ({ g with nP := P0 } : Grid F R) = .ok { g with nP := P } ∧
      (∀ z ∈ zs, ∃ m, IsMean P0 (g.zNodes z) m ∧ ∀ n ∈ g.zNodes z, P n = (P0 n).add ((m.sub gm).smul k)) ∧
      ∀ n, (∀ z ∈ zs, n ∉ g.zNodes z) → P n = P0 n := by
  intro zs
  induction zs with
  | nil => intro _ _ P0; exact ⟨P0, rfl, fun _ h => absurd h List.not_mem_nil, fun _ _ => rfl⟩
  | cons z t ih =>
    intro hnd hz P0
    obtain ⟨hzt, hnt⟩ := List.nodup_cons.1 hnd
    have hzm := hz z List.mem_cons_self
    obtain ⟨m, hm1, hm2⟩ := meanP_ok ({ g with nP := P0 } : Grid F R) (he z hzm)
    obtain ⟨P1, a1, a2, a3⟩ := shiftNodes_eq ((m.sub gm).smul k) (g.zNodes z) (hn z hzm) ({ g with nP := P0 } : Grid F R)
    obtain ⟨P, b1, b2, b3⟩ := ih hnt (fun w hw => hz w (List.mem_cons_of_mem _ hw)) P1
    have hap : ∀ w ∈ t, ∀ n ∈ g.zNodes w, n ∉ g.zNodes z := fun w hw n hn' =>
      ha w (hz w (List.mem_cons_of_mem _ hw)) z hzm (fun e => hzt (e ▸ hw)) n hn'
    refine ⟨P, ?_, ?_, ?_⟩
    · rw [List.foldlM_cons]
      have : explodeZone gm k ({ g with nP := P0 } : Grid F R) z = .ok { g with nP := P1 } := by
        unfold explodeZone
        show (meanP ({ g with nP := P0 } : Grid F R) (g.zNodes z) >>= _) = _
        rw [hm1, res_bind_ok, a1]
      rw [this, res_bind_ok]
      exact b1
    · intro w hw
      rcases List.mem_cons.1 hw with rfl | hw
      · refine ⟨m, hm2, fun n hn' => ?_⟩
        rw [b3 n (fun w' hw' hx => hap w' hw' n hx hn')]
        exact a2 n hn'
      · obtain ⟨m', c1, c2⟩ := b2 w hw
        refine ⟨m', isMean_congr c1 (fun n hn' => (a3 n (hap w hw n hn')).symm), fun n hn' => ?_⟩
        rw [c2 n hn', a3 n (hap w hw n hn')]
    · intro n hn'
      rw [b3 n (fun w hw => hn' w (List.mem_cons_of_mem _ hw))]
      exact a3 n (hn' z List.mem_cons_self)

theorem explode_spec (k : F) (g : Grid F R) (hz : g.zones.Nodup) (hn : ∀ z ∈ g.zones, (g.zNodes z).Nodup) (he : ∀ z ∈ g.zones, g.zNodes z ≠ [])
    (h0 : g.nodes ≠ []) (ha : ZonesApart g) :
    ∃ P gm, g.moveFromMeanPoint k = .ok { g with nP := P } ∧ IsMean g.nP g.nodes gm ∧
      (∀ z ∈ g.zones, ∃ m, IsMean g.nP (g.zNodes z) m ∧ ∀ n ∈ g.zNodes z, P n = (g.nP n).add ((m.sub gm).smul k)) ∧
      ∀ n, (∀ z ∈ g.zones, n ∉ g.zNodes z) → P n = g.nP n := by
  obtain ⟨gm, h1, h2⟩ := meanP_ok g h0
  obtain ⟨P, a1, a2, a3⟩ := explode_loop gm k g hn he ha g.zones hz (fun _ h => h) g.nP
  refine ⟨P, gm, ?_, h2, a2, a3⟩
  unfold moveFromMeanPoint
  rw [h1, res_bind_ok]
  exact a1

omit [DecidableEq F] [CharZero F] in
/-- Zones of a grid that was loaded without merging have no common nodes. -/
theorem loaded_apart [DecidableEq R] {rc : Vec F → R} {blocks : List (ZoneBlock F)} {g g' : Grid F R} (h : Loaded rc false blocks g g') : ZonesApart g' := by
  obtain ⟨zn, h1, h2⟩ := h.chunks
  have h1 := h1 rfl
  have key : ∀ z ∈ g'.zones, ∀ n ∈ g'.zNodes z, n ∈ zn z := by
    intro z hz n hn
    rw [h.lists.nodes z hz, List.mem_filter, List.any_eq_true] at hn
    obtain ⟨-, f, hf, hc⟩ := hn
    have hc : n ∈ g'.fNodes f := by simpa using hc
    obtain ⟨i, hi⟩ := List.getElem?_of_mem hz
    obtain ⟨i1, i2⟩ := List.getElem?_eq_some_iff.1 hi
    have hb : i < blocks.length := by rw [h2.length_eq]; exact i1
    have hbz := (List.forall₂_iff_get.1 h2).2 i hb i1
    simp only [List.get_eq_getElem, i2] at hbz
    obtain ⟨j, hj⟩ := List.getElem?_of_mem hf
    obtain ⟨j1, j2⟩ := List.getElem?_eq_some_iff.1 hj
    have hl : j < blocks[i].faces.length := by rw [hbz.2.length_eq]; exact j1
    have hfo := (List.forall₂_iff_get.1 hbz.2).2 j hl j1
    simp only [List.get_eq_getElem, j2] at hfo
    obtain ⟨q, hq⟩ := List.getElem?_of_mem hc
    obtain ⟨q1, q2⟩ := List.getElem?_eq_some_iff.1 hq
    have hl : q < blocks[i].faces[j].2.length := by rw [hfo.length_eq]; exact q1
    have := (List.forall₂_iff_get.1 hfo).2 q hl q1
    simp only [List.get_eq_getElem, q2] at this
    exact get_mem this
  intro z hz z' hz' hne n hn hn'
  have hnd := h.mesh.nodes_nodup
  rw [h1, List.nodup_flatMap] at hnd
  have hd := hnd.2
  haveI : Std.Symm (Function.onFun List.Disjoint zn) := ⟨fun _ _ h _ h1 h2 => h h2 h1⟩
  have := hd.forall hz hz' hne
  exact this (key z hz n hn) (key z' hz' n hn')

end Verif
