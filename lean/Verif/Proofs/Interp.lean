import Verif.Spec.Convert
import Verif.Model.Interp
import Verif.Proofs.Drops
import Verif.Proofs.Text
import Mathlib.Tactic.Ring
import Mathlib.Tactic.FieldSimp

/-! Transfer of face data between grids. -/

namespace Verif
variable {F R : Type} [Field F] [LinearOrder F]
open Grid

theorem mod2_dist2 (u v : Vec F) : (u.sub v).mod2 = dist2 u v := by
  simp only [Vec.mod2, Vec.dot, Vec.sub, dist2]
  ring

omit [LinearOrder F] in
theorem center_ok {g : Grid F R} {f : Nat} (h : (g.fNodes f).length = 3) : Interp.center g f = .ok (faceCenter g f) := by
  unfold Interp.center faceCenter
  match hn : g.fNodes f, h with
  | [a, b, c], _ => rfl

omit [LinearOrder F] in
theorem centroid_ok {g : Grid F R} {f : Nat} (h : (g.fNodes f).length = 3) :
    ∃ t, g.triangle f = .ok t ∧ t.centroid = faceCenter g f := by
  unfold Grid.triangle faceCenter
  match hn : g.fNodes f, h with
  | [a, b, c], _ =>
    refine ⟨_, rfl, ?_⟩
    simp only [Tri.centroid, Vec.smul, Vec.add, List.map_cons, List.map_nil]
    simp only [mul_one_div]

theorem argmin_ok {l : List F} (h : l ≠ []) : ∃ i x, Interp.argmin l = .ok i ∧ l[i]? = some x ∧ ∀ y ∈ l, x ≤ y := by
  cases l with
  | nil => exact absurd rfl h
  | cons a t =>
    have hm : ∀ (t : List F) (a : F), t.foldl min a ∈ a :: t ∧ ∀ y ∈ a :: t, t.foldl min a ≤ y := by
      intro t
      induction t with
      | nil => intro a; simp
      | cons b t ih =>
        intro a
        obtain ⟨h1, h2⟩ := ih (min a b)
        rw [List.foldl_cons]
        refine ⟨?_, ?_⟩
        · rcases List.mem_cons.mp h1 with h1 | h1
          · rw [h1]
            rcases min_choice a b with e | e <;> rw [e] <;> simp
          · simp [h1]
        · intro y hy
          have h3 := h2 (min a b) (by simp)
          rcases List.mem_cons.mp hy with rfl | hy
          · exact h3.trans (min_le_left _ _)
          · rcases List.mem_cons.mp hy with rfl | hy
            · exact h3.trans (min_le_right _ _)
            · exact h2 y (by simp [hy])
    obtain ⟨h1, h2⟩ := hm t a
    refine ⟨_, _, rfl, ?_, h2⟩
    have := List.idxOf_lt_length_of_mem h1
    rw [List.getElem?_eq_getElem this, List.getElem_idxOf]

/-- Setting some data of all faces by functions of the face. -/
theorem foldlM_data (l : List Nat) (step : Grid F R → Nat → Res (Grid F R)) (dst : Grid F R) (ok : Nat → List (Str × F) → List (Str × F) → Prop)
    (hs : ∀ d f, f ∈ l → ∃ w, step { dst with fData := d } f = .ok { dst with fData := upd d f w } ∧ ok f (d f) w)
    (hok : ∀ f d1 d2 d3, ok f d1 d2 → ok f d2 d3 → ok f d1 d3) :
    ∃ d, l.foldlM step dst = .ok { dst with fData := d } ∧ (∀ f ∈ l, ok f (dst.fData f) (d f)) ∧ ∀ f ∉ l, d f = dst.fData f := by
  obtain ⟨s, h1, d, rfl, h2, h3⟩ := foldlM_total step l (fun pre s => ∃ d, s = { dst with fData := d } ∧
      (∀ f ∈ pre, ok f (dst.fData f) (d f)) ∧ ∀ f ∉ pre, d f = dst.fData f) dst ⟨dst.fData, rfl, by simp, by simp⟩ (by
    rintro pre a post s hl ⟨d, rfl, h1, h2⟩
    obtain ⟨w, hw, hw'⟩ := hs d a (by rw [hl]; simp)
    refine ⟨_, hw, _, rfl, ?_, ?_⟩
    · intro f hf
      by_cases hfa : f = a
      · subst hfa
        rw [upd_self]
        by_cases hp : f ∈ pre
        · exact hok _ _ _ _ (h1 f hp) hw'
        · rw [h2 f hp] at hw'; exact hw'
      · rw [upd_ne _ _ hfa]
        refine h1 f ?_
        simpa [hfa] using hf
    · intro f hf
      simp only [List.mem_append, List.mem_singleton, not_or] at hf
      rw [upd_ne _ _ hf.2, h2 f hf.1])
  exact ⟨d, h1, h2, h3⟩

/-- The face of the source: a face that is nearest. -/
theorem transfer_ok {query : List (Vec F) → Vec F → Nat} (hq : NearestPoint query) {src dst : Grid F R} (hne : src.faces ≠ [])
    (hs : ∀ f ∈ src.faces, (src.fNodes f).length = 3) (hd : ∀ f ∈ dst.faces, (dst.fNodes f).length = 3) :
    ∃ d, Interp.transfer query src dst = .ok { dst with fData := d } ∧
      (∀ f ∈ dst.faces, ∃ s, NearestFace src (faceCenter dst f) s ∧
        (Py.dictGet? (d f) "T".toList).getD 0 = src.getData 0 s "T".toList ∧
        (Py.dictGet? (d f) "Hw".toList).getD 0 = src.getData 0 s "Hw".toList ∧
        ∀ k, k ≠ "T".toList → k ≠ "Hw".toList → Py.dictGet? (d f) k = Py.dictGet? (dst.fData f) k) ∧
      ∀ f ∉ dst.faces, d f = dst.fData f := by
  have h1 : src.faces.mapM (fun f => do
      let t ← src.triangle f
      (.ok t.centroid : Res (Vec F))) = .ok (src.faces.map (faceCenter src)) := by
    apply mapM_eq_ok
    intro f hf
    obtain ⟨t, e1, e2⟩ := centroid_ok (hs f hf)
    rw [e1, res_bind_ok, e2]
  have h2 : dst.faces.mapM (fun f => do
      let t ← dst.triangle f
      (.ok t.centroid : Res (Vec F))) = .ok (dst.faces.map (faceCenter dst)) := by
    apply mapM_eq_ok
    intro f hf
    obtain ⟨t, e1, e2⟩ := centroid_ok (hd f hf)
    rw [e1, res_bind_ok, e2]
  unfold Interp.transfer
  rw [h1, res_bind_ok, h2, res_bind_ok]
  rw [show dst.faces.zip (dst.faces.map (faceCenter dst)) = dst.faces.map (fun f => (f, faceCenter dst f)) from by
    generalize dst.faces = l
    induction l with
    | nil => rfl
    | cons a l ih => rw [List.map_cons, List.zip_cons_cons, ih, List.map_cons]]
  rw [List.foldlM_map]
  refine foldlM_data dst.faces _ dst (fun f d d' => ∃ s, NearestFace src (faceCenter dst f) s ∧
        (Py.dictGet? d' "T".toList).getD 0 = src.getData 0 s "T".toList ∧
        (Py.dictGet? d' "Hw".toList).getD 0 = src.getData 0 s "Hw".toList ∧
        ∀ k, k ≠ "T".toList → k ≠ "Hw".toList → Py.dictGet? d' k = Py.dictGet? d k) ?_ ?_
  · intro d f hf
    obtain ⟨p, hp1, hp2⟩ := hq (src.faces.map (faceCenter src)) (faceCenter dst f) (by simpa using hne)
    rw [List.getElem?_map] at hp1
    obtain ⟨s, hs1, rfl⟩ := Option.map_eq_some_iff.mp hp1
    rw [get_ofNat, hs1]
    have hu : ∀ (a b : List (Str × F)), upd (upd d f a) f b = upd d f b := by
      intro a b
      funext x
      by_cases hx : x = f
      · subst hx; rw [upd_self, upd_self]
      · rw [upd_ne _ _ hx, upd_ne _ _ hx, upd_ne _ _ hx]
    refine ⟨Py.dictSet (Py.dictSet (d f) "T".toList (src.getData 0 s "T".toList)) "Hw".toList (src.getData 0 s "Hw".toList), ?_, s,
      ⟨List.mem_of_getElem? hs1, fun s' hs' => hp2 _ (List.mem_map_of_mem hs')⟩, ?_, ?_, ?_⟩
    · simp only [res_bind_ok, setData, upd_self, hu]
    · rw [Utils.dictGet?_set_ne _ _ _ _ (by decide), Utils.dictGet?_set_self]; rfl
    · rw [Utils.dictGet?_set_self]; rfl
    · intro k k1 k2
      rw [Utils.dictGet?_set_ne _ _ _ _ (Ne.symm k2), Utils.dictGet?_set_ne _ _ _ _ (Ne.symm k1)]
  · rintro f d1 d2 d3 ⟨-, -, -, -, h⟩ ⟨s, a1, a2, a3, a4⟩
    exact ⟨s, a1, a2, a3, fun k k1 k2 => (a4 k k1 k2).trans (h k k1 k2)⟩

theorem addBeta_ok {src dst : Grid F R} (hne : src.faces ≠ [])
    (hs : ∀ f ∈ src.faces, (src.fNodes f).length = 3) (hd : ∀ f ∈ dst.faces, (dst.fNodes f).length = 3) :
    ∃ d, Interp.addBeta src dst = .ok { dst with fData := d } ∧
      (∀ f ∈ dst.faces, ∃ s, NearestFace src (faceCenter dst f) s ∧
        (Py.dictGet? (d f) "Beta".toList).getD 0 = src.getData 0 s "Beta".toList ∧
        ∀ k, k ≠ "Beta".toList → Py.dictGet? (d f) k = Py.dictGet? (dst.fData f) k) ∧
      ∀ f ∉ dst.faces, d f = dst.fData f := by
  have h1 : src.faces.mapM (fun f => do
      let c ← Interp.center src f
      (.ok (c, src.getData 0 f "Beta".toList) : Res (Vec F × F))) =
        .ok (src.faces.map (fun f => (faceCenter src f, src.getData 0 f "Beta".toList))) := by
    apply mapM_eq_ok
    intro f hf
    rw [center_ok (hs f hf), res_bind_ok]
  unfold Interp.addBeta
  rw [h1, res_bind_ok]
  refine foldlM_data dst.faces _ dst (fun f d d' => ∃ s, NearestFace src (faceCenter dst f) s ∧
        (Py.dictGet? d' "Beta".toList).getD 0 = src.getData 0 s "Beta".toList ∧
        ∀ k, k ≠ "Beta".toList → Py.dictGet? d' k = Py.dictGet? d k) ?_ ?_
  · intro d f hf
    have hc : Interp.center { dst with fData := d } f = .ok (faceCenter dst f) := center_ok (g := { dst with fData := d }) (hd f hf)
    rw [hc, res_bind_ok, List.map_map]
    obtain ⟨i, x, e1, e2, e3⟩ := argmin_ok (l := src.faces.map ((fun a : Vec F × F => ((faceCenter dst f).sub a.1).mod2) ∘
      fun f => (faceCenter src f, src.getData 0 f "Beta".toList))) (by simpa using hne)
    rw [e1, res_bind_ok]
    rw [List.getElem?_map] at e2
    obtain ⟨s, hs1, rfl⟩ := Option.map_eq_some_iff.mp e2
    rw [get_ofNat, List.getElem?_map, hs1]
    refine ⟨_, rfl, s, ⟨List.mem_of_getElem? hs1, ?_⟩, ?_, ?_⟩
    · intro s' hs'
      have := e3 _ (List.mem_map_of_mem hs')
      simpa [mod2_dist2] using this
    · simp only [upd_self]
      rw [Utils.dictGet?_set_self]; rfl
    · intro k k1
      simp only [upd_self]
      rw [Utils.dictGet?_set_ne _ _ _ _ (Ne.symm k1)]
  · rintro f d1 d2 d3 ⟨-, -, -, h⟩ ⟨s, a1, a2, a4⟩
    exact ⟨s, a1, a2, fun k k1 => (a4 k k1).trans (h k k1)⟩

end Verif
