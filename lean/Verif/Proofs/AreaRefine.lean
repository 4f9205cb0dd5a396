import Verif.Spec.Area
import Verif.Proofs.Refine4

/-! The refining program divides faces and cuts edges. -/

namespace Verif
open Grid
variable {F R : Type} [Field F] [LinearOrder F] [IsStrictOrderedRing F] [DecidableEq R]

omit [IsStrictOrderedRing F] [DecidableEq R] in
theorem InFace.later {rc : Vec F → R} {g0 g : Grid F R} {done : List (Nat × Change F)} (G : Good rc g0) (I : Inv rc g0 g done) {f : Nat} {p : Vec F}
    (hf : f ∈ g0.faces) (hf' : f ∈ g.faces) (h : InFace g0 f p) : InFace g f p := by
  obtain ⟨a, b, c, s, t, u, hn, h1, h2, h3, h4, rfl⟩ := h
  have hm := (G.mesh.face_nodes f hf).2.2
  rw [hn] at hm
  refine ⟨a, b, c, s, t, u, (I.fNodes f hf hf').trans hn, h1, h2, h3, h4, ?_⟩
  rw [(I.nodes a (hm a (by simp))).2, (I.nodes b (hm b (by simp))).2, (I.nodes c (hm c (by simp))).2]

omit [IsStrictOrderedRing F] [DecidableEq R] in
theorem OnEdge.later {rc : Vec F → R} {g0 g : Grid F R} {done : List (Nat × Change F)} (G : Good rc g0) (I : Inv rc g0 g done) {e : Nat} {p : Vec F}
    (he : e ∈ g0.edges) (h : OnEdge g0 e p) : OnEdge g e p := by
  obtain ⟨a, b, t, hn, h1, h2, rfl⟩ := h
  have hm := (G.mesh.edge_nodes e he).2.2
  rw [hn] at hm
  refine ⟨a, b, t, (I.eNodes e he).trans hn, h1, h2, ?_⟩
  rw [(I.nodes a (hm a (by simp))).2, (I.nodes b (hm b (by simp))).2]

omit [IsStrictOrderedRing F] [DecidableEq R] in
theorem OnEdge2.later {rc : Vec F → R} {g0 g : Grid F R} {done : List (Nat × Change F)} (G : Good rc g0) (I : Inv rc g0 g done) {e : Nat} {p q : Vec F}
    (he : e ∈ g0.edges) (h : OnEdge2 g0 e p q) : OnEdge2 g e p q := by
  obtain ⟨a, b, s, t, hn, h1, h2, h3, rfl, rfl⟩ := h
  have hm := (G.mesh.edge_nodes e he).2.2
  rw [hn] at hm
  refine ⟨a, b, s, t, (I.eNodes e he).trans hn, h1, h2, h3, ?_, ?_⟩ <;>
  rw [(I.nodes a (hm a (by simp))).2, (I.nodes b (hm b (by simp))).2]

theorem run_fst {g' : Grid F R} {x : Res (Grid F R × Bool)} (h : (fun r : Grid F R × Bool => r.1) <$> x = .ok g') : ∃ b, x = .ok (g', b) := by
  cases x with
  | error e => cases h
  | ok r => exact ⟨r.2, by cases h; rfl⟩

theorem refine_parts {rc : Vec F → R} {sqrt round10 : F → F} {keep : Prop} {g0 : Grid F R} {jobs : List (Nat × Change F)} (G : Good rc g0) (h0 : sqrt 0 = 0)
    (hd : Distinct sqrt g0) (hap : Separated rc g0 jobs) (hfit : FitsIn g0 jobs) (hz : keep → WithinZones g0 jobs) :
    ∀ (l : List (Tri F × List (Vec F))) (pre rest : List (Nat × Change F)) (g g' : Grid F R), jobs = pre ++ rest → Jobs sqrt round10 g0 l rest → Inv rc g0 g pre →
      Parts rc keep g0 g → (keep → Sides g0 g) → Refine.refine rc sqrt round10 g l = .ok g' → Parts rc keep g0 g' := by
  intro l
  induction l with
  | nil =>
    intro pre rest g g' _ _ _ hp _ hr
    cases hr
    exact hp
  | cons x l ih =>
    intro pre rest g g' hj hl I hp hsd hr
    cases hl with
    | @cons _ j _ rest hx hl =>
    have hfold : Refine.refine rc sqrt round10 g (x :: l) = Refine.refineFace rc sqrt round10 g x >>= fun g' => Refine.refine rc sqrt round10 g' l := rfl
    rw [hfold] at hr
    rcases refine_step G h0 hd (hj ▸ hap) I hx with ⟨-, he⟩ | ⟨-, g1, h1, I1, hs⟩
    · rcases he with he | he <;> rw [he] at hr <;> cases hr
    · rw [h1] at hr
      refine ih (pre ++ [j]) rest g1 g' (by rw [hj]; simp) hl I1 ?_ ?_ hr
      rotate_left
      · intro hk
        rcases hs with rfl | ⟨o, hdo, ho⟩
        · exact hsd hk
        · obtain ⟨o1, o2⟩ := ho (fun a _ => a) (fun _ _ => 0) (fun _ _ => true)
          exact sides_step I I1 (hsd hk) (does_sides _ _ _ I.good hdo o1
            (does_inZone _ _ hdo (cut_oneZone G I hx (hsd hk) (hz hk j (by rw [hj]; simp)))) o2)
      rcases hs with rfl | ⟨o, hdo, ho⟩
      · exact hp
      obtain ⟨o1, o2⟩ := ho (fun a _ => a) (fun _ _ => 0) (fun _ _ => true)
      have hzz : keep → ∀ e, j.2.Cuts e → ∃ z, ∀ f ∈ g.eFaces e, g.fZone f = some z := fun hk =>
        cut_oneZone G I hx (hsd hk) (hz hk j (by rw [hj]; simp))
      have hfj := hfit j (by rw [hj]; simp)
      obtain ⟨f, act⟩ := j
      obtain ⟨hf, -, ha⟩ := hx
      simp only at hf ha hfj
      cases act with
      | keep => cases hdo
      | inside p =>
        have hdo : o = .divide f p := hdo
        subst hdo
        exact .divide hp o1.1 (hfj.later G I hf o1.1) o1.2 o2
      | side e p =>
        have he0 := (G.mesh.face_edges f hf).2.2 e ha.2.2.1
        rcases (show o = .cut e p ∨ o = .cutSingle e p from hdo) with rfl | rfl
        · obtain ⟨b, hb⟩ := run_fst o2
          exact .cut hp o1.1 (OnEdge.later G I he0 hfj) o1.2 (fun k => hzz k e rfl) hb
        · obtain ⟨b, hb⟩ := run_fst o2
          exact .single hp o1.1 (OnEdge.later G I he0 hfj) o1.2 hb
      | side2 e p q =>
        have he0 := (G.mesh.face_edges f hf).2.2 e ha.2.2.2.1.1
        have hdo : o = .cutTwo e p q := hdo
        subst hdo
        obtain ⟨b, hb⟩ := run_fst o2
        exact .cut2 hp o1.1 (OnEdge2.later G I he0 hfj) o1.2.1 o1.2.2.1 o1.2.2.2 (fun k => hzz k e rfl) hb

end Verif
