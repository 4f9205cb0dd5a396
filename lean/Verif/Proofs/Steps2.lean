import Verif.Proofs.Steps
import Verif.Proofs.Collapse6
import Verif.Spec.Text

/-! Transformations within one zone. -/

namespace Verif
namespace Grid
variable {F R : Type}

/-- What a transformation within one zone keeps. -/
structure Kin (g g' : Grid F R) : Prop where
  name : g'.name = g.name
  zones : g'.zones = g.zones ∧ g'.zName = g.zName
  lists : ZoneLists g → ZoneLists g'
  faces : ∀ k ∈ g'.faces, ∃ f ∈ g.faces, g'.fData k = g.fData f ∧ g'.fZone k = g.fZone f
  some : g.faces ≠ [] → g'.faces ≠ []

theorem Kin.refl (g : Grid F R) : Kin g g := ⟨rfl, ⟨rfl, rfl⟩, id, fun k hk => ⟨k, hk, rfl, rfl⟩, id⟩

theorem Kin.trans {g g' g'' : Grid F R} (h : Kin g g') (h' : Kin g' g'') : Kin g g'' := by
  refine ⟨h'.name.trans h.name, ⟨h'.zones.1.trans h.zones.1, h'.zones.2.trans h.zones.2⟩, h'.lists ∘ h.lists, ?_, h'.some ∘ h.some⟩
  intro k hk
  obtain ⟨f, hf, e1, e2⟩ := h'.faces k hk
  obtain ⟨f', hf', e3, e4⟩ := h.faces f hf
  exact ⟨f', hf', e1.trans e3, e2.trans e4⟩

theorem Outcome.kin {P : Patch} {rc : Vec F → R} {z : Nat} {g g' : Grid F R} (o : Outcome P rc z g g') (hz : ∀ f ∈ P.df, g.fZone f = some z)
    (hn : ∃ k, k ∈ P.fn) (hd : ∀ k ∈ P.fn, ∃ f ∈ g.faces, g.fZone f = some z ∧ g'.fData k = g.fData f) : Kin g g' := by
  refine ⟨o.keeps.name, ⟨o.keeps.zones.1, o.keeps.zones.2.2.1⟩, fun L => o.zoneLists L hz, ?_, ?_⟩
  · intro k hk
    rcases (o.swaps.faces k).1 hk with ⟨h1, h2⟩ | h1
    · obtain ⟨-, -, -, e1, e2, -⟩ := o.keeps.faces k h1 h2
      exact ⟨k, h1, e1, e2⟩
    · obtain ⟨f, hf, e1, e2⟩ := hd k h1
      exact ⟨f, hf, e2, by rw [o.zone k h1, e1]⟩
  · intro _ h
    obtain ⟨k, hk⟩ := hn
    have := (o.swaps.faces k).2 (Or.inr hk)
    rw [h] at this
    simp at this

variable [DecidableEq R]

theorem step_kin {rc : Vec F → R} (mid : Vec F → Vec F → Vec F) (dist : Vec F → Vec F → F) (gt : F → F → Bool) {g g' : Grid F R} (G : Good rc g)
    (o : Op F) (ha : o.Applicable rc mid dist gt g) (hi : o.InZone dist gt g) (h : o.run rc mid dist gt g = .ok g') : Kin g g' := by
  have run : ∀ {r : Res (Grid F R × Bool)} {g2 : Grid F R} {b : Bool}, r = .ok (g2, b) →
      ((fun r => r.1) <$> r : Res (Grid F R)) = .ok g' → g2 = g' := by
    rintro _ _ _ rfl h
    exact Except.ok.inj h
  cases o with
  | divide f p =>
    obtain ⟨hf, hp⟩ := ha
    obtain ⟨a, b, c, hn⟩ := List.length_eq_three.1 (G.mesh.face_nodes f hf).1
    obtain ⟨z, _, _, hz⟩ := zone_of G.zones hf
    obtain ⟨P, g2, h1, h2, h3, h4, h5, hr, o, -, i1, i2, i3, -⟩ := divideFace_outcome G hf hn hz hp
    obtain rfl : g2 = g' := Except.ok.inj (hr.symm.trans h)
    refine o.kin (by rw [h1]; simpa using hz) (by rw [h5]; exact ⟨_, List.mem_cons_self⟩) ?_
    rw [h5]
    simp only [List.forall_mem_cons, List.not_mem_nil, false_imp_iff, implies_true, and_true]
    exact ⟨⟨f, hf, hz, i1.data⟩, ⟨f, hf, hz, i2.data⟩, ⟨f, hf, hz, i3.data⟩⟩
  | cut e p =>
    obtain ⟨he, hp⟩ := ha
    obtain ⟨z, hz⟩ := hi
    obtain ⟨a, b, hn⟩ := eNodes_pair G.mesh he
    by_cases hl : (g.eFaces e).length = 2
    · obtain ⟨f, k, hf⟩ := List.length_eq_two.1 hl
      have hzf := hz f (by simp [hf])
      have hzk := hz k (by simp [hf])
      have hff := ((G.mesh.edge_face e he f).1 (by simp [hf])).1
      have hkf := ((G.mesh.edge_face e he k).1 (by simp [hf])).1
      obtain ⟨P, g2, c, c', h1, h2, h3, h4, h5, hr, o, -, -, -, -, i1, i2, i3, i4, -⟩ := cutInner_outcome G he hf hn hzf hp
      obtain rfl := run (b := true) (r := g.cutEdge rc e p) (by unfold cutEdge; rw [if_pos hl, hr]; rfl) h
      refine o.kin (by rw [h1]; simp [hzf, hzk]) (by rw [h5]; exact ⟨_, List.mem_cons_self⟩) ?_
      rw [h5]
      simp only [List.forall_mem_cons, List.not_mem_nil, false_imp_iff, implies_true, and_true]
      exact ⟨⟨f, hff, hzf, i1.data⟩, ⟨k, hkf, hzk, i3.data⟩, ⟨f, hff, hzf, i2.data⟩, ⟨k, hkf, hzk, i4.data⟩⟩
    · obtain rfl := run (b := false) (r := g.cutEdge rc e p) (by unfold cutEdge; rw [if_neg hl]) h
      exact Kin.refl _
  | cutSingle e p =>
    obtain ⟨he, hp⟩ := ha
    obtain ⟨a, b, hn⟩ := eNodes_pair G.mesh he
    by_cases hl : (g.eFaces e).length = 1
    · obtain ⟨f, hf⟩ := List.length_eq_one_iff.1 hl
      have hff := ((G.mesh.edge_face e he f).1 (by simp [hf])).1
      obtain ⟨z, _, _, hz⟩ := zone_of G.zones hff
      obtain ⟨P, g2, c, h1, h2, h3, h4, h5, hr, o, -, -, -, i1, i2, -⟩ := cutBorder_outcome G he hf hn hz hp
      obtain rfl := run (b := true) (r := g.cutSingleEdge rc e p) (by unfold cutSingleEdge; rw [if_pos hl, hr]; rfl) h
      refine o.kin (by rw [h1]; simpa using hz) (by rw [h5]; exact ⟨_, List.mem_cons_self⟩) ?_
      rw [h5]
      simp only [List.forall_mem_cons, List.not_mem_nil, false_imp_iff, implies_true, and_true]
      exact ⟨⟨f, hff, hz, i1.data⟩, ⟨f, hff, hz, i2.data⟩⟩
    · obtain rfl := run (b := false) (r := g.cutSingleEdge rc e p) (by unfold cutSingleEdge; rw [if_neg hl]) h
      exact Kin.refl _
  | cutTwo e p1 p2 =>
    obtain ⟨he, hp1, hp2, hpp⟩ := ha
    obtain ⟨z, hz⟩ := hi
    obtain ⟨a, b, hn⟩ := eNodes_pair G.mesh he
    rcases (G.mesh.edge_faces e he).1 with hl | hl
    · obtain ⟨f, hf⟩ := List.length_eq_one_iff.1 hl
      have hff := ((G.mesh.edge_face e he f).1 (by simp [hf])).1
      have hzf := hz f (by simp [hf])
      obtain ⟨P, g2, c, h1, h2, h3, h4, h5, hr, o, -, -, -, -, i1, i2, i3⟩ := cutBorder2_outcome G he hf hn hzf hp1 hp2 hpp
      obtain rfl := run (b := true) (r := g.cutEdgeTwoNodes rc e p1 p2) (by unfold cutEdgeTwoNodes; rw [if_pos hl, hr]; rfl) h
      refine o.kin (by rw [h1]; simpa using hzf) (by rw [h5]; exact ⟨_, List.mem_cons_self⟩) ?_
      rw [h5]
      simp only [List.forall_mem_cons, List.not_mem_nil, false_imp_iff, implies_true, and_true]
      exact ⟨⟨f, hff, hzf, i1.data⟩, ⟨f, hff, hzf, i2.data⟩, ⟨f, hff, hzf, i3.data⟩⟩
    · obtain ⟨f, k, hf⟩ := List.length_eq_two.1 hl
      have hzf := hz f (by simp [hf])
      have hzk := hz k (by simp [hf])
      have hff := ((G.mesh.edge_face e he f).1 (by simp [hf])).1
      have hkf := ((G.mesh.edge_face e he k).1 (by simp [hf])).1
      obtain ⟨P, g2, c, c', h1, h2, h3, h4, h5, hr, o, -, -, -, -, -, i1, i2, i3, i4, i5, i6⟩ := cutInner2_outcome G he hf hn hzf hp1 hp2 hpp
      obtain rfl := run (b := true) (r := g.cutEdgeTwoNodes rc e p1 p2)
        (by unfold cutEdgeTwoNodes; rw [if_neg (by omega), if_pos hl, hr]; rfl) h
      refine o.kin (by rw [h1]; simp [hzf, hzk]) (by rw [h5]; exact ⟨_, List.mem_cons_self⟩) ?_
      rw [h5]
      simp only [List.forall_mem_cons, List.not_mem_nil, false_imp_iff, implies_true, and_true]
      exact ⟨⟨f, hff, hzf, i1.data⟩, ⟨f, hff, hzf, i2.data⟩, ⟨f, hff, hzf, i3.data⟩, ⟨k, hkf, hzk, i4.data⟩, ⟨k, hkf, hzk, i5.data⟩,
        ⟨k, hkf, hzk, i6.data⟩⟩
  | collapse f =>
    obtain ⟨hf, hj⟩ := ha
    rcases collapse_cases dist gt G hf hj with h1 | ⟨P, g2, h1, hdf, hde, hnn, hen, hfn, z, o, hz, ⟨e, he, hde'⟩, hd⟩
    · obtain rfl := run h1 h
      exact Kin.refl _
    · obtain rfl := run h1 h
      obtain ⟨w, hw⟩ := hi e he
      have hef : f ∈ g.eFaces e := by
        obtain ⟨e', hef, hm⟩ := maxEdge_ok dist gt G.mesh hf
        rw [he] at hm
        obtain rfl := Except.ok.inj hm
        exact (G.mesh.edge_face e ((G.mesh.face_edges f hf).2.2 e hef) f).2 ⟨hf, hef⟩
      obtain rfl : w = z := by
        have := hw f hef
        rw [hz] at this
        exact (Option.some.inj this).symm
      refine o.kin (fun k hk => hw k (hde' k hk)) (List.length_pos_iff_exists_mem.1 (by omega)) fun k hk => ⟨f, hf, hz, hd k hk⟩
  | shrink e =>
    by_cases hl : (g.eFaces e).length = 2
    · obtain ⟨n1, n2, C, hid⟩ := ha hl
      obtain ⟨z, hz⟩ := hi
      obtain ⟨f, k, hf⟩ := List.length_eq_two.1 C.inner
      obtain ⟨n3, n4, e13, e23, e14, e24, c⟩ := corner2 G.mesh G.simple C.edge hf C.ends
      obtain ⟨g2, hr, S, hg⟩ := collapse_full G C hf c
      obtain rfl := run (b := true) (r := g.collapseEdge rc mid e) (by unfold collapseEdge; rw [if_pos C.inner, hr]; rfl) h
      have s := S.shrinks G C hf c
      refine ⟨s.name, ⟨s.zones.1, s.zones.2.2.1⟩, fun L => S.zoneLists (z := z) G C hf c rfl C.place L ?_, ?_, ?_⟩
      · intro x hx h
        rcases h with h | h
        · exact hz n1 (by rw [C.ends]; simp) x hx h
        · exact hz n2 (by rw [C.ends]; simp) x hx h
      · intro x hx
        exact ⟨x, (S.memF.1 hx).1, s.data x hx⟩
      · intro _ h
        have := s.counts.2.2
        have := C.four
        rw [h] at *
        simp at *
        omega
    · obtain rfl := run (b := false) (r := g.collapseEdge rc mid e) (by unfold collapseEdge; rw [if_neg hl]) h
      exact Kin.refl _

theorem zoneSteps_ok {rc : Vec F → R} {mid : Vec F → Vec F → Vec F} {dist : Vec F → Vec F → F} {gt : F → F → Bool} {g g' : Grid F R} (G : Good rc g)
    (h : ZoneSteps rc mid dist gt g g') : Good rc g' ∧ Kin g g' ∧ Verif.euler g' = Verif.euler g := by
  induction h with
  | refl => exact ⟨G, Kin.refl g, rfl⟩
  | step o _ ha hi hr ih =>
    obtain ⟨g2, h1, h2, h3⟩ := step_ok mid dist gt ih.1 o ha
    rw [hr] at h1
    obtain rfl := Except.ok.inj h1
    exact ⟨h2, ih.2.1.trans (step_kin mid dist gt ih.1 o ha hi hr), h3.trans ih.2.2⟩

theorem Kin.sameVars {g g' : Grid F R} (k : Kin g g') (hs : SameVars g) (hf : g.faces ≠ []) : SameVars g' ∧ g'.vars = g.vars := by
  have h1 : ∀ x ∈ g'.faces, (g'.fData x).map Prod.fst = g.vars := by
    intro x hx
    obtain ⟨f, hf, e, -⟩ := k.faces x hx
    rw [e, hs f hf]
  have h2 : g'.vars = g.vars := by
    have := k.some hf
    unfold Grid.vars at h1 ⊢
    cases hq : g'.faces with
    | nil => exact absurd hq this
    | cons a l => exact h1 a (by rw [hq]; simp)
  exact ⟨fun x hx => by rw [h1 x hx, h2], h2⟩

theorem Kin.storable {rc : Vec F → R} {g g' : Grid F R} (k : Kin g g') (G : Good rc g') (hs : SameVars g) (hg : Storable g) : Storable g' := by
  refine ⟨⟨G.mesh, G.zones, G.zalloc⟩, k.lists hg.lists, G.glo, k.some hg.faces, k.name ▸ hg.name, ?_, ?_, ?_⟩
  · rw [k.zones.1, k.zones.2]; exact hg.zoneNames
  · rw [(k.sameVars hs hg.faces).2]; exact hg.vars
  · rw [(k.sameVars hs hg.faces).2]; exact hg.dict

theorem keysApart_of_good {rc : Vec F → R} {g : Grid F R} (G : Good rc g) (L : ZoneLists g) (merge : Bool) : KeysApart rc merge g := by
  have h : ∀ n ∈ g.nodes, ∀ m ∈ g.nodes, rc (g.nP n) = rc (g.nP m) → n = m := fun n hn m hm e =>
    G.merged.inj n hn m hm (by rw [G.merged.key n hn, G.merged.key m hm, e])
  unfold KeysApart
  split
  · exact h
  · intro z hz n hn m hm
    exact h n ((L.mem_nodes hz n).1 hn).1 m ((L.mem_nodes hz m).1 hm).1

end Grid
end Verif
