import Verif.Spec.Order
import Verif.Proofs.Cases
import Verif.Proofs.Delete
import Mathlib.Data.List.Perm.Basic

/-! Files that differ in the order of zones, faces and points. -/

namespace Verif
open Grid
variable {F R : Type}

namespace FileOrder

theorem map_of_forall₂ {α β : Type} [DecidableEq α] {r : α → β → Prop} {l : List α} {m : List β} (h : List.Forall₂ r l m) (hn : l.Nodup) (d : α → β) :
    ∃ φ : α → β, m = l.map φ ∧ ∀ x ∈ l, r x (φ x) := by
  induction h with
  | nil => exact ⟨d, rfl, by simp⟩
  | @cons a b l m hab _ ih =>
    obtain ⟨h1, h2⟩ := List.nodup_cons.1 hn
    obtain ⟨φ, e, hr⟩ := ih h2
    refine ⟨fun x => if x = a then b else φ x, ?_, ?_⟩
    · rw [List.map_cons, if_pos rfl, e]
      congr 1
      refine List.map_congr_left fun x hx => ?_
      rw [if_neg (fun h : x = a => h1 (h ▸ hx))]
    · intro x hx
      rcases List.mem_cons.1 hx with rfl | hx
      · simpa using hab
      · have : x ≠ a := fun h => h1 (h ▸ hx)
        simpa [this] using hr x hx

theorem bij_of_map {α β : Type} {φ : α → β} {l k : List α} {m m' : List β} (h : m = l.map φ) (hm : m.Nodup) (hk : l.Perm k) (hm' : m.Perm m') :
    Set.BijOn φ {x | x ∈ k} {x | x ∈ m'} := by
  refine ⟨?_, ?_, ?_⟩
  · intro x hx
    show φ x ∈ m'
    rw [← hm'.mem_iff, h]
    exact List.mem_map_of_mem (hk.mem_iff.2 hx)
  · intro x hx y hy hxy
    exact List.inj_on_of_nodup_map (h ▸ hm) (hk.mem_iff.2 hx) (hk.mem_iff.2 hy) hxy
  · intro y hy
    have : y ∈ m := hm'.mem_iff.2 hy
    rw [h, List.mem_map] at this
    obtain ⟨x, hx, rfl⟩ := this
    exact ⟨x, hk.mem_iff.1 hx, rfl⟩

theorem map_inj_on {α β : Type} {k : α → β} {l m : List α} (h : l.map k = m.map k) (hi : ∀ x ∈ l, ∀ y ∈ m, k x = k y → x = y) : l = m := by
  induction l generalizing m with
  | nil => cases m with
    | nil => rfl
    | cons _ _ => cases h
  | cons a l ih => cases m with
    | nil => cases h
    | cons b m =>
      simp only [List.map_cons, List.cons.injEq] at h
      rw [hi a (by simp) b (by simp) h.1, ih h.2 (fun x hx y hy => hi x (List.mem_cons_of_mem _ hx) y (List.mem_cons_of_mem _ hy))]

/-- Lists with the same values, up to the order, have elements in correspondence. -/
theorem match_of_perm {α β γ : Type} {d : α → γ} {d' : β → γ} {l : List α} {m : List β} (h : (l.map d).Perm (m.map d')) :
    ∃ l', l'.Perm l ∧ List.Forall₂ (fun a b => d a = d' b) l' m := by
  have h1 : List.Forall₂ (fun c a => c = d a) (l.map d) l := by
    rw [List.forall₂_map_left_iff]
    exact List.forall₂_same.2 fun _ _ => rfl
  obtain ⟨l', h2, h3⟩ := List.perm_comp_forall₂ h.symm h1
  rw [List.forall₂_map_left_iff] at h2
  exact ⟨l', h3, h2.flip.imp fun _ _ h => h.symm⟩

theorem match_flat {γ : Type} {p p' : Nat → List Nat} {d d' : Nat → γ} {ζ : Nat → Nat} :
    ∀ l : List Nat, (∀ z ∈ l, ((p z).map d).Perm ((p' (ζ z)).map d')) →
    ∃ L : List Nat, L.Perm (l.flatMap p) ∧
      List.Forall₂ (fun a b => d a = d' b ∧ ∃ z ∈ l, a ∈ p z ∧ b ∈ p' (ζ z)) L ((l.map ζ).flatMap p') := by
  intro l
  induction l with
  | nil => intro _; exact ⟨[], List.Perm.refl _, by simp⟩
  | cons z l ih =>
    intro h
    obtain ⟨L, h1, h2⟩ := ih fun y hy => h y (List.mem_cons_of_mem _ hy)
    obtain ⟨M, h3, h4⟩ := match_of_perm (h z (by simp))
    refine ⟨M ++ L, ?_, ?_⟩
    · rw [List.flatMap_cons]
      exact h3.append h1
    · rw [List.map_cons, List.flatMap_cons]
      refine List.rel_append ?_ ?_
      · have : List.Forall₂ (fun a b => (d a = d' b ∧ a ∈ M) ∧ b ∈ p' (ζ z)) M (p' (ζ z)) := by
          refine forall₂_mem h4 ?_
          intro a ha b hb hab
          exact ⟨⟨hab, ha⟩, hb⟩
        exact this.imp fun a b h => ⟨h.1.1, z, by simp, h3.mem_iff.1 h.1.2, h.2⟩
      · exact h2.imp fun a b ⟨h, y, hy, ha, hb⟩ => ⟨h, y, List.mem_cons_of_mem _ hy, ha, hb⟩

theorem comp {α β γ : Type} {r : α → β → Prop} {s : β → γ → Prop} {a : List α} {b : List β} {c : List γ} (h : List.Forall₂ r a b)
    (h' : List.Forall₂ s b c) : List.Forall₂ (fun x z => ∃ y, r x y ∧ s y z) a c := by
  induction h generalizing c with
  | nil => cases h'; exact .nil
  | cons h1 _ ih => cases h' with
    | cons h2 h3 => exact .cons ⟨_, h1, h2⟩ (ih h3)

theorem two_of_card {l : List Nat} (hl : l.length = 2) (hn : l.Nodup) : ∃ a b, a ≠ b ∧ ∀ x, x ∈ l ↔ x = a ∨ x = b := by
  match l, hl with
  | [a, b], _ => exact ⟨a, b, by simpa using hn, by simp⟩

end FileOrder

open FileOrder
variable [DecidableEq R]

omit [DecidableEq R] in
/-- Whatever edge has two of the ends is the edge. -/
theorem mesh_edge_eq {g : Grid F R} (hm : Mesh g) {e e' : Nat} (he : e ∈ g.edges) (he' : e' ∈ g.edges)
    (h : ∀ x ∈ g.eNodes e, x ∈ g.eNodes e') : e = e' := by
  refine hm.edge_unique e he e' he' fun x => ⟨h x, ?_⟩
  obtain ⟨a, b, hab, h1⟩ := two_of_card (hm.edge_nodes e he).1 (hm.edge_nodes e he).2.1
  obtain ⟨c, d, hcd, h2⟩ := two_of_card (hm.edge_nodes e' he').1 (hm.edge_nodes e' he').2.1
  have ha := (h2 a).1 (h a ((h1 a).2 (Or.inl rfl)))
  have hb := (h2 b).1 (h b ((h1 b).2 (Or.inr rfl)))
  rw [h1, h2]
  omega

theorem Loaded.renumbers {rc : Vec F → R} {l l' : List (ZoneBlock F)} {g0 g1 g h : Grid F R} (hg : Loaded rc true l g0 g)
    (hh : Loaded rc true l' g1 h) (hs : SameContents rc l l') : ∃ n e f z, Renumbers rc g h n e f z := by
  obtain ⟨m, hm1, hm2⟩ := hs.zones
  rw [← loaded_contents hg] at hm1
  rw [← loaded_contents hh] at hm2
  unfold gridContents at hm1 hm2
  rw [List.forall₂_map_right_iff] at hm2
  obtain ⟨Z, hZ1, hZ2⟩ := List.perm_comp_forall₂ hm1 (v := g.zones) (r := fun c z => c = (g.zName z, (g.zFaces z).map
    (fun f => (g.fData f, (g.fNodes f).map (fun n => some (rc (g.nP n))))))) (by
      rw [List.forall₂_map_left_iff]
      exact List.forall₂_same.2 fun _ _ => rfl)
  have hZn : Z.Nodup := hZ2.nodup_iff.2 hg.zones.zones_nodup
  obtain ⟨ζ, hζ, hζ'⟩ := map_of_forall₂ (comp hZ1.flip hm2) hZn id
  have hname : ∀ x ∈ Z, h.zName (ζ x) = g.zName x := by
    intro x hx
    obtain ⟨y, h1, h2, -⟩ := hζ' x hx
    have h1 : y = _ := h1
    rw [h1] at h2
    exact h2.symm
  obtain ⟨L, hL1, hL2⟩ := match_flat (p := g.zFaces) (p' := h.zFaces) (ζ := ζ)
    (d := fun f => (g.fData f, (g.fNodes f).map (fun n => some (rc (g.nP n)))))
    (d' := fun f => (h.fData f, (h.fNodes f).map (fun n => some (rc (h.nP n))))) Z (by
      intro x hx
      obtain ⟨y, h1, -, h2⟩ := hζ' x hx
      have h1 : y = _ := h1
      rw [h1] at h2
      exact h2)
  rw [← hζ] at hL2
  have hLg : L.Perm g.faces := hL1.trans ((hZ2.flatMap_right _).trans hg.zones.partition)
  have hLn : L.Nodup := hLg.nodup_iff.2 hg.mesh.faces_nodup
  obtain ⟨φ, hφ, hφ'⟩ := map_of_forall₂ hL2 hLn id
  have bf := bij_of_map hφ (hh.zones.partition.nodup_iff.2 hh.mesh.faces_nodup) hLg hh.zones.partition
  have bz := bij_of_map hζ hh.zones.zones_nodup hZ2 (List.Perm.refl _)
  -- nodes
  have key : ∀ {k k' : List (ZoneBlock F)} {u u' v v' : Grid F R}, Loaded rc true k u v → Loaded rc true k' u' v' →
      (∀ r, (∃ b ∈ k, ∃ p ∈ b.pts, rc p = r) → ∃ b ∈ k', ∃ p ∈ b.pts, rc p = r) →
      ∀ x ∈ v.nodes, ∃ y ∈ v'.nodes, rc (v'.nP y) = rc (v.nP x) := by
    intro k k' u u' v v' hv hv' hk x hx
    obtain ⟨b, hb, p, hp, h1⟩ := hv.used x hx
    obtain ⟨b', hb', p', hp', h2⟩ := hk _ ⟨b, hb, p, hp, rfl⟩
    obtain ⟨y, hy, h3, -⟩ := hv'.points b' hb' p' hp'
    exact ⟨y, hy, by rw [← hv'.keys y hy, h3, h2, ← h1, hv.keys x hx]⟩
  have inj : ∀ {k : List (ZoneBlock F)} {u v : Grid F R}, Loaded rc true k u v → ∀ x ∈ v.nodes, ∀ y ∈ v.nodes, rc (v.nP x) = rc (v.nP y) → x = y := by
    intro k u v hv x hx y hy hxy
    exact hv.merged rfl x hx y hy (by rw [hv.keys x hx, hv.keys y hy, hxy])
  have hn : ∀ x, ∃ y, x ∈ g.nodes → y ∈ h.nodes ∧ rc (h.nP y) = rc (g.nP x) := by
    intro x
    by_cases hx : x ∈ g.nodes
    · obtain ⟨y, hy⟩ := key hg hh (fun r hr => (hs.places r).1 hr) x hx
      exact ⟨y, fun _ => hy⟩
    · exact ⟨0, fun h => absurd h hx⟩
  choose ν hν using hn
  have bn : Set.BijOn ν {x | x ∈ g.nodes} {x | x ∈ h.nodes} := by
    refine ⟨fun x hx => (hν x hx).1, ?_, ?_⟩
    · intro x hx y hy hxy
      exact inj hg x hx y hy (by rw [← (hν x hx).2, ← (hν y hy).2, hxy])
    · intro y hy
      obtain ⟨x, hx, h1⟩ := key hh hg (fun r hr => (hs.places r).2 hr) y hy
      exact ⟨x, hx, inj hh _ (hν x hx).1 y hy (by rw [(hν x hx).2, h1])⟩
  have hcor : ∀ x ∈ g.faces, h.fNodes (φ x) = (g.fNodes x).map ν := by
    intro x hx
    have h1 := (Prod.mk.inj (hφ' x (hLg.mem_iff.2 hx)).1).2
    have hx' : φ x ∈ h.faces := bf.mapsTo hx
    refine map_inj_on (k := fun n => some (rc (h.nP n))) ?_ ?_
    · rw [← h1, List.map_map]
      refine List.map_congr_left fun y hy => ?_
      show _ = some (rc (h.nP (ν y)))
      rw [(hν y ((hg.mesh.face_nodes x hx).2.2 y hy)).2]
    · intro y hy w hw hyw
      obtain ⟨w', hw', rfl⟩ := List.mem_map.1 hw
      exact inj hh y ((hh.mesh.face_nodes _ hx').2.2 y hy) _ (hν w' ((hg.mesh.face_nodes x hx).2.2 w' hw')).1 (Option.some.inj hyw)
  have hcm : ∀ x ∈ g.faces, ∀ y ∈ g.nodes, (ν y ∈ h.fNodes (φ x) ↔ y ∈ g.fNodes x) := by
    intro x hx y hy
    rw [hcor x hx, List.mem_map]
    constructor
    · rintro ⟨y', hy', h1⟩
      rw [← bn.injOn ((hg.mesh.face_nodes x hx).2.2 y' hy') hy h1]
      exact hy'
    · exact fun h => ⟨y, h, rfl⟩
  -- edges
  have he : ∀ y, ∃ y', y ∈ g.edges → y' ∈ h.edges ∧ ∀ x ∈ g.nodes, ν x ∈ h.eNodes y' ↔ x ∈ g.eNodes y := by
    intro y
    by_cases hy : y ∈ g.edges
    swap
    · exact ⟨0, fun h => absurd h hy⟩
    obtain ⟨a, b, hab, h1⟩ := two_of_card (hg.mesh.edge_nodes y hy).1 (hg.mesh.edge_nodes y hy).2.1
    have hne : ∃ f, f ∈ g.eFaces y := by
      rcases (hg.mesh.edge_faces y hy).1 with h2 | h2
      · exact List.exists_mem_of_length_pos (by omega)
      · exact List.exists_mem_of_length_pos (by omega)
    obtain ⟨f, hf⟩ := hne
    obtain ⟨hf1, hf2⟩ := (hg.mesh.edge_face y hy f).1 hf
    have ha := (hg.mesh.edge_nodes y hy).2.2 a ((h1 a).2 (Or.inl rfl))
    have hb := (hg.mesh.edge_nodes y hy).2.2 b ((h1 b).2 (Or.inr rfl))
    have haf := hg.mesh.edge_in_face f hf1 y hf2 a ((h1 a).2 (Or.inl rfl))
    have hbf := hg.mesh.edge_in_face f hf1 y hf2 b ((h1 b).2 (Or.inr rfl))
    have hne : ν a ≠ ν b := fun h => hab (bn.injOn ha hb h)
    obtain ⟨y', h2, h3, h4⟩ := hh.mesh.sides (φ f) (bf.mapsTo hf1) (ν a) ((hcm f hf1 a ha).2 haf) (ν b) ((hcm f hf1 b hb).2 hbf) hne
    have hy' := (hh.mesh.face_edges _ (bf.mapsTo hf1)).2.2 y' h2
    refine ⟨y', fun _ => ⟨hy', fun x hx => ?_⟩⟩
    obtain ⟨c, d, hcd, h5⟩ := two_of_card (hh.mesh.edge_nodes y' hy').1 (hh.mesh.edge_nodes y' hy').2.1
    rw [h1]
    constructor
    · intro h6
      have e1 := (h5 _).1 h3
      have e2 := (h5 _).1 h4
      have e3 := (h5 _).1 h6
      have : ν x = ν a ∨ ν x = ν b := by omega
      exact this.imp (fun h => bn.injOn hx ha h) (fun h => bn.injOn hx hb h)
    · rintro (rfl | rfl)
      · exact h3
      · exact h4
  choose ε hε using he
  have hside : ∀ y ∈ g.edges, ∀ x ∈ g.faces, (φ x ∈ h.eFaces (ε y) ↔ x ∈ g.eFaces y) := by
    intro y hy x hx
    rw [hh.mesh.edge_face _ (hε y hy).1, hg.mesh.edge_face _ hy]
    obtain ⟨a, b, hab, h1⟩ := two_of_card (hg.mesh.edge_nodes y hy).1 (hg.mesh.edge_nodes y hy).2.1
    have ha := (hg.mesh.edge_nodes y hy).2.2 a ((h1 a).2 (Or.inl rfl))
    have hb := (hg.mesh.edge_nodes y hy).2.2 b ((h1 b).2 (Or.inr rfl))
    constructor
    · rintro ⟨h2, h3⟩
      refine ⟨hx, ?_⟩
      have hA := (hcm x hx a ha).1 (hh.mesh.edge_in_face _ h2 _ h3 _ (((hε y hy).2 a ha).2 ((h1 a).2 (Or.inl rfl))))
      have hB := (hcm x hx b hb).1 (hh.mesh.edge_in_face _ h2 _ h3 _ (((hε y hy).2 b hb).2 ((h1 b).2 (Or.inr rfl))))
      obtain ⟨y', h4, h5, h6⟩ := hg.mesh.sides x hx a hA b hB hab
      rw [mesh_edge_eq hg.mesh hy ((hg.mesh.face_edges x hx).2.2 y' h4) (by
        intro w hw
        rcases (h1 w).1 hw with rfl | rfl
        · exact h5
        · exact h6)]
      exact h4
    · rintro ⟨-, h3⟩
      have h2 := bf.mapsTo hx
      refine ⟨h2, ?_⟩
      have hA := (hcm x hx a ha).2 (hg.mesh.edge_in_face _ hx _ h3 _ ((h1 a).2 (Or.inl rfl)))
      have hB := (hcm x hx b hb).2 (hg.mesh.edge_in_face _ hx _ h3 _ ((h1 b).2 (Or.inr rfl)))
      obtain ⟨y', h4, h5, h6⟩ := hh.mesh.sides (φ x) h2 _ hA _ hB (fun h => hab (bn.injOn ha hb h))
      rw [mesh_edge_eq hh.mesh (hε y hy).1 ((hh.mesh.face_edges _ h2).2.2 y' h4) (by
        intro w hw
        obtain ⟨w', hw', rfl⟩ := bn.surjOn ((hh.mesh.edge_nodes _ (hε y hy).1).2.2 w hw)
        rcases (h1 w').1 (((hε y hy).2 w' hw').1 hw) with rfl | rfl
        · exact h5
        · exact h6)]
      exact h4
  have be : Set.BijOn ε {x | x ∈ g.edges} {x | x ∈ h.edges} := by
    refine ⟨fun x hx => (hε x hx).1, ?_, ?_⟩
    · intro x hx y hy hxy
      refine mesh_edge_eq hg.mesh hx hy fun w hw => ?_
      have hw' := (hg.mesh.edge_nodes x hx).2.2 w hw
      have := ((hε x hx).2 w hw').2 hw
      rw [hxy] at this
      exact ((hε y hy).2 w hw').1 this
    · intro y hy
      obtain ⟨f', hf'⟩ : ∃ f, f ∈ h.eFaces y := by
        rcases (hh.mesh.edge_faces y hy).1 with h2 | h2
        · exact List.exists_mem_of_length_pos (by omega)
        · exact List.exists_mem_of_length_pos (by omega)
      obtain ⟨h1, h2⟩ := (hh.mesh.edge_face y hy f').1 hf'
      obtain ⟨f, hf, rfl⟩ := bf.surjOn h1
      obtain ⟨a', b', hab, h3⟩ := two_of_card (hh.mesh.edge_nodes y hy).1 (hh.mesh.edge_nodes y hy).2.1
      obtain ⟨a, ha, rfl⟩ := bn.surjOn ((hh.mesh.edge_nodes y hy).2.2 a' ((h3 a').2 (Or.inl rfl)))
      obtain ⟨b, hb, rfl⟩ := bn.surjOn ((hh.mesh.edge_nodes y hy).2.2 b' ((h3 b').2 (Or.inr rfl)))
      have hA := (hcm f hf a ha).1 (hh.mesh.edge_in_face _ h1 y h2 _ ((h3 _).2 (Or.inl rfl)))
      have hB := (hcm f hf b hb).1 (hh.mesh.edge_in_face _ h1 y h2 _ ((h3 _).2 (Or.inr rfl)))
      obtain ⟨x, h4, h5, h6⟩ := hg.mesh.sides f hf a hA b hB (fun h => hab (by rw [h]))
      have hx := (hg.mesh.face_edges f hf).2.2 x h4
      refine ⟨x, hx, (mesh_edge_eq hh.mesh hy (hε x hx).1 fun w hw => ?_).symm⟩
      rcases (h3 w).1 hw with rfl | rfl
      · exact ((hε x hx).2 a ha).2 h5
      · exact ((hε x hx).2 b hb).2 h6
  refine ⟨ν, ε, φ, ζ, bn, be, bf, bz, fun x hx => (hν x hx).2, hcor, ?_, ?_, fun x hx => hname x (hZ2.mem_iff.2 hx), fun y hy => (hε y hy).2, hside⟩
  · intro x hx
    exact (Prod.mk.inj (hφ' x (hLg.mem_iff.2 hx)).1).1.symm
  · intro x hx
    obtain ⟨-, z, h1, h2, h3⟩ := hφ' x (hLg.mem_iff.2 hx)
    have hz := hZ2.mem_iff.1 h1
    rw [hg.zones.points z hz x h2, hh.zones.points _ (bz.mapsTo hz) _ h3]
    rfl

/-! Which files are loaded -/

omit [DecidableEq R] in
theorem fileFaces_allTris (rc : Vec F → R) (l : List (ZoneBlock F)) :
    fileFaces rc true l = (allTris rc l).map (fun t => t.2.map (fun o => ((0 : Nat), o))) := by
  have h : ∀ (l : List (ZoneBlock F)) (i : Nat), (l.zipIdx i).flatMap (fun p => p.1.faces.map (fun fc => fc.2.map (cornerId rc true p.2 p.1))) =
      (allTris rc l).map (fun t => t.2.map (fun o => ((0 : Nat), o))) := by
    intro l
    induction l with
    | nil => intro i; rfl
    | cons b l ih =>
      intro i
      have e : allTris rc (b :: l) = b.tris rc ++ allTris rc l := rfl
      rw [List.zipIdx_cons, List.flatMap_cons, ih, e, List.map_append]
      congr 1
      simp [ZoneBlock.tris, cornerId]
  exact h l 0

omit [DecidableEq R] in
theorem SameContents.tris {rc : Vec F → R} {l l' : List (ZoneBlock F)} (h : SameContents rc l l') : (allTris rc l).Perm (allTris rc l') := by
  obtain ⟨m, h1, h2⟩ := h.zones
  rw [allTris_contents, allTris_contents]
  refine (h1.symm.flatMap_right _).trans ?_
  generalize contents rc l' = k at h2
  clear h1
  induction h2 with
  | nil => exact .refl _
  | cons h _ ih =>
    rw [List.flatMap_cons, List.flatMap_cons]
    exact h.2.append ih

omit [DecidableEq R] in
theorem valid_tris (rc : Vec F → R) (l : List (ZoneBlock F)) :
    (∀ b ∈ l, b.Valid) ↔ ∀ t ∈ allTris rc l, t.2.length = 3 ∧ ∀ o ∈ t.2, o.isSome = true := by
  unfold allTris ZoneBlock.tris ZoneBlock.Valid
  constructor
  · intro h t ht
    obtain ⟨b, hb, ht⟩ := List.mem_flatMap.1 ht
    obtain ⟨fc, hf, rfl⟩ := List.mem_map.1 ht
    obtain ⟨h1, h2⟩ := h b hb fc hf
    refine ⟨by simpa using h1, fun o ho => ?_⟩
    obtain ⟨s, hs, rfl⟩ := List.mem_map.1 ho
    simpa using h2 s hs
  · intro h b hb fc hf
    obtain ⟨h1, h2⟩ := h _ (List.mem_flatMap.2 ⟨b, hb, List.mem_map_of_mem hf⟩)
    refine ⟨by simpa using h1, fun s hs => ?_⟩
    simpa using h2 _ (List.mem_map_of_mem hs)

theorem SameContents.same {rc : Vec F → R} {l l' : List (ZoneBlock F)} (h : SameContents rc l l') :
    ((∀ b ∈ l, b.Valid) ↔ ∀ b ∈ l', b.Valid) ∧ (NonDegenerate rc true l ↔ NonDegenerate rc true l') ∧
      (OverShared rc true l ↔ OverShared rc true l') := by
  have ht := h.tris
  refine ⟨?_, ?_, ?_⟩
  · rw [valid_tris rc, valid_tris rc]
    exact forall_congr' fun t => by rw [ht.mem_iff]
  · unfold NonDegenerate
    rw [fileFaces_allTris, fileFaces_allTris]
    exact forall_congr' fun t => by rw [(ht.map _).mem_iff]
  · unfold OverShared
    rw [fileFaces_allTris, fileFaces_allTris]
    refine exists_congr fun u => exists_congr fun v => and_congr_right fun _ => ?_
    rw [((ht.map _).filter _).length_eq]

theorem bij_length {φ : Nat → Nat} {l m : List Nat} (h : Set.BijOn φ {x | x ∈ l} {x | x ∈ m}) (hl : l.Nodup) (hm : m.Nodup) : l.length = m.length := by
  have : m.Perm (l.map φ) := by
    rw [List.perm_ext_iff_of_nodup hm (hl.map_on fun a ha b hb hab => h.injOn ha hb hab)]
    intro x
    rw [List.mem_map]
    constructor
    · intro hx
      obtain ⟨w, hw, e⟩ := h.surjOn hx
      exact ⟨w, hw, e⟩
    · rintro ⟨w, hw, rfl⟩
      exact h.mapsTo hw
  rw [this.length_eq, List.length_map]

/-! Kinds of edges -/

omit [DecidableEq R] in
theorem Renumbers.edge_faces {rc : Vec F → R} {g h : Grid F R} {n e f z : Nat → Nat} (H : Renumbers rc g h n e f z) (hg : Mesh g) (hh : Mesh h)
    {y : Nat} (hy : y ∈ g.edges) : (h.eFaces (e y)).Perm ((g.eFaces y).map f) := by
  have hy' : e y ∈ h.edges := H.edges.mapsTo hy
  have mem : ∀ x ∈ g.eFaces y, x ∈ g.faces := fun x hx => ((hg.edge_face y hy x).1 hx).1
  rw [List.perm_ext_iff_of_nodup (hh.edge_faces _ hy').2]
  · intro x
    rw [List.mem_map]
    constructor
    · intro hx
      obtain ⟨w, hw, rfl⟩ := H.faces.surjOn (((hh.edge_face _ hy' x).1 hx).1)
      exact ⟨w, (H.sides y hy w hw).1 hx, rfl⟩
    · rintro ⟨w, hw, rfl⟩
      exact (H.sides y hy w (mem w hw)).2 hw
  · exact (hg.edge_faces y hy).2.map_on fun a ha b hb hab => H.faces.injOn (mem a ha) (mem b hb) hab

omit [DecidableEq R] in
theorem Renumbers.kinds {rc : Vec F → R} {g h : Grid F R} {n e f z : Nat → Nat} (H : Renumbers rc g h n e f z) (hg : Mesh g) (hh : Mesh h)
    (hz : ZonesOk g) {y : Nat} (hy : y ∈ g.edges) :
    h.isBorder (e y) = g.isBorder y ∧ h.isInner (e y) = g.isInner y ∧ h.isCross (e y) = g.isCross y := by
  have hp := H.edge_faces hg hh hy
  have mem : ∀ x ∈ g.eFaces y, x ∈ g.faces := fun x hx => ((hg.edge_face y hy x).1 hx).1
  have zq : ∀ a ∈ g.faces, ∀ b ∈ g.faces, (h.fZone (f a) = h.fZone (f b) ↔ g.fZone a = g.fZone b) := by
    intro a ha b hb
    obtain ⟨za, h1, -, h2⟩ := zone_of hz ha
    obtain ⟨zb, h3, -, h4⟩ := zone_of hz hb
    rw [H.zone a ha, H.zone b hb, h2, h4]
    simp only [Option.map_some, Option.some.injEq]
    exact ⟨fun h => H.zones.injOn h1 h3 h, fun h => by rw [h]⟩
  refine ⟨by unfold isBorder; rw [hp.length_eq, List.length_map], ?_⟩
  rcases (hg.edge_faces y hy).1 with hl | hl
  · obtain ⟨a, ha⟩ := List.length_eq_one_iff.1 hl
    rw [ha, List.map_cons, List.map_nil, List.perm_singleton] at hp
    unfold isInner isCross
    rw [hp, ha]
    exact ⟨rfl, rfl⟩
  · obtain ⟨a, b, ha⟩ := List.length_eq_two.1 hl
    have h1 := zq a (mem a (by simp [ha])) b (mem b (by simp [ha]))
    rw [ha] at hp
    obtain ⟨c, d, hc⟩ := List.length_eq_two.1 (hp.length_eq.trans (by rfl : ([a, b].map f).length = 2))
    have hcd : (c = f a ∧ d = f b) ∨ (c = f b ∧ d = f a) := by
      rw [hc] at hp
      have hn : [c, d].Nodup := hc ▸ (hh.edge_faces _ (H.edges.mapsTo hy)).2
      have h2 : c ∈ [a, b].map f := hp.mem_iff.1 (by simp)
      have h3 : d ∈ [a, b].map f := hp.mem_iff.1 (by simp)
      have h4 : f a ∈ [c, d] := hp.mem_iff.2 (by simp)
      have h5 : f b ∈ [c, d] := hp.mem_iff.2 (by simp)
      simp at h2 h3 h4 h5 hn
      omega
    unfold isInner isCross
    rw [hc, ha]
    rcases hcd with ⟨rfl, rfl⟩ | ⟨rfl, rfl⟩
    · exact ⟨by simp only [h1], by simp only [ne_eq, h1]⟩
    · exact ⟨by simp only [eq_comm (a := h.fZone (f b)), h1], by simp only [ne_eq, eq_comm (a := h.fZone (f b)), h1]⟩

end Verif
