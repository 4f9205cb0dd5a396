import Verif.Proofs.History
import Verif.Spec.Forget

/-! Two grids that differ in the zone objects only. -/

namespace Verif
variable {F R : Type}
open Grid

/-- `h` is `g` with the zone objects in `D` renamed by `ρ`. -/
structure Sim (ρ : Nat → Nat) (D : Nat → Prop) (g h : Grid F R) : Prop where
  ok : Mesh g
  mesh : SameMesh g h
  zones : h.zones = g.zones.map ρ
  dom : ∀ z ∈ g.zones, D z
  inj : ∀ a b, D a → D b → ρ a = ρ b → a = b
  link : ∀ f ∈ g.faces, (∀ z, g.fZone f = some z → D z) ∧ h.fZone f = (g.fZone f).map ρ
  faces : ∀ z, D z → h.zFaces (ρ z) = g.zFaces z ∧ ∀ f ∈ g.zFaces z, f ∈ g.faces
  data : ∀ z, D z → h.zName (ρ z) = g.zName z ∧ h.zFixed (ρ z) = g.zFixed z
  alloc : ∀ z, D z → z < g.zNext ∧ ρ z < h.zNext

variable {ρ : Nat → Nat} {D : Nat → Prop} {g h : Grid F R}

theorem SameMesh.both {a b a' b' : Grid F R} (s : SameMesh a b) (h1 : SameMesh a a') (h2 : SameMesh b b') : SameMesh a' b' := by
  obtain ⟨x1, x2, x3, x4, x5, x6, x7, x8, x9, x10, x11, x12, x13, x14, x15, x16, x17, x18, x19, x20⟩ := s
  obtain ⟨y1, y2, y3, y4, y5, y6, y7, y8, y9, y10, y11, y12, y13, y14, y15, y16, y17, y18, y19, y20⟩ := h1
  obtain ⟨z1, z2, z3, z4, z5, z6, z7, z8, z9, z10, z11, z12, z13, z14, z15, z16, z17, z18, z19, z20⟩ := h2
  constructor
  · rw [z1, x1, y1]
  · rw [z2, x2, y2]
  · rw [z3, x3, y3]
  · rw [z4, x4, y4]
  · rw [z5, x5, y5]
  · rw [z6, x6, y6]
  · rw [z7, x7, y7]
  · rw [z8, x8, y8]
  · rw [z9, x9, y9]
  · rw [z10, x10, y10]
  · rw [z11, x11, y11]
  · rw [z12, x12, y12]
  · rw [z13, x13, y13]
  · rw [z14, x14, y14]
  · rw [z15, x15, y15]
  · rw [z16, x16, y16]
  · rw [z17, x17, y17]
  · rw [z18, x18, y18]
  · rw [z19, x19, y19]
  · rw [z20, x20, y20]

theorem Sim.setLink (s : Sim ρ D g h) {f : Nat} {o : Option Nat} (ho : ∀ z, o = some z → D z) :
    Sim ρ D { g with fZone := upd g.fZone f o } { h with fZone := upd h.fZone f (o.map ρ) } := by
  refine ⟨s.ok.congr (by constructor <;> rfl), s.mesh.both (by constructor <;> rfl) (by constructor <;> rfl), s.zones, s.dom, s.inj, ?_,
    s.faces, s.data, s.alloc⟩
  intro f' hf'
  show (∀ z, upd g.fZone f o f' = some z → D z) ∧ upd h.fZone f (o.map ρ) f' = (upd g.fZone f o f').map ρ
  by_cases e : f' = f
  · subst e; simp only [upd_self]; exact ⟨ho, trivial⟩
  · rw [upd_ne _ _ e, upd_ne _ _ e]; exact s.link f' hf'

theorem Sim.setFaces (s : Sim ρ D g h) {z : Nat} (hz : D z) {l : List Nat} (hl : ∀ f ∈ l, f ∈ g.faces) :
    Sim ρ D { g with zFaces := upd g.zFaces z l } { h with zFaces := upd h.zFaces (ρ z) l } := by
  refine ⟨s.ok.congr (by constructor <;> rfl), s.mesh.both (by constructor <;> rfl) (by constructor <;> rfl), s.zones, s.dom, s.inj, s.link,
    ?_, s.data, s.alloc⟩
  intro z' hz'
  show upd h.zFaces (ρ z) l (ρ z') = upd g.zFaces z l z' ∧ ∀ f ∈ upd g.zFaces z l z', f ∈ g.faces
  by_cases e : z' = z
  · subst e; simp only [upd_self]; exact ⟨trivial, hl⟩
  · rw [upd_ne _ _ e, upd_ne _ _ (fun hc => e (s.inj _ _ hz' hz hc))]; exact s.faces z' hz'

theorem Sim.setZones (s : Sim ρ D g h) {l : List Nat} (hl : ∀ z ∈ l, D z) :
    Sim ρ D { g with zones := l } { h with zones := l.map ρ } :=
  ⟨s.ok.congr (by constructor <;> rfl), s.mesh.both (by constructor <;> rfl) (by constructor <;> rfl), rfl, hl, s.inj, s.link,
    s.faces, s.data, s.alloc⟩

theorem Sim.marks (s : Sim ρ D g h) (m m' : Nat → Bool) : Sim ρ D { g with fMark := m } { h with fMark := m' } :=
  ⟨s.ok.congr (by constructor <;> rfl), s.mesh.both (by constructor <;> rfl) (by constructor <;> rfl), s.zones, s.dom, s.inj, s.link,
    s.faces, s.data, s.alloc⟩

/-- The renaming after both grids made a zone. -/
def simNext (ρ : Nat → Nat) (g h : Grid F R) : Nat → Nat := upd ρ g.zNext h.zNext

theorem Sim.newZone (s : Sim ρ D g h) (nm : Str) :
    Sim (simNext ρ g h) (fun z => D z ∨ z = g.zNext) (g.newZone nm) (h.newZone nm) := by
  have old : ∀ z, D z → simNext ρ g h z = ρ z ∧ z ≠ g.zNext ∧ ρ z ≠ h.zNext := fun z hz => by
    have := s.alloc z hz
    exact ⟨upd_ne _ _ (by omega), by omega, by omega⟩
  have new : simNext ρ g h g.zNext = h.zNext := upd_self _ _ _
  refine ⟨s.ok.congr (by constructor <;> rfl), s.mesh.both (by constructor <;> rfl) (by constructor <;> rfl), ?_, ?_, ?_, ?_, ?_, ?_, ?_⟩
  · show h.zones = g.zones.map _
    rw [s.zones]
    exact List.map_congr_left (fun z hz => (old z (s.dom z hz)).1.symm)
  · intro z hz; exact Or.inl (s.dom z hz)
  · rintro a b (ha | rfl) (hb | rfl) e
    · rw [(old a ha).1, (old b hb).1] at e; exact s.inj a b ha hb e
    · rw [(old a ha).1, new] at e; exact absurd e (old a ha).2.2
    · rw [(old b hb).1, new] at e; exact absurd e.symm (old b hb).2.2
    · rfl
  · intro f hf
    obtain ⟨h1, h2⟩ := s.link f hf
    refine ⟨fun z hz => Or.inl (h1 z hz), ?_⟩
    show h.fZone f = (g.fZone f).map _
    rw [h2]
    cases e : g.fZone f with
    | none => rfl
    | some z => simp only [Option.map_some]; rw [(old z (h1 z e)).1]
  · rintro z (hz | rfl)
    · obtain ⟨h1, h2, h3⟩ := old z hz
      show upd h.zFaces h.zNext [] _ = upd g.zFaces g.zNext [] z ∧ ∀ f ∈ upd g.zFaces g.zNext [] z, f ∈ g.faces
      rw [h1, upd_ne _ _ h2, upd_ne _ _ h3]
      exact s.faces z hz
    · show upd h.zFaces h.zNext [] _ = upd g.zFaces g.zNext [] _ ∧ ∀ f ∈ upd g.zFaces g.zNext [] _, f ∈ g.faces
      rw [new]; simp
  · rintro z (hz | rfl)
    · obtain ⟨h1, h2, h3⟩ := old z hz
      show upd h.zName h.zNext nm _ = upd g.zName g.zNext nm z ∧ upd h.zFixed h.zNext false _ = upd g.zFixed g.zNext false z
      rw [h1, upd_ne _ _ h2, upd_ne _ _ h3, upd_ne _ _ h2, upd_ne _ _ h3]
      exact s.data z hz
    · show upd h.zName h.zNext nm _ = upd g.zName g.zNext nm _ ∧ upd h.zFixed h.zNext false _ = upd g.zFixed g.zNext false _
      rw [new]; simp
  · rintro z (hz | rfl)
    · obtain ⟨h1, h2, h3⟩ := old z hz
      have := s.alloc z hz
      rw [h1]
      show z < g.zNext + 1 ∧ ρ z < h.zNext + 1
      omega
    · rw [new]
      show g.zNext < g.zNext + 1 ∧ h.zNext < h.zNext + 1
      omega

/-- Enough of a renaming is kept. -/
structure Extends (ρ : Nat → Nat) (D : Nat → Prop) (ρ' : Nat → Nat) (D' : Nat → Prop) : Prop where
  dom : ∀ z, D z → D' z
  same : ∀ z, D z → ρ' z = ρ z

theorem Extends.refl : Extends ρ D ρ D := ⟨fun _ h => h, fun _ _ => rfl⟩

theorem Extends.trans {ρ1 ρ2 : Nat → Nat} {D1 D2 : Nat → Prop} (a : Extends ρ D ρ1 D1) (b : Extends ρ1 D1 ρ2 D2) : Extends ρ D ρ2 D2 :=
  ⟨fun z hz => b.dom z (a.dom z hz), fun z hz => (b.same z (a.dom z hz)).trans (a.same z hz)⟩

theorem Sim.ext_new (s : Sim ρ D g h) : Extends ρ D (simNext ρ g h) (fun z => D z ∨ z = g.zNext) :=
  ⟨fun _ hz => Or.inl hz, fun z hz => upd_ne _ _ (by have := s.alloc z hz; omega)⟩

theorem Sim.pushZone (s : Sim ρ D g h) (nm : Str) :
    Sim (simNext ρ g h) (fun z => D z ∨ z = g.zNext) (g.pushZone nm) (h.pushZone nm) := by
  have k := (s.newZone nm).setZones (l := (g.newZone nm).zones ++ [g.zNext]) (by
    intro z hz
    rcases List.mem_append.1 hz with hz | hz
    · exact Or.inl (s.dom z hz)
    · exact Or.inr (by simpa using hz))
  have e : ((g.newZone nm).zones ++ [g.zNext]).map (simNext ρ g h) = (h.newZone nm).zones ++ [h.zNext] := by
    rw [List.map_append, (s.newZone nm).zones]
    congr 1
    simp [simNext]
  rw [e] at k
  exact k

theorem Sim.pushZones (names : List Str) : ∀ {ρ : Nat → Nat} {D : Nat → Prop} {g h : Grid F R}, Sim ρ D g h →
    ∃ ρ' D', Sim ρ' D' (g.pushZones names) (h.pushZones names) ∧ Extends ρ D ρ' D' := by
  induction names with
  | nil => intro ρ D g h s; exact ⟨ρ, D, s, .refl⟩
  | cons nm names ih =>
    intro ρ D g h s
    obtain ⟨ρ', D', s', e⟩ := ih (s.pushZone nm)
    exact ⟨ρ', D', s', s.ext_new.trans e⟩

theorem Sim.addFace (s : Sim ρ D g h) {z f : Nat} (hz : D z) (hf : f ∈ g.faces) {g' : Grid F R} (r : g.zoneAddFace z f = .ok g') :
    ∃ h', h.zoneAddFace (ρ z) f = .ok h' ∧ Sim ρ D g' h' := by
  have last : ∀ {g h : Grid F R}, Sim ρ D g h → f ∈ g.faces →
      Sim ρ D { g with fZone := upd g.fZone f (some z), zFaces := upd g.zFaces z (g.zFaces z ++ [f]) }
        { h with fZone := upd h.fZone f (some (ρ z)), zFaces := upd h.zFaces (ρ z) (h.zFaces (ρ z) ++ [f]) } := by
    intro g h s hf
    have h1 := (s.setLink (f := f) (o := some z) (by rintro _ e; cases e; exact hz)).setFaces hz (l := g.zFaces z ++ [f]) (by
      intro x hx
      rcases List.mem_append.1 hx with hx | hx
      · exact (s.faces z hz).2 x hx
      · rw [List.mem_singleton.1 hx]; exact hf)
    rw [(s.faces z hz).1]
    exact h1
  obtain ⟨l1, l2⟩ := s.link f hf
  unfold zoneAddFace at r ⊢
  cases e : g.fZone f with
  | none =>
    rw [e] at l2 r
    have l2' : h.fZone f = none := l2
    simp only [ne_eq, not_true_eq_false, if_false, res_bind_ok] at r
    cases r
    refine ⟨_, ?_, last s hf⟩
    rw [l2']
    simp only [ne_eq, not_true_eq_false, if_false, res_bind_ok]
  | some w =>
    rw [e] at l2 r
    have l2' : h.fZone f = some (ρ w) := l2
    have hw := l1 w e
    rw [if_pos (by simp), res_bind_eq_ok] at r
    obtain ⟨g1, r1, r⟩ := r
    cases r
    unfold unlinkFromZone at r1
    rw [e] at r1
    simp only [res_bind_eq_ok] at r1
    obtain ⟨l, q1, q2⟩ := r1
    cases q2
    rw [l2', if_pos (by simp)]
    unfold unlinkFromZone
    rw [l2']
    simp only
    rw [(s.faces w hw).1, q1]
    simp only [res_bind_ok]
    refine ⟨_, rfl, ?_⟩
    have hl : ∀ x ∈ l, x ∈ g.faces := by
      intro x hx
      unfold Py.remove at q1
      split at q1
      · cases q1
        exact (s.faces w hw).2 x (List.mem_of_mem_erase hx)
      · cases q1
    exact last ((s.setFaces hw hl).setLink (f := f) (o := none) (by simp)) hf

theorem Sim.addFaces {α : Type} (z : Nat) (pick : α → Res Nat) (l : List α) : ∀ {g h g' : Grid F R}, Sim ρ D g h → D z →
    (∀ a ∈ l, ∀ f, pick a = .ok f → f ∈ g.faces) →
    l.foldlM (fun (g : Grid F R) a => do let f ← pick a; g.zoneAddFace z f) g = .ok g' →
    ∃ h', l.foldlM (fun (g : Grid F R) a => do let f ← pick a; g.zoneAddFace (ρ z) f) h = .ok h' ∧ Sim ρ D g' h' ∧ g'.faces = g.faces := by
  induction l with
  | nil => intro g h g' s _ _ r; cases r; exact ⟨h, rfl, s, rfl⟩
  | cons a l ih =>
    intro g h g' s hz hp r
    rw [List.foldlM_cons, res_bind_eq_ok] at r
    obtain ⟨g1, r1, r2⟩ := r
    rw [res_bind_eq_ok] at r1
    obtain ⟨f, p1, p2⟩ := r1
    have hf := hp a (by simp) f p1
    obtain ⟨h1, q1, s1⟩ := s.addFace hz hf p2
    have hfs : g1.faces = g.faces := by obtain ⟨_, _, rfl⟩ := zoneAddFace_frame p2; rfl
    obtain ⟨h2, q2, s2, hf2⟩ := ih s1 hz (by intro a ha f hf; rw [hfs]; exact hp a (by simp [ha]) f hf) r2
    refine ⟨h2, ?_, s2, hf2.trans hfs⟩
    rw [List.foldlM_cons, p1]
    simp only [res_bind_ok]
    rw [q1]
    exact q2

/-! Breadth-first search. -/

/-- Marks which agree on the faces, and the same path. -/
structure MarkSim (fs : List Nat) (s t : (Nat → Bool) × List Nat) : Prop where
  marks : ∀ f ∈ fs, t.1 f = s.1 f
  path : t.2 = s.2
  sub : ∀ f ∈ s.2, f ∈ fs

theorem getNeighbour_congr (sm : SameMesh g h) : h.getNeighbour = g.getNeighbour := by
  funext f e
  unfold getNeighbour
  rw [sm.eFaces]

theorem getNeighbour_mem {f e k : Nat} (r : g.getNeighbour f e = .ok (some k)) : k ∈ g.eFaces e := by
  unfold getNeighbour at r
  split at r
  · split at r <;> cases r
  · rename_i a b he
    rw [he]
    split at r
    · cases r; simp
    · split at r
      · cases r; simp
      · cases r
  · cases r

variable {p q : Nat → Bool}

theorem bfsEdge_sim (m : Mesh g) (sm : SameMesh g h) (hpq : ∀ f ∈ g.faces, q f = p f) {f e : Nat} (he : e ∈ g.edges)
    {s t s' : (Nat → Bool) × List Nat} (ms : MarkSim g.faces s t) (r : g.bfsEdge p f s e = .ok s') :
    ∃ t', h.bfsEdge q f t e = .ok t' ∧ MarkSim g.faces s' t' := by
  unfold bfsEdge at r ⊢
  rw [sm.eFaces, getNeighbour_congr sm]
  split at r
  · rename_i hl
    cases r
    rw [if_pos hl]
    exact ⟨t, rfl, ms⟩
  · rename_i hl
    rw [if_neg hl]
    rw [res_bind_eq_ok] at r
    obtain ⟨o, r1, r2⟩ := r
    rw [r1, res_bind_ok]
    cases o with
    | none => cases r2
    | some k =>
      have hk : k ∈ g.faces := ((m.edge_face e he k).1 (getNeighbour_mem r1)).1
      simp only at r2 ⊢
      rw [ms.marks k hk, hpq k hk]
      split at r2
      · rename_i hc
        cases r2
        rw [if_pos hc]
        refine ⟨_, rfl, ?_, by rw [ms.path], ?_⟩
        · intro f hf
          simp only [upd_apply]
          rw [ms.marks f hf]
        · intro f hf
          rcases List.mem_append.1 hf with hf | hf
          · exact ms.sub f hf
          · rw [List.mem_singleton.1 hf]; exact hk
      · rename_i hc
        cases r2
        rw [if_neg hc]
        exact ⟨t, rfl, ms⟩

theorem bfsEdges_sim (m : Mesh g) (sm : SameMesh g h) (hpq : ∀ f ∈ g.faces, q f = p f) {f : Nat} (l : List Nat) :
    ∀ {s t s' : (Nat → Bool) × List Nat}, (∀ e ∈ l, e ∈ g.edges) → MarkSim g.faces s t → l.foldlM (g.bfsEdge p f) s = .ok s' →
    ∃ t', l.foldlM (h.bfsEdge q f) t = .ok t' ∧ MarkSim g.faces s' t' := by
  induction l with
  | nil => intro s t s' _ ms r; cases r; exact ⟨t, rfl, ms⟩
  | cons e l ih =>
    intro s t s' hl ms r
    rw [List.foldlM_cons, res_bind_eq_ok] at r
    obtain ⟨s1, r1, r2⟩ := r
    obtain ⟨t1, q1, ms1⟩ := bfsEdge_sim m sm hpq (hl e (by simp)) ms r1
    obtain ⟨t2, q2, ms2⟩ := ih (fun e he => hl e (by simp [he])) ms1 r2
    exact ⟨t2, by rw [List.foldlM_cons, q1]; exact q2, ms2⟩

theorem bfsWalk_sim (m : Mesh g) (sm : SameMesh g h) (hpq : ∀ f ∈ g.faces, q f = p f) (fuel : Nat) :
    ∀ {i : Nat} {s t s' : (Nat → Bool) × List Nat}, MarkSim g.faces s t → g.bfsWalk p fuel i s = .ok s' →
    ∃ t', h.bfsWalk q fuel i t = .ok t' ∧ MarkSim g.faces s' t' := by
  induction fuel with
  | zero => intro i s t s' _ r; cases r
  | succ fuel ih =>
    intro i s t s' ms r
    unfold bfsWalk at r ⊢
    rw [ms.path]
    cases e : s.2[i]? with
    | none => rw [e] at r; cases r; exact ⟨t, rfl, ms⟩
    | some f =>
      rw [e] at r
      simp only [res_bind_eq_ok] at r
      obtain ⟨s1, r1, r2⟩ := r
      have hf := ms.sub f (List.mem_of_getElem? e)
      obtain ⟨t1, q1, ms1⟩ := bfsEdges_sim m sm hpq (g.fEdges f) (fun e he => (m.face_edges f hf).2.2 e he) ms r1
      obtain ⟨t2, q2, ms2⟩ := ih ms1 r2
      refine ⟨t2, ?_, ms2⟩
      simp only
      rw [sm.fEdges, q1]
      exact q2

theorem bfsComponent_sim (m : Mesh g) (sm : SameMesh g h) (hpq : ∀ f ∈ g.faces, q f = p f) {ma mb : Nat → Bool}
    (hm : ∀ f ∈ g.faces, mb f = ma f) {start : Nat} (hs : start ∈ g.faces) {s' : (Nat → Bool) × List Nat}
    (r : g.bfsComponent p ma start = .ok s') : ∃ t', h.bfsComponent q mb start = .ok t' ∧ MarkSim g.faces s' t' := by
  unfold bfsComponent at r ⊢
  rw [hm start hs, hpq start hs, sm.faces, sm.fNext]
  split at r
  · rename_i hc
    cases r
    rw [if_pos hc]
    exact ⟨_, rfl, hm, rfl, by simp⟩
  · rename_i hc
    rw [if_neg hc]
    refine bfsWalk_sim m sm hpq _ (s := (upd ma start true, [start])) ⟨?_, rfl, by simpa using hs⟩ r
    intro f hf
    simp only [upd_apply]
    rw [hm f hf]

theorem noMarkFace_sim (sm : SameMesh g h) (hpq : ∀ f ∈ g.faces, q f = p f) {ma mb : Nat → Bool} (hm : ∀ f ∈ g.faces, mb f = ma f) :
    h.noMarkFace q mb = g.noMarkFace p ma := by
  unfold noMarkFace
  rw [sm.faces]
  generalize g.faces = l at *
  induction l with
  | nil => rfl
  | cons f l ih =>
    rw [List.find?_cons, List.find?_cons, hpq f (by simp), hm f (by simp),
      ih (fun f hf => hpq f (by simp [hf])) (fun f hf => hm f (by simp [hf]))]

theorem bfsLoop_sim (m : Mesh g) (sm : SameMesh g h) (hpq : ∀ f ∈ g.faces, q f = p f) (fuel : Nat) :
    ∀ {ma mb : Nat → Bool} {path : List Nat} {start : Nat} {s' : (Nat → Bool) × List Nat}, (∀ f ∈ g.faces, mb f = ma f) →
    (∀ f ∈ path, f ∈ g.faces) → start ∈ g.faces → g.bfsLoop p fuel ma path start = .ok s' →
    ∃ t', h.bfsLoop q fuel mb path start = .ok t' ∧ MarkSim g.faces s' t' := by
  induction fuel with
  | zero => intro ma mb path start s' _ _ _ r; cases r
  | succ fuel ih =>
    intro ma mb path start s' hm hp hs r
    unfold bfsLoop at r ⊢
    rw [res_bind_eq_ok] at r
    obtain ⟨s1, r1, r2⟩ := r
    obtain ⟨t1, q1, ms⟩ := bfsComponent_sim m sm hpq hm hs r1
    rw [q1, res_bind_ok]
    obtain ⟨m1, c1⟩ := s1
    obtain ⟨m2, c2⟩ := t1
    obtain ⟨ms1, ms2, ms3⟩ := ms
    simp only at ms1 ms2 ms3 r2 ⊢
    subst ms2
    have sub : ∀ f ∈ path ++ c2, f ∈ g.faces := by
      intro f hf
      rcases List.mem_append.1 hf with hf | hf
      · exact hp f hf
      · exact ms3 f hf
    rw [noMarkFace_sim sm hpq ms1]
    cases e : g.noMarkFace p m1 with
    | none => rw [e] at r2; cases r2; exact ⟨_, rfl, ms1, rfl, sub⟩
    | some k =>
      rw [e] at r2
      exact ih ms1 sub (List.mem_of_find?_eq_some e) r2

theorem Sim.bfsPath (s : Sim ρ D g h) (hpq : ∀ f ∈ g.faces, q f = p f) {start : Nat} (hs : start ∈ g.faces) {g' : Grid F R}
    {path : List Nat} (r : g.bfsPath start p = .ok (g', path)) :
    ∃ h', h.bfsPath start q = .ok (h', path) ∧ Sim ρ D g' h' ∧ g'.faces = g.faces ∧ ∀ f ∈ path, f ∈ g.faces := by
  unfold Grid.bfsPath at r ⊢
  simp only [res_bind_eq_ok] at r
  obtain ⟨⟨m1, c1⟩, r1, r2⟩ := r
  have hm : ∀ f ∈ g.faces, (h.faces.foldl (fun m f => upd m f false) h.fMark) f = (g.faces.foldl (fun m f => upd m f false) g.fMark) f := by
    intro f hf
    rw [s.mesh.faces, Grid.foldl_upd_const g.faces g.fMark (fun _ => false) f, Grid.foldl_upd_const g.faces h.fMark (fun _ => false) f,
      if_pos hf, if_pos hf]
  obtain ⟨⟨m2, c2⟩, q1, ms⟩ := bfsLoop_sim s.ok s.mesh hpq _ hm (by simp) hs r1
  have hc : c2 = c1 := ms.path
  subst hc
  rw [show g.faces.length + 2 = h.faces.length + 2 by rw [s.mesh.faces]] at q1
  simp only [res_pure, Except.ok.injEq, Prod.mk.injEq] at r2
  obtain ⟨rfl, rfl⟩ := r2
  refine ⟨{ h with fMark := m2 }, ?_, s.marks m1 m2, rfl, ms.sub⟩
  show (h.bfsLoop q (h.faces.length + 2) (h.faces.foldl (fun m f => upd m f false) h.fMark) [] start >>= _) = _
  rw [q1]
  rfl

/-! `decompose_farhat`. -/

theorem Sim.farhatStep (s : Sim ρ D g h) {start z k : Nat} (hs : start ∈ g.faces) (hz : D z) {g' : Grid F R} {start' : Nat}
    (r : Grid.farhatStep (g, start) (z, k) = .ok (g', start')) :
    ∃ h', Grid.farhatStep (h, start) (ρ z, k) = .ok (h', start') ∧ Sim ρ D g' h' ∧ start' ∈ g'.faces := by
  unfold Grid.farhatStep at r ⊢
  simp only [res_bind_eq_ok] at r
  obtain ⟨⟨g1, path⟩, r1, g2, r2, r3⟩ := r
  obtain ⟨h1, q1, s1, hf1, hp⟩ := s.bfsPath (q := fun f => decide (h.fZone f = none)) (by
    intro f hf
    rw [(s.link f hf).2]
    cases g.fZone f <;> rfl) hs r1
  simp only at r2 r3
  obtain ⟨h2, q2, s2, hf2⟩ := Sim.addFaces z (fun fi : Nat => Py.get path (fi : Int)) (List.range k) s1 hz (by
    intro a _ f hf; rw [hf1]; exact hp f (get_mem hf)) r2
  cases r3
  refine ⟨h2, ?_, s2, ?_⟩
  · simp only [q1, res_bind_ok]
    rw [q2]
    rfl
  · rw [hf2, hf1]
    cases e : path[k]? with
    | none => exact hs
    | some f => exact hp f (List.mem_of_getElem? e)

theorem Sim.farhatSteps (l : List (Nat × Nat)) : ∀ {g h g' : Grid F R} {start start' : Nat}, Sim ρ D g h → start ∈ g.faces →
    (∀ p ∈ l, D p.1) → l.foldlM Grid.farhatStep (g, start) = .ok (g', start') →
    ∃ h', (l.map (fun p => (ρ p.1, p.2))).foldlM Grid.farhatStep (h, start) = .ok (h', start') ∧ Sim ρ D g' h' := by
  induction l with
  | nil => intro g h g' start start' s _ _ r; cases r; exact ⟨h, rfl, s⟩
  | cons p l ih =>
    intro g h g' start start' s hs hl r
    rw [List.foldlM_cons, res_bind_eq_ok] at r
    obtain ⟨⟨g1, st1⟩, r1, r2⟩ := r
    obtain ⟨h1, q1, s1, hs1⟩ := s.farhatStep hs (hl p (by simp)) r1
    obtain ⟨h2, q2, s2⟩ := ih s1 hs1 (fun p hp => hl p (by simp [hp])) r2
    refine ⟨h2, ?_, s2⟩
    rw [List.map_cons, List.foldlM_cons, q1]
    exact q2

/-! The beginning and the end of a decomposition. -/

theorem zoneTable_eq {g0 h0 g h : Grid F R} (sm : SameMesh g h) (dg : DecompOk g0 g) (dh : DecompOk h0 h)
    (e : h.zones.map (fun z => (h.zName z, h.zFaces z)) = g.zones.map (fun z => (g.zName z, g.zFaces z))) :
    zoneTable h = zoneTable g := by
  unfold zoneTable
  apply List.ext_getElem?
  intro i
  have ei := congrArg (fun l => l[i]?) e
  simp only [List.getElem?_map] at ei ⊢
  cases a : h.zones[i]? with
  | none =>
    rw [a] at ei
    cases b : g.zones[i]? with
    | none => rfl
    | some z => rw [b] at ei; cases ei
  | some z =>
    rw [a] at ei
    cases b : g.zones[i]? with
    | none => rw [b] at ei; cases ei
    | some w =>
      rw [b] at ei
      simp only [Option.map_some, Option.some.injEq, Prod.mk.injEq] at ei ⊢
      have hz := List.mem_of_getElem? a
      have hw := List.mem_of_getElem? b
      refine ⟨ei.1, by rw [dh.ids i z a, dg.ids i w b], ?_, ?_, ei.2⟩
      · rw [dh.lists.nodes z hz, dg.lists.nodes w hw, ei.2, sm.nodes, sm.fNodes]
      · rw [dh.lists.edges z hz, dg.lists.edges w hw, ei.2, sm.edges, sm.fEdges]

theorem post_frame {g g' : Grid F R} (r : g.postDecompose = .ok g') : LinkFrame g g' := by
  unfold postDecompose at r
  rw [res_bind_eq_ok] at r
  obtain ⟨g1, r1, r2⟩ := r
  rw [res_bind_eq_ok] at r2
  obtain ⟨_, _, r3⟩ := r2
  cases r3
  exact (linkZones_frame r1).trans (by constructor <;> rfl)

theorem Sim.zonesOk (s : Sim ρ D g h) (hz : ZonesOk g) : ZonesOk h := by
  refine ⟨?_, ?_, ?_⟩
  · rw [s.zones]
    exact List.Nodup.map_on (fun a ha b hb e => s.inj a b (s.dom a ha) (s.dom b hb) e) hz.zones_nodup
  · rw [s.zones, s.mesh.faces]
    have : (g.zones.map ρ).flatMap h.zFaces = g.zones.flatMap g.zFaces := by
      rw [List.flatMap_map]
      exact List.flatMap_congr (fun z hz => (s.faces z (s.dom z hz)).1)
    rw [this]
    exact hz.partition
  · intro z hzz f hf
    rw [s.zones] at hzz
    obtain ⟨w, hw, rfl⟩ := List.mem_map.1 hzz
    rw [(s.faces w (s.dom w hw)).1] at hf
    rw [(s.link f ((s.faces w (s.dom w hw)).2 f hf)).2, hz.points w hw f hf]
    rfl

theorem Sim.post (s : Sim ρ D g h) {g0 g' : Grid F R} (r : g.postDecompose = .ok g') (dg : DecompOk g0 g') :
    ∃ h', h.postDecompose = .ok h' ∧ SameMesh g' h' ∧ zoneTable h' = zoneTable g' := by
  have fr := post_frame r
  have hz : ZonesOk g := ⟨by have := dg.zones.zones_nodup; rwa [fr.zones] at this,
    by have := dg.zones.partition; rwa [fr.zones, fr.zFaces, fr.faces] at this,
    by have := dg.zones.points; rwa [fr.zones, fr.zFaces, fr.fZone] at this⟩
  obtain ⟨zn, ze, zi, f1, f2⟩ := finish h (s.ok.congr s.mesh) (s.zonesOk hz) (by
    intro z hzz
    rw [s.zones] at hzz
    obtain ⟨w, hw, rfl⟩ := List.mem_map.1 hzz
    exact (s.alloc w (s.dom w hw)).2)
  obtain ⟨zn', ze', zi', f1', f2'⟩ := finish g s.ok hz (fun z hzz => (s.alloc z (s.dom z hzz)).1)
  rw [r] at f1'
  cases f1'
  have sm : SameMesh { g with zNodes := zn', zEdges := ze', zId := zi' } { h with zNodes := zn, zEdges := ze, zId := zi } :=
    s.mesh.both (by constructor <;> rfl) (by constructor <;> rfl)
  refine ⟨_, f1, sm, zoneTable_eq sm f2' f2 ?_⟩
  show h.zones.map (fun z => (h.zName z, h.zFaces z)) = g.zones.map (fun z => (g.zName z, g.zFaces z))
  rw [s.zones, List.map_map]
  refine List.map_congr_left (fun z hz => ?_)
  simp only [Function.comp_apply]
  rw [(s.data z (s.dom z hz)).1, (s.faces z (s.dom z hz)).1]

end Verif
