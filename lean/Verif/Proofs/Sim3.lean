import Verif.Proofs.Sim2
import Verif.Model.Text

/-! The remaining decompositions depend on the surface only; what is written depends on the surface and the table of zones. -/

namespace Verif
open Grid
variable {F R : Type} {g h : Grid F R}

theorem table_range {g : Grid F R} {a n : Nat} (hz : g.zones = List.range' a n) (name : Nat → Str) (faces : Nat → List Nat)
    (h1 : ∀ i < n, g.zName (a + i) = name i) (h2 : ∀ i < n, g.zFaces (a + i) = faces i) :
    g.zones.map (fun z => (g.zName z, g.zFaces z)) = (List.range n).map (fun i => (name i, faces i)) := by
  rw [hz, List.range'_eq_map_range, List.map_map]
  apply List.map_congr_left
  intro i hi
  have hi := List.mem_range.1 hi
  simp only [Function.comp_apply]
  rw [h1 i hi, h2 i hi]

theorem mono_forgets (wg : Loose g) (wh : Loose h) (sm : SameMesh g h) (nm : Option Str) {g' : Grid F R} (r : g.decomposeMono nm = .ok g') :
    ∃ h', h.decomposeMono nm = .ok h' ∧ SameMesh g' h' ∧ zoneTable h' = zoneTable g' := by
  obtain ⟨g2, a1, a2, _, a3, a4, a5⟩ := mono_spec g wg nm
  obtain ⟨h', b1, b2, _, b3, b4, b5⟩ := mono_spec h wh nm
  rw [r] at a1; cases a1
  have sm' := sm.both a2.same b2.same
  refine ⟨h', b1, sm', zoneTable_eq sm' a2 b2 ?_⟩
  rw [a3, b3]
  simp [a4, a5, b4, b5, sm.faces]

theorem random_positive (wg : Loose g) (rand : Nat → Nat) (count : Nat) (nm : Option Str) {g' : Grid F R}
    (r : g.decomposeRandom rand count nm = .ok g') : 0 < count ∨ g.faces = [] := by
  by_contra hc
  have h0 : count = 0 := by omega
  obtain ⟨fz, c1, _⟩ := cleared_spec g wg nm
  unfold decomposeRandom at r
  rw [res_bind_eq_ok] at r
  obtain ⟨g1, h1, r⟩ := r
  have c1' : (cleared g nm g.fZone).unlinkFacesFromZones = .ok g1 := h1
  rw [c1] at c1'
  cases c1'
  simp only [h0, if_true, res_bind_eq_ok] at r
  obtain ⟨g2, h2, _⟩ := r
  cases hf : g.faces with
  | nil => exact hc (.inr hf)
  | cons f l =>
    have : ((cleared g nm fz).pushZones (numbered "random ".toList 0)).faces = f :: l := hf
    rw [this] at h2
    simp [List.zipIdx_cons] at h2

theorem random_forgets (wg : Loose g) (wh : Loose h) (sm : SameMesh g h) (rand : Nat → Nat) (count : Nat) (nm : Option Str)
    (hr : ∀ i, 0 < count → rand i < count) {g' : Grid F R} (r : g.decomposeRandom rand count nm = .ok g') :
    ∃ h', h.decomposeRandom rand count nm = .ok h' ∧ SameMesh g' h' ∧ zoneTable h' = zoneTable g' := by
  have hc := random_positive wg rand count nm r
  have hrg : ∀ i, i < g.faces.length → rand i < count := by
    intro i hi
    rcases hc with hc | hc
    · exact hr i hc
    · rw [hc] at hi; simp at hi
  obtain ⟨g2, a1, a2, _, a3, a4, _, a5⟩ := random_spec g wg rand count nm hrg
  obtain ⟨h', b1, b2, _, b3, b4, _, b5⟩ := random_spec h wh rand count nm (by rw [sm.faces]; exact hrg)
  rw [r] at a1; cases a1
  have sm' := sm.both a2.same b2.same
  refine ⟨h', b1, sm', zoneTable_eq sm' a2 b2 ?_⟩
  rw [table_range a3 _ _ a4 a5, table_range b3 _ _ b4 b5, sm.faces]

theorem linear_neg (hw : Loose g) (count : Int) (hc : ¬ 0 < count) (nm : Option Str) {g' : Grid F R}
    (r : g.decomposeLinear count nm = .ok g') : count < 0 ∧ g.faces = [] := by
  have hn : count.toNat = 0 := by omega
  obtain ⟨fz, c1, c2⟩ := cleared_spec g hw nm
  unfold decomposeLinear at r
  simp only at r
  split at r
  · cases r
  · rename_i h0
    refine ⟨by omega, ?_⟩
    rw [res_bind_eq_ok] at r
    obtain ⟨g1, h1, r⟩ := r
    have c1' : (cleared g nm g.fZone).unlinkFacesFromZones = .ok g1 := h1
    rw [c1] at c1'
    cases c1'
    rw [hn] at r
    have hz : ((cleared g nm fz).pushZones (numbered "linear ".toList 0)) = cleared g nm fz := rfl
    rw [hz, show (cleared g nm fz).zones = [] from rfl] at r
    simp only [List.zipIdx_nil, List.foldlM_nil, res_pure, res_bind_ok] at r
    split at r
    · cases r
    · rename_i hl
      exact List.length_eq_zero_iff.1 (by
        have : ¬ (0 ≠ g.faces.length) := hl
        omega)

theorem linear_none (hw : Loose g) (count : Int) (hc : count < 0) (hf : g.faces = []) (nm : Option Str) :
    ∃ g', g.decomposeLinear count nm = .ok g' ∧ DecompOk g g' ∧ g'.zones = [] ∧ g'.name = nm.getD g.name := by
  have hn : count.toNat = 0 := by omega
  obtain ⟨fz, c1, c2⟩ := cleared_spec g hw nm
  obtain ⟨g2, r1, g3, r2, r3, r4, r5, _⟩ := renew_spec g hw nm fz c2 [] [] (by simp) (by simp [hf])
  simp only [List.foldlM_nil, res_pure] at r1
  cases r1
  have r2' : (cleared g nm fz).postDecompose = .ok g3 := r2
  refine ⟨g3, ?_, r3, by simpa using r5, r4⟩
  unfold decomposeLinear
  simp only
  rw [if_neg (by omega)]
  show (Grid.unlinkFacesFromZones (cleared g nm g.fZone) >>= _) = _
  rw [c1, res_bind_ok, hn]
  have hz : ((cleared g nm fz).pushZones (numbered "linear ".toList 0)) = cleared g nm fz := rfl
  rw [hz, show (cleared g nm fz).zones = [] from rfl]
  simp only [List.zipIdx_nil, List.foldlM_nil, res_pure, res_bind_ok]
  rw [if_neg (by rw [show (g.rename nm).faces = g.faces from by cases nm <;> rfl, hf]; simp)]
  exact r2'

theorem linear_forgets (wg : Loose g) (wh : Loose h) (sm : SameMesh g h) (count : Int) (nm : Option Str) {g' : Grid F R}
    (r : g.decomposeLinear count nm = .ok g') :
    ∃ h', h.decomposeLinear count nm = .ok h' ∧ SameMesh g' h' ∧ zoneTable h' = zoneTable g' := by
  by_cases hc : 0 < count
  · obtain ⟨n, rfl⟩ : ∃ n : Nat, count = n := ⟨count.toNat, by omega⟩
    obtain ⟨g2, a1, a2, _, a3, a4, a5, _⟩ := linear_spec g wg n (by omega) nm
    obtain ⟨h', b1, b2, _, b3, b4, b5, _⟩ := linear_spec h wh n (by omega) nm
    rw [r] at a1; cases a1
    have sm' := sm.both a2.same b2.same
    refine ⟨h', b1, sm', zoneTable_eq sm' a2 b2 ?_⟩
    rw [table_range a3 _ _ a4 a5, table_range b3 _ _ b4 b5, sm.faces]
  · obtain ⟨c1, c2⟩ := linear_neg wg count hc nm r
    obtain ⟨g2, a1, a2, a3, _⟩ := linear_none wg count c1 c2 nm
    obtain ⟨h', b1, b2, b3, _⟩ := linear_none wh count c1 (by rw [sm.faces]; exact c2) nm
    rw [r] at a1; cases a1
    have sm' := sm.both a2.same b2.same
    refine ⟨h', b1, sm', zoneTable_eq sm' a2 b2 ?_⟩
    rw [a3, b3]; rfl

theorem call_forgets {S : Type} [LinearOrder S] (wg : Wf g) (wh : Wf h) (sm : SameMesh g h) (c : DecompCall S) (hp : c.Possible)
    (kt : keptTable h c.fixed = keptTable g c.fixed) {g' : Grid F R} (r : c.run g = .ok g') :
    ∃ h', c.run h = .ok h' ∧ SameMesh g' h' ∧ zoneTable h' = zoneTable g' := by
  cases c with
  | mono nm => exact mono_forgets wg wh sm nm r
  | random rand count nm => exact random_forgets wg wh sm rand count nm hp r
  | linear count nm => exact linear_forgets wg wh sm count nm r
  | farhat count nm fixed => exact farhat_forgets wg wh sm kt count nm r
  | hierarchical fns levels nm fixed => exact hier_forgets wg wh sm kt fns levels nm r

/-- The grid has the new name, or its old one when none is given. -/
theorem call_name {S : Type} [LinearOrder S] (wg : Wf g) (c : DecompCall S) (hp : c.Possible) {g' : Grid F R} (r : c.run g = .ok g') :
    g'.name = c.newName.getD g.name := by
  cases c with
  | mono nm =>
    have r : g.decomposeMono nm = .ok g' := r
    obtain ⟨g2, a1, _, a2, _⟩ := mono_spec g wg nm
    rw [r] at a1; cases a1
    exact a2
  | random rand count nm =>
    have r : g.decomposeRandom rand count nm = .ok g' := r
    have hc := random_positive wg rand count nm r
    obtain ⟨g2, a1, _, a2, _⟩ := random_spec g wg rand count nm (by
      intro i hi
      rcases hc with hc | hc
      · exact hp i hc
      · rw [hc] at hi; simp at hi)
    rw [r] at a1; cases a1
    exact a2
  | linear count nm =>
    have r : g.decomposeLinear count nm = .ok g' := r
    by_cases hc : 0 < count
    · obtain ⟨n, rfl⟩ : ∃ n : Nat, count = n := ⟨count.toNat, by omega⟩
      obtain ⟨g2, a1, _, a2, _⟩ := linear_spec g wg n (by omega) nm
      rw [r] at a1; cases a1
      exact a2
    · obtain ⟨c1, c2⟩ := linear_neg wg count hc nm r
      obtain ⟨g2, a1, _, _, a2⟩ := linear_none wg count c1 c2 nm
      rw [r] at a1; cases a1
      exact a2
  | farhat count nm names =>
    have h : g.decomposeFarhat count nm names = .ok g' := r
    obtain ⟨fz, u1, u2, u3⟩ := fixedCleared_spec g wg nm names
    by_cases hc : g.faces ≠ [] ∧ 0 < count
    · obtain ⟨g2, a1, _, a2, _⟩ := farhat_spec g wg count hc.2 hc.1 nm names
      rw [h] at a1; cases a1
      exact a2
    · unfold decomposeFarhat at h
      simp only [res_bind_eq_ok] at h
      obtain ⟨g1, h1, st, h2, ⟨g2, st'⟩, h3, h4⟩ := h
      have u1' : (fixedCleared g nm names g.fZone).unlinkFacesFromZones = .ok g1 := by
        rw [← h1]; congr 1; unfold fixedCleared rename markFixed; simp only; rw [← keep_eq]
      rw [u1] at u1'
      cases u1'
      obtain ⟨zi, zm, zn, ze, zf, zx, p1, _⟩ :=
        (fixedCleared g nm names fz).pushZones_spec (Grid.numbered "farhat ".toList count)
      rw [p1] at h2
      have h2' : Py.get g.faces 0 = .ok st := h2
      have hne : g.faces ≠ [] := by intro hne; rw [hne] at h2'; cases h2'
      obtain rfl : count = 0 := by
        by_contra hn
        exact hc ⟨hne, by omega⟩
      have hz : ((fixedCleared g nm names fz).pushZones (numbered "farhat ".toList 0)) = fixedCleared g nm names fz := rfl
      rw [hz] at h3
      simp only [List.range_zero, List.map_nil, List.zip_nil_right, List.foldlM_nil, res_pure, Except.ok.injEq,
        Prod.mk.injEq] at h3
      rw [← h3.1] at h4
      have hl : ∀ f ∈ g.faces, fz f ≠ none := post_linked h4
      have hzo : ZonesOk (fixedCleared g nm names fz) := by
        refine ⟨wg.zones.zones_nodup.filter _, ?_, ?_⟩
        · have : g.faces.filter (fun f => fz f = none) = [] := by
            rw [List.filter_eq_nil_iff]; intro f hf; simpa using hl f hf
          rw [this, List.append_nil] at u3
          exact u3
        · intro z hz f hf
          have := (wg.zones.mem_iff (mem_kept.1 hz).1 f).1 hf
          exact (u2 f this.1 z).2 ⟨this.2, hz⟩
      obtain ⟨zn, ze, zi, f1, f2⟩ := finish (fixedCleared g nm names fz) (wg.mesh.congr (by constructor <;> rfl)) hzo
        (fun z hz => wg.alloc z (mem_kept.1 hz).1)
      rw [h4] at f1
      cases f1
      rfl
  | hierarchical fns levels nm fixed => exact (hier_spec g g' wg fns levels nm fixed r).2.1

/-! ### What is written -/

theorem foldlM_table {α β σ : Type} (t : α → β) (k : σ → β → Res σ) (f : σ → α → Res σ) (hf : ∀ s a, f s a = k s (t a)) (l : List α)
    (s : σ) : l.foldlM f s = (l.map t).foldlM k s := by
  rw [List.foldlM_map]
  congr
  funext s a
  exact hf s a

theorem SameMesh.getData (sm : SameMesh g h) (dflt : F) (f : Nat) (k : Str) : h.getData dflt f k = g.getData dflt f k := by
  unfold Grid.getData
  rw [sm.fData]

theorem storeText_forgets (sm : SameMesh g h) (zt : zoneTable h = zoneTable g) (hn : h.name = g.name) (c : Codec F) (dflt : F) :
    h.storeText c dflt = g.storeText c dflt := by
  have key : ∀ (vars : List Str) (s : List Int × List Str),
      h.zones.foldlM (h.storeZone c dflt vars) s = g.zones.foldlM (g.storeZone c dflt vars) s := by
    intro vars s
    let k : (List Int × List Str) → (Str × Int × List Nat × List Nat × List Nat) → Res (List Int × List Str) := fun s t => do
      let ids ← number g.nGlo s.1 t.2.2.1
      let conns ← t.2.2.2.2.mapM (g.faceConn ids)
      pure (ids, s.2 ++ zoneLines c vars.length t.1 (t.2.2.1.map g.nP)
        ((vars.drop 3).map (fun k => t.2.2.2.2.map (fun f => g.getData dflt f k))) conns)
    rw [foldlM_table (fun z => (g.zName z, g.zId z, g.zNodes z, g.zEdges z, g.zFaces z)) k (g.storeZone c dflt vars) (fun _ _ => rfl),
      foldlM_table (fun z => (h.zName z, h.zId z, h.zNodes z, h.zEdges z, h.zFaces z)) k (h.storeZone c dflt vars) ?_]
    · exact congrArg (fun l => List.foldlM k s l) zt
    · intro s z
      have e1 : h.faceConn = g.faceConn := by
        funext ids f
        unfold faceConn
        rw [sm.nGlo, sm.fNodes]
      have e2 : h.dataSlice dflt z = fun k => (h.zFaces z).map (fun f => g.getData dflt f k) := by
        funext k
        unfold dataSlice
        simp only [sm.getData]
      unfold storeZone
      rw [sm.nGlo, sm.nP, e1, e2]
  unfold storeText storeLines
  simp only [sm.faces, sm.fData, sm.nodes, hn, key]

theorem zoneTable_length (zt : zoneTable h = zoneTable g) : h.zones.length = g.zones.length := by
  have := congrArg List.length zt
  simpa [zoneTable] using this

theorem zoneTable_at (zt : zoneTable h = zoneTable g) {i z z' : Nat} (a : g.zones[i]? = some z) (b : h.zones[i]? = some z') :
    h.zName z' = g.zName z ∧ h.zNodes z' = g.zNodes z ∧ h.zEdges z' = g.zEdges z ∧ h.zFaces z' = g.zFaces z := by
  have := congrArg (fun l => l[i]?) zt
  simp only [zoneTable, List.getElem?_map, a, b, Option.map_some, Option.some.injEq, Prod.mk.injEq] at this
  exact ⟨this.1, this.2.2.1, this.2.2.2.1, this.2.2.2.2⟩

theorem zone_at (zg : ZonesOk g) (zh : ZonesOk h) (zt : zoneTable h = zoneTable g) {f : Nat} (hf : f ∈ g.faces) :
    ∃ i z z' : Nat, g.zones[i]? = some z ∧ h.zones[i]? = some z' ∧ g.fZone f = some z ∧ h.fZone f = some z' := by
  obtain ⟨z, hz, hfz⟩ := List.mem_flatMap.1 (zg.partition.mem_iff.2 hf)
  obtain ⟨i, hi⟩ := List.getElem?_of_mem hz
  have hl : i < h.zones.length := by
    rw [zoneTable_length zt]
    exact (List.getElem?_eq_some_iff.1 hi).1
  have hi' := List.getElem?_eq_getElem hl
  refine ⟨i, z, _, hi, hi', zg.points z hz f hfz, zh.points _ (List.getElem_mem hl) f ?_⟩
  rw [(zoneTable_at zt hi hi').2.2.2]
  exact hfz

theorem idxOf_at {l : List Nat} (hn : l.Nodup) {i z : Nat} (h : l[i]? = some z) : l.idxOf z = i := by
  obtain ⟨hi, rfl⟩ := List.getElem?_eq_some_iff.1 h
  exact hn.idxOf_getElem i hi

theorem zoneIndex_forgets (zg : ZonesOk g) (zh : ZonesOk h) (zt : zoneTable h = zoneTable g) {f : Nat} (hf : f ∈ g.faces) :
    Zam.zoneIndex h h.zones f = Zam.zoneIndex g g.zones f := by
  obtain ⟨i, z, z', a, b, c, d⟩ := zone_at zg zh zt hf
  unfold Zam.zoneIndex Py.index
  rw [c, d]
  simp only [List.mem_of_getElem? a, List.mem_of_getElem? b, if_true]
  rw [idxOf_at zg.zones_nodup a, idxOf_at zh.zones_nodup b]

theorem foldlM_pair {α β σ : Type} {f : σ → α → Res σ} {k : σ → β → Res σ} {l : List α} {l' : List β}
    (e : List.Forall₂ (fun a b => ∀ s, f s a = k s b) l l') : ∀ s, l.foldlM f s = l'.foldlM k s := by
  induction e with
  | nil => intro s; rfl
  | cons h1 _ ih =>
    intro s
    rw [List.foldlM_cons, List.foldlM_cons, h1]
    congr
    funext s
    exact ih s

theorem foldlM_equal {α σ : Type} {f k : σ → α → Res σ} {l : List α} (e : ∀ a ∈ l, ∀ s, f s a = k s a) (s : σ) :
    l.foldlM f s = l.foldlM k s := by
  induction l generalizing s with
  | nil => rfl
  | cons a l ih =>
    rw [List.foldlM_cons, List.foldlM_cons, e a (by simp)]
    congr
    funext s
    exact ih (fun a ha => e a (by simp [ha])) s

theorem zam_forgets (m : Mesh g) (sm : SameMesh g h) (zg : ZonesOk g) (zh : ZonesOk h) (zt : zoneTable h = zoneTable g) :
    Zam.make h h.edges h.zones = Zam.make g g.edges g.zones := by
  unfold Zam.make
  rw [zoneTable_length zt, sm.edges]
  apply foldlM_equal
  intro e he a
  have hm : ∀ f ∈ g.eFaces e, f ∈ g.faces := fun f hf => ((m.edge_face e he f).1 hf).1
  unfold Zam.addEdge
  rw [sm.eFaces]
  split
  · rename_i f0 hf
    rw [hf] at hm
    rw [zoneIndex_forgets zg zh zt (hm f0 (by simp))]
  · rename_i f0 f1 hf
    rw [hf] at hm
    rw [zoneIndex_forgets zg zh zt (hm f0 (by simp)), zoneIndex_forgets zg zh zt (hm f1 (by simp))]
  · rfl

theorem connect_forgets (m : Mesh g) (sm : SameMesh g h) (zg : ZonesOk g) (zh : ZonesOk h) (zt : zoneTable h = zoneTable g)
    {e : Nat} (he : e ∈ g.edges) {i j z0 z0' z1 z1' : Nat} (a0 : g.zones[i]? = some z0) (b0 : h.zones[i]? = some z0')
    (a1 : g.zones[j]? = some z1) (b1 : h.zones[j]? = some z1') : h.isConnectZones e z0' z1' = g.isConnectZones e z0 z1 := by
  have hm : ∀ f ∈ g.eFaces e, f ∈ g.faces := fun f hf => ((m.edge_face e he f).1 hf).1
  have key : ∀ f ∈ g.faces, ∀ {i z z' : Nat}, g.zones[i]? = some z → h.zones[i]? = some z' →
      (some z' = h.fZone f ↔ some z = g.fZone f) := by
    intro f hf i z z' p q
    obtain ⟨k, y, y', c1, c2, c3, c4⟩ := zone_at zg zh zt hf
    rw [c3, c4]
    simp only [Option.some.injEq]
    constructor
    · rintro rfl
      rw [← idxOf_at zh.zones_nodup q, idxOf_at zh.zones_nodup c2, c1] at p
      exact (Option.some.inj p).symm
    · rintro rfl
      rw [← idxOf_at zg.zones_nodup p, idxOf_at zg.zones_nodup c1, c2] at q
      exact (Option.some.inj q).symm
  unfold isConnectZones
  rw [sm.eFaces]
  split
  · rename_i a b hf
    rw [hf] at hm
    have ha := hm a (by simp)
    have hb := hm b (by simp)
    simp only [key a ha a0 b0, key a ha a1 b1, key b hb a0 b0, key b hb a1 b1]
  · rfl

theorem storeMpi_forgets (m : Mesh g) (sm : SameMesh g h) (zg : ZonesOk g) (zh : ZonesOk h) (lg : ZoneLists g)
    (zt : zoneTable h = zoneTable g) (dflt : F) : h.storeMpi dflt = g.storeMpi dflt := by
  unfold storeMpi
  rw [zam_forgets m sm zg zh zt, sm.nodes, sm.edges]
  congr
  funext zam
  congr 1
  apply foldlM_pair
  rw [List.forall₂_iff_get]
  refine ⟨by simp [zoneTable_length zt], ?_⟩
  intro i p q s
  simp only [List.length_zipIdx] at p q
  simp only [List.get_eq_getElem, List.getElem_zipIdx, Nat.zero_add]
  have a := List.getElem?_eq_getElem q
  have b := List.getElem?_eq_getElem p
  generalize g.zones[i] = z at a
  generalize h.zones[i] = z' at b
  obtain ⟨e1, e2, e3, e4⟩ := zoneTable_at zt a b
  have eb : ∀ eids, h.borderList eids z' = g.borderList eids z := by
    intro eids
    funext w
    unfold borderList
    rw [get_ofNat, get_ofNat]
    by_cases hw : w.2 < g.zones.length
    · have a' := List.getElem?_eq_getElem hw
      have b' := List.getElem?_eq_getElem (l := h.zones) (i := w.2) (by rw [zoneTable_length zt]; exact hw)
      rw [a', b']
      simp only [res_bind_ok]
      rw [sm.eGlo, e3]
      have : (g.zEdges z).filter (fun e => h.isConnectZones e z' (h.zones[w.2]'(by rw [zoneTable_length zt]; exact hw))) =
          (g.zEdges z).filter (fun e => g.isConnectZones e z g.zones[w.2]) := by
        apply List.filter_congr
        intro e he
        rw [lg.edges z (List.mem_of_getElem? a)] at he
        exact connect_forgets m sm zg zh zt (List.mem_filter.1 he).1 a b a' b'
      rw [this]
    · rw [List.getElem?_eq_none (by rw [zoneTable_length zt]; omega), List.getElem?_eq_none (by omega)]
      rfl
  have e5 : h.dataSlice dflt z' = g.dataSlice dflt z := by
    funext k
    unfold dataSlice
    simp only [sm.getData, e4]
  unfold mpiZone coordSlice
  simp only [e1, e2, e3, e4, e5, eb, sm.nGlo, sm.eGlo, sm.fGlo, sm.fNodes, sm.fEdges, sm.eNodes, sm.nP]

end Verif
