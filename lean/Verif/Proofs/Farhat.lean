import Verif.Proofs.Bfs

/-! Farhat decomposition. -/

namespace Verif
variable {F R : Type}

/-- Invariant of the loop of `decompose_farhat`: `k` zones are filled; `g` is the grid at the start of the
loop, `base` the first new zone. -/
structure FarhatInv (g : Grid F R) (keep : List Nat) (base : Nat) (size : Nat → Nat) (count k : Nat)
    (zf : Nat → List Nat) (fz : Nat → Option Nat) : Prop where
  keepz : ∀ z ∈ keep, zf z = g.zFaces z
  empty : ∀ i, k ≤ i → i < count → zf (base + i) = []
  points : ∀ z ∈ keep ++ List.range' base k, ∀ f ∈ zf z, fz f = some z
  zone : ∀ f ∈ g.faces, ∀ z, fz f = some z → f ∈ zf z ∧ z ∈ keep ++ List.range' base k
  perm : ((keep ++ List.range' base k).flatMap zf ++ g.faces.filter (fun f => fz f = none)).Perm g.faces
  path : ∀ i, i < k → ∃ path, zf (base + i) = path.take (size i) ∧ (zf (base + i)).length = size i ∧
    PathOf g (fun f => fz f = none ∨ ∃ j, i ≤ j ∧ fz f = some (base + j)) path
  rest : (g.faces.filter (fun f => fz f = none)).length = ((List.range' k (count - k)).map size).sum

theorem take_fold (g : Grid F R) (path : List Nat) (z n : Nat) (h : n ≤ path.length) :
    (List.range n).foldlM (fun (g : Grid F R) (fi : Nat) => do
        let f ← Py.get path (fi : Int)
        g.zoneAddFace z f) g = ((path.take n).map (fun f => (z, f))).foldlM Grid.addPair g := by
  suffices H : ∀ n k (g : Grid F R), k + n ≤ path.length →
      (List.range' k n).foldlM (fun (g : Grid F R) (fi : Nat) => do
        let f ← Py.get path (fi : Int)
        g.zoneAddFace z f) g = (((path.drop k).take n).map (fun f => (z, f))).foldlM Grid.addPair g by
    have := H n 0 g (by omega)
    rw [List.range_eq_range']
    simpa using this
  intro n
  induction n with
  | zero => intros; simp
  | succ n ih =>
    intro k g hk
    have hlt : k < path.length := by omega
    rw [List.range'_succ, List.foldlM_cons, List.drop_eq_getElem_cons hlt, List.take_succ_cons, List.map_cons,
      List.foldlM_cons, get_ofNat, List.getElem?_eq_getElem hlt]
    show (Grid.zoneAddFace g z path[k] >>= _) = (Grid.zoneAddFace g z path[k] >>= _)
    cases hz : Grid.zoneAddFace g z path[k] with
    | error e => rfl
    | ok g1 =>
      rw [res_bind_ok, res_bind_ok]
      exact ih (k + 1) g1 (by omega)

theorem PathOf.of_iff {g : Grid F R} {p q : Nat → Prop} {path : List Nat} (h : PathOf g p path)
    (hpq : ∀ f ∈ g.faces, (p f ↔ q f)) : PathOf g q path := by
  have e : (fun f => f ∈ g.faces ∧ p f) = (fun f => f ∈ g.faces ∧ q f) := by
    funext f
    apply propext
    constructor
    · rintro ⟨h1, h2⟩; exact ⟨h1, (hpq f h1).1 h2⟩
    · rintro ⟨h1, h2⟩; exact ⟨h1, (hpq f h1).2 h2⟩
  refine ⟨h.nodup, ?_, ?_⟩
  · intro f
    rw [h.mem f]
    exact iff_of_eq (congrFun e f)
  · rw [← e]; exact h.groups

theorem farhatStep_spec {g : Grid F R} (hm : Mesh g) {keep : List Nat} {base : Nat} {size : Nat → Nat} {count k : Nat}
    {zf : Nat → List Nat} {fz : Nat → Option Nat} (mk : Nat → Bool) (start : Nat) (hk : k < count)
    (hbase : ∀ z ∈ keep, z < base) (hs : start ∈ g.faces)
    (h : FarhatInv g keep base size count k zf fz) :
    ∃ zf' fz' mk' start', Grid.farhatStep (({ g with zFaces := zf, fZone := fz, fMark := mk } : Grid F R), start) (base + k, size k) =
        .ok (({ g with zFaces := zf', fZone := fz', fMark := mk' } : Grid F R), start') ∧ start' ∈ g.faces ∧
      FarhatInv g keep base size count (k + 1) zf' fz' := by
  let g1 : Grid F R := { g with zFaces := zf, fZone := fz, fMark := mk }
  have hm1 : Mesh g1 := hm.congr (by constructor <;> rfl)
  obtain ⟨mk', path, b1, b2, b3, b4, _⟩ := bfsPath_spec hm1 (fun f => decide (fz f = none)) start hs
  have hadj : Adj g1 = Adj g := rfl
  have hpath : PathOf g (fun f => fz f = none) path := by
    refine ⟨b2, fun f => by simpa using b3 f, ?_⟩
    obtain ⟨gs, h1, h2⟩ := b4
    refine ⟨gs, h1, fun c hc => ?_⟩
    have := h2 c hc
    simpa [hadj, g1] using this
  have hpp : path.Perm (g.faces.filter (fun f => fz f = none)) := by
    rw [List.perm_ext_iff_of_nodup b2 (hm.faces_nodup.filter _)]
    intro f
    rw [hpath.mem, List.mem_filter]; simp
  have hlen : size k ≤ path.length := by
    rw [hpp.length_eq, h.rest]
    obtain ⟨m, hm'⟩ : ∃ m, count - k = m + 1 := ⟨count - k - 1, by omega⟩
    rw [hm', List.range'_succ]; simp
  let pairs := (path.take (size k)).map (fun f => (base + k, f))
  have hpsnd : pairs.map (·.2) = path.take (size k) := by
    simp [pairs, List.map_map, Function.comp_def]
  have hpmem : ∀ p ∈ pairs, p.1 = base + k ∧ p.2 ∈ path := by
    intro p hp
    obtain ⟨f, hf, rfl⟩ := List.mem_map.1 hp
    exact ⟨rfl, List.mem_of_mem_take hf⟩
  let g2 : Grid F R := { g with zFaces := zf, fZone := fz, fMark := mk' }
  obtain ⟨zf', fz', a1, a2, a3, a4, a5⟩ := Grid.addAll_spec pairs (fun z => z = base + k) g2 (by
      intro p hp z hz
      have := ((hpath.mem p.2).1 (hpmem p hp).2).2
      rw [show g2.fZone p.2 = fz p.2 from rfl, this] at hz
      cases hz) (fun p hp => (hpmem p hp).1)
    (by rw [hpsnd]; exact b2.sublist (List.take_sublist _ _))
  have ek : zf' (base + k) = path.take (size k) := by
    rw [a2 _ rfl]
    have : g2.zFaces (base + k) = [] := h.empty k (Nat.le_refl _) hk
    rw [this, List.nil_append, filter_const_map]
  have eo : ∀ z, z ≠ base + k → zf' z = zf z := by
    intro z hz
    apply a3 z hz
    intro p hp
    rw [show g2.fZone p.2 = fz p.2 from rfl, ((hpath.mem p.2).1 (hpmem p hp).2).2]
    simp
  have fin : ∀ f ∈ path.take (size k), fz' f = some (base + k) := by
    intro f hf
    exact a4 (base + k, f) (List.mem_map.2 ⟨f, hf, rfl⟩)
  have fout : ∀ f, f ∉ path.take (size k) → fz' f = fz f := by
    intro f hf
    exact a5 f (by rw [hpsnd]; exact hf)
  have hrest : (path.drop (size k)).Perm (g.faces.filter (fun f => fz' f = none)) := by
    have hnd : (path.take (size k) ++ path.drop (size k)).Nodup := by rw [List.take_append_drop]; exact b2
    rw [List.perm_ext_iff_of_nodup (b2.sublist (List.drop_sublist _ _)) (hm.faces_nodup.filter _)]
    intro f
    rw [List.mem_filter]
    simp only [decide_eq_true_eq]
    constructor
    · intro hf
      have hfp : f ∈ path := List.mem_of_mem_drop hf
      have hnt : f ∉ path.take (size k) := fun hc => (List.nodup_append.1 hnd).2.2 f hc f hf rfl
      have := (hpath.mem f).1 hfp
      exact ⟨this.1, by rw [fout f hnt]; exact this.2⟩
    · rintro ⟨hf, hfn⟩
      by_cases hft : f ∈ path.take (size k)
      · rw [fin f hft] at hfn; cases hfn
      · rw [fout f hft] at hfn
        have : f ∈ path := (hpath.mem f).2 ⟨hf, hfn⟩
        rw [← List.take_append_drop (size k) path] at this
        rcases List.mem_append.1 this with h' | h'
        · exact absurd h' hft
        · exact h'
  have hzne : ∀ z ∈ keep ++ List.range' base k, z ≠ base + k := by
    intro z hz
    rcases List.mem_append.1 hz with h' | h'
    · have := hbase z h'; omega
    · have := List.mem_range'_1.1 h'; omega
  refine ⟨zf', fz', mk', (path[size k]?).getD start, ?_, ?_, ?_⟩
  · unfold Grid.farhatStep
    show (Grid.bfsPath g1 start (fun f => decide (fz f = none)) >>= _) = _
    rw [b1, res_bind_ok]
    show (List.foldlM _ g2 (List.range (size k)) >>= _) = _
    rw [take_fold g2 path (base + k) (size k) hlen, a1]
    rfl
  · cases hc : path[size k]? with
    | none => exact hs
    | some f => exact ((hpath.mem f).1 (List.mem_of_getElem? hc)).1
  · constructor
    · intro z hz
      rw [eo z (by have := hbase z hz; omega)]
      exact h.keepz z hz
    · intro i hi hic
      rw [eo _ (by omega)]
      exact h.empty i (by omega) hic
    · intro z hz f hf
      by_cases e : z = base + k
      · subst e
        rw [ek] at hf
        exact fin f hf
      · have hz' : z ∈ keep ++ List.range' base k := by
          rw [range'_snoc, ← List.append_assoc] at hz
          rcases List.mem_append.1 hz with h' | h'
          · exact h'
          · exact absurd (by simpa using h') e
        rw [eo z e] at hf
        have hfz := h.points z hz' f hf
        rw [fout f, hfz]
        intro hc
        have := ((hpath.mem f).1 (List.mem_of_mem_take hc)).2
        rw [hfz] at this; cases this
    · intro f hf z hz
      by_cases hft : f ∈ path.take (size k)
      · rw [fin f hft] at hz
        cases hz
        refine ⟨by rw [ek]; exact hft, ?_⟩
        rw [range'_snoc]; simp
      · rw [fout f hft] at hz
        obtain ⟨h1, h2⟩ := h.zone f hf z hz
        refine ⟨by rw [eo z (hzne z h2)]; exact h1, ?_⟩
        rw [range'_snoc, ← List.append_assoc]
        exact List.mem_append_left _ h2
    · rw [range'_snoc, ← List.append_assoc, List.flatMap_append,
        List.flatMap_congr (fun z hz => eo z (hzne z hz))]
      refine List.Perm.trans ?_ h.perm
      rw [List.append_assoc]
      apply List.Perm.append_left
      simp only [List.flatMap_cons, List.flatMap_nil, List.append_nil, ek]
      refine List.Perm.trans (List.Perm.append_left _ hrest.symm) ?_
      rw [List.take_append_drop]
      exact hpp
    · intro i hi
      by_cases e : i = k
      · subst e
        refine ⟨path, ek, by rw [ek, List.length_take]; omega, ?_⟩
        refine hpath.of_iff ?_
        intro f hf
        constructor
        · intro hn
          by_cases hft : f ∈ path.take (size i)
          · exact Or.inr ⟨i, Nat.le_refl _, fin f hft⟩
          · left; rw [fout f hft]; exact hn
        · intro hor
          by_cases hft : f ∈ path.take (size i)
          · exact ((hpath.mem f).1 (List.mem_of_mem_take hft)).2
          · rw [fout f hft] at hor
            rcases hor with h' | ⟨j, hj, hfz⟩
            · exact h'
            · have := (h.zone f hf _ hfz).2
              rcases List.mem_append.1 this with h' | h'
              · have := hbase _ h'; omega
              · have := List.mem_range'_1.1 h'; omega
      · obtain ⟨pth, p1, p2, p3⟩ := h.path i (by omega)
        have : zf' (base + i) = zf (base + i) := eo _ (by omega)
        rw [this]
        refine ⟨pth, p1, p2, p3.of_iff ?_⟩
        intro f hf
        by_cases hft : f ∈ path.take (size k)
        · have := ((hpath.mem f).1 (List.mem_of_mem_take hft)).2
          rw [fin f hft, this]
          constructor
          · intro _; exact Or.inr ⟨k, by omega, rfl⟩
          · intro _; exact Or.inl rfl
        · rw [fout f hft]
    · rw [← hrest.length_eq, List.length_drop, hpp.length_eq, h.rest]
      obtain ⟨m, hm'⟩ : ∃ m, count - k = m + 1 := ⟨count - k - 1, by omega⟩
      have hm'' : count - (k + 1) = m := by omega
      rw [hm', hm'', List.range'_succ]
      simp

/-- Sizes of the zones made by `decompose_farhat`. -/
def farhatSize (fc count i : Nat) : Nat := fc / count + (if i < fc % count then 1 else 0)

theorem farhatSize_sum (fc count m k : Nat) :
    ((List.range' k m).map (farhatSize fc count)).sum = linTotal (fc / count) (fc % count) m k := by
  induction m generalizing k with
  | zero => rfl
  | succ m ih =>
    rw [List.range'_succ, List.map_cons, List.sum_cons, ih, linTotal, farhatSize]
    split <;> rfl

theorem farhatSize_total (fc count : Nat) (h : 0 < count) :
    ((List.range' 0 count).map (farhatSize fc count)).sum = fc := by
  rw [farhatSize_sum, linTotal_eq]
  have hmod : fc % count < count := Nat.mod_lt _ h
  have h1 := Nat.div_add_mod fc count
  have : min (fc % count) (0 + count) - min (fc % count) 0 = fc % count := by omega
  rw [this]; exact h1

/-- Number of faces outside the kept zones. -/
def freeCount (g : Grid F R) (names : List Str) : Nat :=
  g.faces.length - ((keptZones g names).flatMap g.zFaces).length

/-- State of the grid after fixed zones are marked, the other ones removed and faces unlinked. -/
def fixedCleared (g : Grid F R) (nm : Option Str) (names : List Str) (fz : Nat → Option Nat) : Grid F R :=
  { g with
    zFixed := g.zones.foldl (fun m z => upd m z (decide (g.zName z ∈ names))) g.zFixed
    name := nm.getD g.name
    zones := keptZones g names
    fZone := fz }

theorem fixed_apply (g : Grid F R) (names : List Str) {z : Nat} (hz : z ∈ g.zones) :
    (g.zones.foldl (fun m z => upd m z (decide (g.zName z ∈ names))) g.zFixed) z = decide (g.zName z ∈ names) := by
  rw [Grid.foldl_upd_const g.zones g.zFixed (fun z => decide (g.zName z ∈ names)) z, if_pos hz]

theorem keep_eq (g : Grid F R) (names : List Str) :
    g.zones.filter (fun z => (g.zones.foldl (fun m z => upd m z (decide (g.zName z ∈ names))) g.zFixed) z) =
      keptZones g names :=
  List.filter_congr (fun z hz => fixed_apply g names hz)

theorem mem_kept {g : Grid F R} {names : List Str} {z : Nat} :
    z ∈ keptZones g names ↔ z ∈ g.zones ∧ g.zName z ∈ names := by
  simp [keptZones]

theorem fixedCleared_spec (g : Grid F R) (hw : Wf g) (nm : Option Str) (names : List Str) :
    ∃ fz, Grid.unlinkFacesFromZones (fixedCleared g nm names g.fZone) = .ok (fixedCleared g nm names fz) ∧
      (∀ f ∈ g.faces, ∀ z, fz f = some z ↔ g.fZone f = some z ∧ z ∈ keptZones g names) ∧
      ((keptZones g names).flatMap g.zFaces ++ g.faces.filter (fun f => fz f = none)).Perm g.faces := by
  have hpt := hw.zones.pointsIn
  obtain ⟨fz, hg⟩ : ∃ fz : Nat → Option Nat, fz = fun f => if f ∈ g.faces ∧ ∃ z, g.fZone f = some z ∧
      (g.zones.foldl (fun m z => upd m z (decide (g.zName z ∈ names))) g.zFixed) z = false then none else g.fZone f := ⟨_, rfl⟩
  have hfz : ∀ f ∈ g.faces, ∀ z, fz f = some z ↔ g.fZone f = some z ∧ z ∈ keptZones g names := by
    rw [hg]
    intro f hf z
    obtain ⟨z', hz', hfz'⟩ := hpt f hf
    simp only [hf, true_and, hfz', Option.some.injEq, exists_eq_left', fixed_apply g names hz',
      decide_eq_false_iff_not, mem_kept]
    by_cases hc : g.zName z' ∈ names
    · rw [if_neg (by simp [hc])]
      constructor
      · intro h; have := Option.some.inj h; subst this; exact ⟨rfl, hz', hc⟩
      · rintro ⟨h, _⟩; rw [h]
    · rw [if_pos hc]
      constructor
      · intro h; cases h
      · rintro ⟨rfl, _, h⟩; exact absurd h hc
  refine ⟨fz, ?_, hfz, ?_⟩
  · rw [hg]
    refine Grid.unlink_spec _ hw.mesh.faces_nodup ?_
    show ∀ f ∈ g.faces, g.fZone f ≠ none
    intro f hf
    obtain ⟨z, _, hz⟩ := hpt f hf
    rw [hz]; simp
  · have hsub : ((keptZones g names).flatMap g.zFaces ++
        (g.zones.filter (fun z => !decide (g.zName z ∈ names))).flatMap g.zFaces).Perm g.faces := by
      rw [← List.flatMap_append]
      exact ((List.filter_append_perm _ _).flatMap_right _).trans hw.zones.partition
    have hnd := hsub.nodup_iff.2 hw.mesh.faces_nodup
    refine List.Perm.trans (List.Perm.append_left _ ?_) hsub
    rw [List.perm_ext_iff_of_nodup (hw.mesh.faces_nodup.filter _) (List.nodup_append.1 hnd).2.1]
    intro f
    rw [List.mem_filter, List.mem_flatMap, decide_eq_true_eq]
    constructor
    · rintro ⟨hf, hfn⟩
      obtain ⟨z, hz, hzz⟩ := hpt f hf
      refine ⟨z, List.mem_filter.2 ⟨hz, ?_⟩, (hw.zones.mem_iff hz f).2 ⟨hf, hzz⟩⟩
      by_cases hc : g.zName z ∈ names
      · exfalso
        have := (hfz f hf z).2 ⟨hzz, mem_kept.2 ⟨hz, hc⟩⟩
        rw [this] at hfn
        cases hfn
      · simp [hc]
    · rintro ⟨z, hz, hf⟩
      obtain ⟨hz1, hz2⟩ := List.mem_filter.1 hz
      have := (hw.zones.mem_iff hz1 f).1 hf
      refine ⟨this.1, ?_⟩
      cases hc : fz f with
      | none => rfl
      | some z' =>
        have h2 := (hfz f this.1 z').1 hc
        rw [this.2] at h2
        have h3 := Option.some.inj h2.1
        subst h3
        simp [(mem_kept.1 h2.2).2] at hz2

theorem farhat_spec (g : Grid F R) (hw : Wf g) (count : Nat) (hc : 0 < count) (hne : g.faces ≠ []) (nm : Option Str)
    (names : List Str) :
    ∃ g', g.decomposeFarhat count nm names = .ok g' ∧ DecompOk g g' ∧ g'.name = nm.getD g.name ∧
      g'.zones = keptZones g names ++ List.range' g.zNext count ∧
      (∀ z ∈ keptZones g names, g'.zFaces z = g.zFaces z ∧ g'.zName z = g.zName z) ∧
      (∀ i < count, g'.zName (g.zNext + i) = "farhat ".toList ++ Py.natStr i) ∧
      (∀ i < count, ∃ path, g'.zFaces (g.zNext + i) = path.take (farhatSize (freeCount g names) count i) ∧
        (g'.zFaces (g.zNext + i)).length = farhatSize (freeCount g names) count i ∧
        PathOf g (fun f => ∃ j, i ≤ j ∧ j < count ∧ g'.fZone f = some (g.zNext + j)) path) := by
  obtain ⟨fz, u1, u2, u3⟩ := fixedCleared_spec g hw nm names
  obtain ⟨zi, zm, zn, ze, zf, zx, p1, p2, p3, p4⟩ :=
    (fixedCleared g nm names fz).pushZones_spec (Grid.numbered "farhat ".toList count)
  rw [numbered_length] at p1 p4
  generalize hgp : (fixedCleared g nm names fz).pushZones (Grid.numbered "farhat ".toList count) = gp at p1
  have hkal : ∀ z ∈ keptZones g names, z < g.zNext := fun z hz => hw.alloc z (mem_kept.1 hz).1
  have hsame : SameMesh g gp := by rw [p1]; constructor <;> rfl
  have hzones : gp.zones = keptZones g names ++ List.range' g.zNext count := by rw [p1]; rfl
  have hfaces : gp.faces = g.faces := hsame.faces
  have hm : Mesh gp := hw.mesh.congr hsame
  have hkf : ∀ z ∈ keptZones g names, gp.zFaces z = g.zFaces z := by
    intro z hz; rw [p1]; exact (p2 z (hkal z hz)).2.1
  have hfixc : gp.facesCountInFixedZones = ((keptZones g names).flatMap g.zFaces).length := by
    unfold Grid.facesCountInFixedZones
    rw [hzones, List.filter_append]
    have e1 : (List.range' g.zNext count).filter (fun z => gp.zFixed z) = [] := by
      rw [List.filter_eq_nil_iff]
      intro z hz
      have := List.mem_range'_1.1 hz
      rw [p1]
      show ¬ zx z = true
      rw [(p4 z this.1 this.2).2]; simp
    have e2 : (keptZones g names).filter (fun z => gp.zFixed z) = keptZones g names := by
      rw [List.filter_eq_self]
      intro z hz
      rw [p1]
      show zx z = true
      rw [(p2 z (hkal z hz)).2.2]
      show (g.zones.foldl (fun m z => upd m z (decide (g.zName z ∈ names))) g.zFixed) z = true
      rw [fixed_apply g names (mem_kept.1 hz).1]
      simp [(mem_kept.1 hz).2]
    rw [e1, e2, List.append_nil, List.length_flatMap]
    congr 1
    exact List.map_congr_left (fun z hz => by rw [hkf z hz])
  have hgpz : gp.fZone = fz := by rw [p1]; rfl
  have hinv : FarhatInv gp (keptZones g names) g.zNext (farhatSize (freeCount g names) count) count 0
      gp.zFaces gp.fZone := by
    refine ⟨fun _ _ => rfl, ?_, ?_, ?_, ?_, by intro i hi; omega, ?_⟩
    · intro i _ hi
      rw [p1]
      exact (p4 (g.zNext + i) (by show g.zNext ≤ _; omega) (by show _ < g.zNext + count; omega)).1
    · intro z hz f hf
      simp only [List.range'_zero, List.append_nil] at hz
      rw [hkf z hz] at hf
      have := (hw.zones.mem_iff (mem_kept.1 hz).1 f).1 hf
      rw [hgpz]
      exact (u2 f this.1 z).2 ⟨this.2, hz⟩
    · intro f hf z hz
      rw [hfaces] at hf
      rw [hgpz] at hz
      have := (u2 f hf z).1 hz
      refine ⟨by rw [hkf z this.2]; exact (hw.zones.mem_iff (mem_kept.1 this.2).1 f).2 ⟨hf, this.1⟩, by simpa using this.2⟩
    · simp only [List.range'_zero, List.append_nil]
      rw [hgpz, hfaces, List.flatMap_congr hkf]
      exact u3
    · rw [Nat.sub_zero, farhatSize_total _ _ hc, hgpz, hfaces, freeCount]
      have := u3.length_eq
      rw [List.length_append] at this
      omega
  obtain ⟨f0, hf0⟩ : ∃ f0, g.faces[0]? = some f0 := by
    cases hh : g.faces with
    | nil => exact absurd hh hne
    | cons a t => exact ⟨a, rfl⟩
  have hzip : (gp.zones.drop (keptZones g names).length).zip
      ((List.range count).map (farhatSize (freeCount g names) count)) =
      (List.range count).map (fun i => (g.zNext + i, farhatSize (freeCount g names) count i)) := by
    rw [hzones, List.drop_left, List.range'_eq_map_range, List.zip_map']
  obtain ⟨s', l1, zf', fz', mk', st', l2, l3, l4⟩ := foldlM_total
    (fun (s : Grid F R × Nat) (i : Nat) => Grid.farhatStep s (g.zNext + i, farhatSize (freeCount g names) count i))
    (List.range count)
    (fun pre (s : Grid F R × Nat) => ∃ zf fz mk st, s = (({ gp with zFaces := zf, fZone := fz, fMark := mk } : Grid F R), st) ∧
      st ∈ gp.faces ∧ FarhatInv gp (keptZones g names) g.zNext (farhatSize (freeCount g names) count) count pre.length zf fz)
    (gp, f0) ⟨gp.zFaces, gp.fZone, gp.fMark, f0, rfl, by rw [hfaces]; exact List.mem_of_getElem? hf0, hinv⟩ (by
      rintro pre i post s hl ⟨zf, fz, mk, st, rfl, hst, hI⟩
      have hi : i = pre.length := by
        have h1 : (List.range count)[pre.length]? = some i := by rw [hl]; simp
        have := List.getElem?_eq_some_iff.1 h1
        obtain ⟨h1, h2⟩ := this
        rw [List.getElem_range] at h2
        exact h2.symm
      have hlt : pre.length < count := by
        have := congrArg List.length hl
        simp at this; omega
      subst hi
      obtain ⟨zf', fz', mk', st', k1, k2, k3⟩ := farhatStep_spec hm mk st hlt hkal hst hI
      exact ⟨_, k1, zf', fz', mk', st', rfl, k2, by simpa using k3⟩)
  subst l2
  rw [List.length_range] at l4
  let g2 : Grid F R := { gp with zFaces := zf', fZone := fz', fMark := mk' }
  have hsame2 : SameMesh g g2 := hsame.trans (by constructor <;> rfl)
  have hnone : g.faces.filter (fun f => fz' f = none) = [] := by
    have := l4.rest
    rw [hfaces, Nat.sub_self] at this
    exact List.length_eq_zero_iff.1 this
  have hnone' : ∀ f ∈ g.faces, fz' f ≠ none := by
    intro f hf hn
    have := (List.filter_eq_nil_iff.1 hnone) f hf
    simp [hn] at this
  have hzok : ZonesOk g2 := by
    refine ⟨?_, ?_, ?_⟩
    · show gp.zones.Nodup
      rw [hzones]
      refine List.nodup_append.2 ⟨hw.zones.zones_nodup.filter _, List.nodup_range', ?_⟩
      intro a ha b hb e
      have := hkal a ha
      have := List.mem_range'_1.1 hb
      omega
    · show (gp.zones.flatMap zf').Perm gp.faces
      have := l4.perm
      rw [hfaces, hnone, List.append_nil] at this
      rw [hzones, hfaces]
      exact this
    · show ∀ z ∈ gp.zones, ∀ f ∈ zf' z, fz' f = some z
      rw [hzones]; exact l4.points
  have hal2 : ZonesAlloc g2 := by
    show ∀ z ∈ gp.zones, z < gp.zNext
    rw [hzones]
    intro z hz
    have hn : gp.zNext = g.zNext + count := by rw [p1]; rfl
    rcases List.mem_append.1 hz with h | h
    · have := hkal z h; omega
    · have := List.mem_range'_1.1 h; omega
  obtain ⟨zn', ze', zi', f1, f2⟩ := finish g2 (hw.mesh.congr hsame2) hzok hal2
  refine ⟨{ g2 with zNodes := zn', zEdges := ze', zId := zi' }, ?_, ⟨hsame2.trans f2.same, f2.zones, f2.lists, f2.alloc, f2.ids⟩, ?_, hzones, ?_, ?_, ?_⟩
  · generalize ({ g2 with zNodes := zn', zEdges := ze', zId := zi' } : Grid F R) = G at f1
    unfold Grid.decomposeFarhat
    have hh : (Grid.unlinkFacesFromZones { Grid.rename (g.markFixed names) nm with
        zones := (Grid.rename (g.markFixed names) nm).zones.filter (fun z => (Grid.rename (g.markFixed names) nm).zFixed z) }) =
        .ok (fixedCleared g nm names fz) := by
      rw [← u1]
      congr 1
      unfold fixedCleared
      rw [← keep_eq g names]; rfl
    show (Grid.unlinkFacesFromZones { Grid.rename (g.markFixed names) nm with
        zones := (Grid.rename (g.markFixed names) nm).zones.filter (fun z => (Grid.rename (g.markFixed names) nm).zFixed z) } >>= _) = _
    rw [hh, res_bind_ok, hgp]
    show (Py.get gp.faces ((0 : Nat) : Int) >>= _) = _
    rw [get_ofNat, hfaces, hf0]
    show (List.foldlM Grid.farhatStep (gp, f0) ((gp.zones.drop (List.filter _ _).length).zip
      ((List.range count).map (fun i => (g.faces.length - gp.facesCountInFixedZones) / count +
        if i < (g.faces.length - gp.facesCountInFixedZones) % count then 1 else 0))) >>= _) = _
    rw [hfixc]
    have hk := keep_eq g names
    show (List.foldlM Grid.farhatStep (gp, f0) ((gp.zones.drop (List.filter (fun z => (g.zones.foldl (fun m z => upd m z (decide (g.zName z ∈ names))) g.zFixed) z) g.zones).length).zip
      ((List.range count).map (farhatSize (freeCount g names) count))) >>= _) = _
    rw [hk, hzip, List.foldlM_map, l1, res_bind_ok]
    exact f1
  · show gp.name = _
    rw [p1]; rfl
  · intro z hz
    refine ⟨?_, ?_⟩
    · show zf' z = _
      rw [l4.keepz z hz, hkf z hz]
    · show gp.zName z = _
      rw [p1]
      exact (p2 z (hkal z hz)).1
  · intro i hi
    show gp.zName _ = _
    rw [p1]
    exact p3 i _ (numbered_get _ _ _ hi)
  · intro i hi
    obtain ⟨path, q1, q2, q3⟩ := l4.path i hi
    refine ⟨path, q1, q2, ?_⟩
    have hadj : Adj gp = Adj g := by
      funext a b; unfold Adj; rw [hsame.edges, hsame.eFaces]
    have q4 := q3.of_iff (q := fun f => ∃ j, i ≤ j ∧ j < count ∧ fz' f = some (g.zNext + j)) (by
      intro f hf
      rw [hfaces] at hf
      constructor
      · rintro (h | ⟨j, hj, h⟩)
        · exact absurd h (hnone' f hf)
        · refine ⟨j, hj, ?_, h⟩
          have := (l4.zone f (by rw [hfaces]; exact hf) _ h).2
          rcases List.mem_append.1 this with h' | h'
          · have := hkal _ h'; omega
          · have := List.mem_range'_1.1 h'; omega
      · rintro ⟨j, hj, _, h⟩; exact Or.inr ⟨j, hj, h⟩)
    refine ⟨q4.nodup, ?_, ?_⟩
    · intro f; rw [q4.mem, hfaces]
    · obtain ⟨gs, h1, h2⟩ := q4.groups
      refine ⟨gs, h1, fun c hcc => ?_⟩
      have := h2 c hcc
      rw [hadj, hfaces] at this
      exact this

end Verif
