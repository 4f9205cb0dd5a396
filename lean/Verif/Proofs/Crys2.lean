import Verif.Proofs.Crys
import Verif.Proofs.Utils

/-! What a process writes to its buffer and what it takes from it. -/

namespace Verif
open Crys
variable {F R : Type} {g : Grid F R}

/-- The zone with the number. -/
def zn (g : Grid F R) (i : Nat) : Nat := (g.zones[i]?).getD 0

theorem zn_eq {i : Nat} (h : i < g.zones.length) : g.zones[i]? = some (zn g i) := by
  unfold zn
  rw [List.getElem?_eq_getElem h]; rfl

theorem zn_inj (hw : Wf g) {i j : Nat} (hi : i < g.zones.length) (hj : j < g.zones.length) (h : zn g i = zn g j) : i = j := by
  have h1 := zn_eq hi
  have h2 := zn_eq hj
  rw [h] at h1
  rw [List.getElem?_eq_some_iff] at h1 h2
  obtain ⟨a, ha⟩ := h1
  obtain ⟨b, hb⟩ := h2
  exact (List.Nodup.getElem_inj_iff hw.zones.zones_nodup).1 (ha.trans hb.symm)

/-- The value that process `a` has for a face. -/
def val (data : Nat → Nat → List (Str × F)) (dflt : F) (a : Nat) (v : Str) (f : Nat) : F := (Py.dictGet? (data a f) v).getD dflt

/-- What process `a` sends to process `b`. -/
def rowOf (g : Grid F R) (data : Nat → Nat → List (Str × F)) (dflt : F) (a b : Nat) (v : Str) : List F :=
  (common g (zn g a) (zn g b)).map (fun e => val data dflt a v (faceIn g (zn g a) e))

theorem rowOf_length (data : Nat → Nat → List (Str × F)) (dflt : F) (a b : Nat) (v : Str) :
    (rowOf g data dflt a b v).length = (borderIds g (zn g b) (zn g a)).length := by
  unfold rowOf borderIds
  rw [List.length_map, List.length_map, common_symm]
  rfl

/-- The face is next to the zone number `i`, in the zone number `j`. -/
theorem ghost_of_common (hw : Wf g) {i j e : Nat} (hi : i < g.zones.length) (hj : j < g.zones.length) (hne : i ≠ j)
    (he : e ∈ common g (zn g i) (zn g j)) : GhostOf g i j (faceIn g (zn g j) e) := by
  obtain ⟨h1, a, b, hab, ha, hb⟩ := isConnect_mem he
  have hz : zn g i ≠ zn g j := fun h => hne (zn_inj hw hi hj h)
  obtain ⟨-, h2⟩ := faceIn_between hz hab ha hb
  rw [h2]
  exact ⟨hne, _, _, e, a, zn_eq hi, zn_eq hj, h1, hab, ha, hb⟩

theorem common_of_ghost (hw : Wf g) {i j f : Nat} (h : GhostOf g i j f) :
    i < g.zones.length ∧ j < g.zones.length ∧ j ∈ neighbours g i ∧ ∃ e ∈ common g (zn g i) (zn g j), faceIn g (zn g j) e = f := by
  obtain ⟨hne, zi, zj, e, a, hi, hj, he, hab, ha, hf⟩ := h
  have li := (List.getElem?_eq_some_iff.1 hi).1
  have lj := (List.getElem?_eq_some_iff.1 hj).1
  have ei := zn_eq li
  have ej := zn_eq lj
  rw [hi] at ei
  rw [hj] at ej
  obtain rfl := Option.some.inj ei
  obtain rfl := Option.some.inj ej
  have hz : zn g i ≠ zn g j := fun h => hne (zn_inj hw li lj h)
  refine ⟨li, lj, ?_, e, ?_, (faceIn_between hz hab ha hf).2⟩
  · rw [mem_neighbours hw hi hj]
    exact ⟨hne.symm, e, he, a, f, hab, ha, hf⟩
  · unfold common
    rw [List.mem_filter, connect_iff]
    exact ⟨he, a, f, hab, ha, hf⟩

/-- The owner of a face next to another zone is unique. -/
theorem ghost_zone {i j j' f : Nat} (hw : Wf g) (h : GhostOf g i j f) (h' : GhostOf g i j' f) : j = j' := by
  obtain ⟨-, zi, zj, e, a, hi, hj, he, hab, ha, hf⟩ := h
  obtain ⟨-, zi', zj', e', a', hi', hj', he', hab', ha', hf'⟩ := h'
  rw [hf] at hf'
  obtain rfl := Option.some.inj hf'
  have lj := (List.getElem?_eq_some_iff.1 hj)
  have lj' := (List.getElem?_eq_some_iff.1 hj')
  exact (List.Nodup.getElem_inj_iff hw.zones.zones_nodup).1 (lj.2.trans lj'.2.symm)

/-- A face of the own zone is no face of another zone. -/
theorem own_not_ghost (hw : Wf g) {i j e : Nat} (hi : i < g.zones.length) (hj : j < g.zones.length) (hne : i ≠ j)
    (he : e ∈ common g (zn g i) (zn g j)) (k : Nat) : ¬ GhostOf g i k (faceIn g (zn g i) e) := by
  obtain ⟨h1, a, b, hab, ha, hb⟩ := isConnect_mem he
  have hz : zn g i ≠ zn g j := fun h => hne (zn_inj hw hi hj h)
  obtain ⟨h2, -⟩ := faceIn_between hz hab ha hb
  rw [h2]
  rintro ⟨h3, zi, zk, -, -, hi', hk, -, -, -, hf⟩
  rw [ha] at hf
  obtain rfl := Option.some.inj hf
  have l := (List.getElem?_eq_some_iff.1 hk)
  have l' := (List.getElem?_eq_some_iff.1 (zn_eq hi))
  exact h3 ((List.Nodup.getElem_inj_iff hw.zones.zones_nodup).1 (l'.2.trans l.2.symm))

/-- What does not change in a process. -/
structure Fixed (g : Grid F R) (i : Nat) (p : Proc F R) (d : Nat → List (Str × F)) : Prop where
  grid : p.g = { g with fData := d }
  zv : p.zv = marked g (zn g i)
  z : p.z = zn g i
  borders : p.borders = bordersOf g i

theorem put_ok (hw : Wf g) (hl : ZoneLists g) {i : Nat} (hi : i < g.zones.length) {p : Proc F R} {d : Nat → List (Str × F)}
    (hp : Fixed g i p d) {data : Nat → Nat → List (Str × F)} (dflt : F) (v : Str)
    (hd : ∀ f, (∀ j, ¬ GhostOf g i j f) → Py.dictGet? (d f) v = Py.dictGet? (data i f) v) :
    put p dflt v = .ok ((neighbours g i).map (fun j => rowOf g data dflt i j v)) := by
  unfold put
  rw [hp.borders, hp.grid, hp.zv, hp.z]
  unfold bordersOf
  rw [List.mapM_map]
  apply mapM_ok
  intro j hj
  obtain ⟨-, hjl, hne⟩ := neighbours_symm hw hi hj
  have hz : zn g i ≠ zn g j := fun h => hne (zn_inj hw hi hjl h).symm
  have hzm := List.mem_of_getElem? (zn_eq hi)
  show (borderIds g (zn g i) (zn g j)).mapM _ = _
  unfold borderIds rowOf
  rw [List.mapM_map]
  apply mapM_ok
  intro e he
  obtain ⟨h1, h2⟩ := isConnect_mem he
  have h3 := (realFace_ok hw hl hzm hz h1 h2).1
  have h4 : realFace ({ g with fData := d } : Grid F R) (marked g (zn g i)) (zn g i) ((g.zEdges (zn g i)).idxOf e : Int) = .ok (faceIn g (zn g i) e) := h3
  simp only [Function.comp_apply]
  rw [h4, res_bind_ok]
  unfold val Grid.getData
  simp only
  rw [hd _ (own_not_ghost hw hi hjl hne.symm he)]

/-- The data after values of one variable were written. -/
def setAll (v : Str) (l : List (Nat × F)) (d : Nat → List (Str × F)) : Nat → List (Str × F) :=
  l.foldl (fun d p => upd d p.1 (Py.dictSet (d p.1) v p.2)) d

theorem setAll_spec (v : Str) (l : List (Nat × F)) : ∀ d : Nat → List (Str × F),
    (∀ f k, k ≠ v → Py.dictGet? (setAll v l d f) k = Py.dictGet? (d f) k) ∧
    ∀ f, (∃ x, (f, x) ∈ l ∧ Py.dictGet? (setAll v l d f) v = some x) ∨ ((∀ x, (f, x) ∉ l) ∧ setAll v l d f = d f) := by
  induction l with
  | nil => intro d; exact ⟨fun _ _ _ => rfl, fun f => .inr ⟨fun _ h => absurd h List.not_mem_nil, rfl⟩⟩
  | cons p t ih =>
    intro d
    obtain ⟨h1, h2⟩ := ih (upd d p.1 (Py.dictSet (d p.1) v p.2))
    have hs : setAll v (p :: t) d = setAll v t (upd d p.1 (Py.dictSet (d p.1) v p.2)) := rfl
    rw [hs]
    constructor
    · intro f k hk
      rw [h1 f k hk]
      by_cases hf : f = p.1
      · rw [hf, upd_self, Utils.dictGet?_set_ne _ _ _ _ hk.symm]
      · rw [upd_ne _ _ hf]
    · intro f
      rcases h2 f with ⟨x, hx, e⟩ | ⟨hn, e⟩
      · exact .inl ⟨x, List.mem_cons_of_mem _ hx, e⟩
      · by_cases hf : f = p.1
        · refine .inl ⟨p.2, by rw [hf]; exact List.mem_cons_self, ?_⟩
          rw [e, hf, upd_self, Utils.dictGet?_set_self]
        · refine .inr ⟨fun x hx => ?_, ?_⟩
          · rcases List.mem_cons.1 hx with h | h
            · exact hf (congrArg Prod.fst h)
            · exact hn x h
          · rw [e, upd_ne _ _ hf]

theorem setAll_append (v : Str) (l l' : List (Nat × F)) (d : Nat → List (Str × F)) : setAll v (l ++ l') d = setAll v l' (setAll v l d) := by
  unfold setAll
  rw [List.foldl_append]

/-- The values received by process `i` from process `j`. -/
def written (g : Grid F R) (data : Nat → Nat → List (Str × F)) (dflt : F) (v : Str) (i j : Nat) : List (Nat × F) :=
  (common g (zn g i) (zn g j)).map (fun e => (faceIn g (zn g j) e, val data dflt j v (faceIn g (zn g j) e)))

theorem takeRow_ok (hw : Wf g) (hl : ZoneLists g) {i j : Nat} (hi : i < g.zones.length) (hj : j < g.zones.length) (hne : i ≠ j) {p : Proc F R}
    {d0 : Nat → List (Str × F)} (hp : Fixed g i p d0) (data : Nat → Nat → List (Str × F)) (dflt : F) (v : Str) (d : Nat → List (Str × F)) :
    ((borderIds g (zn g i) (zn g j)).zip (rowOf g data dflt j i v)).foldlM (takeOne p v) ({ g with fData := d } : Grid F R) =
      .ok { g with fData := setAll v (written g data dflt v i j) d } := by
  have hz : zn g i ≠ zn g j := fun h => hne (zn_inj hw hi hj h)
  have hzm := List.mem_of_getElem? (zn_eq hi)
  unfold borderIds rowOf written
  rw [common_symm (zn g j)]
  show ((List.map _ (common g (zn g i) (zn g j))).zip _).foldlM _ _ = _
  have hc : ∀ e ∈ common g (zn g i) (zn g j), e ∈ g.edges ∧ Between g (zn g i) (zn g j) e := fun e he => isConnect_mem he
  generalize common g (zn g i) (zn g j) = l at hc
  induction l generalizing d with
  | nil => rfl
  | cons e t ih =>
    obtain ⟨h1, h2⟩ := hc e List.mem_cons_self
    have h3 := (realFace_ok hw hl hzm hz h1 h2).2
    have h4 : takeOne p v ({ g with fData := d } : Grid F R) (((g.zEdges (zn g i)).idxOf e : Int), val data dflt j v (faceIn g (zn g j) e)) =
        .ok { g with fData := upd d (faceIn g (zn g j) e) (Py.dictSet (d (faceIn g (zn g j) e)) v (val data dflt j v (faceIn g (zn g j) e))) } := by
      unfold takeOne
      rw [hp.zv, hp.z]
      have h5 : ghostFace ({ g with fData := d } : Grid F R) (marked g (zn g i)) (zn g i) ((g.zEdges (zn g i)).idxOf e : Int) = .ok (faceIn g (zn g j) e) := h3
      rw [h5, res_bind_ok]
      rfl
    rw [List.map_cons, List.map_cons, List.zip_cons_cons, List.foldlM_cons, h4, res_bind_ok, ih _ (fun e he => hc e (List.mem_cons_of_mem _ he))]
    rfl

theorem takeAll_ok (hw : Wf g) (hl : ZoneLists g) {i : Nat} (hi : i < g.zones.length) {p : Proc F R} {d : Nat → List (Str × F)}
    (hp : Fixed g i p d) (data : Nat → Nat → List (Str × F)) (dflt : F) (v : Str) :
    takeAll p v ((neighbours g i).map (fun j => rowOf g data dflt j i v)) =
      .ok { g with fData := setAll v ((neighbours g i).flatMap (written g data dflt v i)) d } := by
  unfold takeAll
  rw [hp.borders, hp.grid]
  unfold bordersOf
  have hn : ∀ j ∈ neighbours g i, j < g.zones.length ∧ j ≠ i := fun j hj => (neighbours_symm hw hi hj).2
  have hp' := hp
  clear hp
  generalize neighbours g i = l at hn
  have : ∀ d', (((l.map (fun j => (j, borderIds g ((g.zones[i]?).getD 0) ((g.zones[j]?).getD 0)))).zip (l.map (fun j => rowOf g data dflt j i v))).foldlM
      (fun g b => (b.1.2.zip b.2).foldlM (takeOne p v) g) ({ g with fData := d' } : Grid F R)) =
      .ok { g with fData := setAll v (l.flatMap (written g data dflt v i)) d' } := by
    induction l with
    | nil => intro d'; rfl
    | cons j t ih =>
      intro d'
      obtain ⟨h1, h2⟩ := hn j List.mem_cons_self
      rw [List.map_cons, List.map_cons, List.zip_cons_cons, List.foldlM_cons]
      show (((borderIds g (zn g i) (zn g j)).zip (rowOf g data dflt j i v)).foldlM (takeOne p v) _ >>= _) = _
      rw [takeRow_ok hw hl hi h1 h2.symm hp' data dflt v d', res_bind_ok, ih (fun j hj => hn j (List.mem_cons_of_mem _ hj)), List.flatMap_cons, setAll_append]
  exact this d

theorem takeAll_data (hw : Wf g) {i : Nat} (hi : i < g.zones.length) (data : Nat → Nat → List (Str × F)) (dflt : F) (v : Str)
    (d : Nat → List (Str × F)) :
    (∀ f k, k ≠ v ∨ (∀ j, ¬ GhostOf g i j f) →
      Py.dictGet? (setAll v ((neighbours g i).flatMap (written g data dflt v i)) d f) k = Py.dictGet? (d f) k) ∧
    ∀ j f, GhostOf g i j f → Py.dictGet? (setAll v ((neighbours g i).flatMap (written g data dflt v i)) d f) v = some (val data dflt j v f) := by
  obtain ⟨h1, h2⟩ := setAll_spec v ((neighbours g i).flatMap (written g data dflt v i)) d
  have hmem : ∀ f x, (f, x) ∈ (neighbours g i).flatMap (written g data dflt v i) → ∃ j, GhostOf g i j f ∧ x = val data dflt j v f := by
    intro f x h
    obtain ⟨j, hj, h⟩ := List.mem_flatMap.1 h
    obtain ⟨-, hjl, hne⟩ := neighbours_symm hw hi hj
    unfold written at h
    obtain ⟨e, he, h⟩ := List.mem_map.1 h
    obtain ⟨rfl, rfl⟩ := Prod.mk.inj h
    exact ⟨j, ghost_of_common hw hi hjl hne.symm he, rfl⟩
  constructor
  · rintro f k (hk | hk)
    · exact h1 f k hk
    · rcases h2 f with ⟨x, hx, -⟩ | ⟨-, e⟩
      · obtain ⟨j, hj, -⟩ := hmem f x hx
        exact absurd hj (hk j)
      · rw [e]
  · intro j f hj
    rcases h2 f with ⟨x, hx, e⟩ | ⟨hn, -⟩
    · obtain ⟨j', hj', rfl⟩ := hmem f x hx
      rw [e, ghost_zone hw hj hj']
    · obtain ⟨-, -, h3, e, he, hf⟩ := common_of_ghost hw hj
      exfalso
      refine hn (val data dflt j v f) (List.mem_flatMap.2 ⟨j, h3, List.mem_map.2 ⟨e, he, ?_⟩⟩)
      rw [hf]

end Verif
