import Verif.Model.CrysMain
import Verif.Props.Crys
import Verif.Props.Split
import Verif.Props.RemeshMain

/-! Property C97: the parallel program as a whole. -/

namespace Verif.Props
open Verif Crys Grid
variable {F R : Type}

theorem column_ok {g : Grid F R} {z : Nat} {v : Str} {l : List F} (h : faceColumn g z v = .ok l) :
    List.Forall₂ (fun f x => Py.dictGet? (g.fData f) v = some x) (g.zFaces z) l := by
  refine ((mapM_forall₂ _ _ _).1 h).imp fun f x hx => ?_
  split at hx
  · next y hy => rw [hy, Except.ok.inj hx]
  · cases hx

theorem solve_ok {swim : List F → List F → List F → List F} {g : Grid F R} {i : Nat} {h : List F} (hs : solve swim g i = .ok h) :
    ∃ z his t hw, g.zones[i]? = some z ∧ faceColumn g z "Hi".toList = .ok his ∧ faceColumn g z "T".toList = .ok t ∧ faceColumn g z "Hw".toList = .ok hw ∧
      h = swim t his hw := by
  unfold solve at hs
  simp only [res_bind_eq_ok] at hs
  obtain ⟨z, h1, his, h2, t, h3, hw, h4, h5⟩ := hs
  refine ⟨z, his, t, hw, ?_, h2, h3, h4, (Except.ok.inj h5).symm⟩
  rw [get_ofNat] at h1
  split at h1
  · next y hy => rw [hy, Except.ok.inj h1]
  · cases h1

/-- After the computation every face is known to have the three variables. -/
theorem whole_has [Zero F] {late : Bool} {swim : List F → List F → List F → List F} {g root : Grid F R} {his : List (List F)} (hw : Wf g)
    (h : Whole late swim g his root) {f : Nat} (hf : f ∈ g.faces) {v : Str} (hv : v ∈ exchanged) : ∃ x, Py.dictGet? (g.fData f) v = some x := by
  obtain ⟨z, hz, hfz⟩ := List.mem_flatMap.1 ((hw.zones.partition.mem_iff).2 hf)
  obtain ⟨i, hi⟩ := List.getElem?_of_mem hz
  have hil : i < g.zones.length := (List.getElem?_eq_some_iff.1 hi).1
  obtain ⟨x, hx, hs⟩ := forall₂_left h.work (List.mem_range.2 hil)
  obtain ⟨z', a, t, b, e1, e2, e3, e4, -⟩ := solve_ok hs
  rw [hi] at e1
  obtain rfl := Option.some.inj e1
  have key : ∀ {v l}, faceColumn g z v = .ok l → ∃ x, Py.dictGet? (g.fData f) v = some x := by
    intro v l hc
    obtain ⟨y, -, hy⟩ := forall₂_left (column_ok hc) hfz
    exact ⟨y, hy⟩
  simp only [exchanged, List.mem_cons, List.not_mem_nil, or_false] at hv
  rcases hv with rfl | rfl | rfl
  · exact key e3
  · exact key e2
  · exact key e4

/-- The exchanges change nothing: all processes read the same file, and what they have computed since then is not on the faces. -/
theorem C97_exchange_idle [Zero F] (g : Grid F R) (hw : Wf g) (hl : ZoneLists g) (hg : GloPerm g)
    (hv : ∀ f ∈ g.faces, ∀ v ∈ exchanged, (Py.dictGet? (g.fData f) v).isSome) (w w' : World F R)
    (hs : Start g (fun _ => g.fData) exchanged w) (hr : Run false 0 w w') (i : Nat) (hi : i < g.zones.length) (hd : Done (w'.procs i)) :
    ∃ d, (w'.procs i).g = { g with fData := d } ∧ ∀ f ∈ g.faces, ∀ v, Py.dictGet? (d f) v = Py.dictGet? (g.fData f) v := by
  obtain ⟨h1, h2, d, h3⟩ := C58_exchange_partial g hw hl hg (fun _ => g.fData) 0 exchanged false (by simp) w w' hs hr i hi hd
  refine ⟨d, h3, fun f hf v => ?_⟩
  rw [h3] at h1 h2
  by_cases hgh : (∀ j, ¬ GhostOf g i j f) ∨ v ∉ exchanged
  · exact h2 f v hgh
  · push Not at hgh
    obtain ⟨⟨j, hj⟩, hv'⟩ := hgh
    have := h1 j f v hj hv'
    obtain ⟨x, hx⟩ := Option.isSome_iff_exists.1 (hv f hf v hv')
    simp only [hx, Option.getD_some] at this
    rw [this, hx]

theorem idle [Zero F] {swim : List F → List F → List F → List F} {g root : Grid F R} {his : List (List F)} (hw : Wf g) (hl : ZoneLists g)
    (hg : GloPerm g) (h : Whole false swim g his root) :
    ∃ d, root = { g with fData := d } ∧ ∀ f ∈ g.faces, ∀ v, Py.dictGet? (d f) v = Py.dictGet? (g.fData f) v := by
  by_cases h1 : g.zones.length ≤ 1
  · exact ⟨g.fData, h.one h1, fun _ _ _ => rfl⟩
  · obtain ⟨w, w', e1, e2, e3, rfl⟩ := h.many (by omega)
    refine C97_exchange_idle g hw hl hg (fun f hf v hv => ?_) w w' e1 e2 0 (by omega) (e3 0 (by omega))
    obtain ⟨x, hx⟩ := whole_has hw h hf hv
    rw [hx]; rfl

/-- The zones after splitting for `k` processes: `k` zones, the larger ones first. -/
theorem split_sizes {S : Type} [LinearOrder S] {g g' : Grid F R} (hw : Wf g) (hne : g.faces ≠ []) {fns : List (Nat → S)} {k : Nat} (hk : 0 < k)
    (h : splitGrid g fns (strategy k) [] = .ok g') : g'.zones.length = k ∧
      ∀ i z, g'.zones[i]? = some z → (g'.zFaces z).length = farhatSize g.faces.length k i := by
  have e : splitGrid g fns (strategy k) [] = (Py.int (Py.natStr k) >>= fun n => if n = 1 ∧ ([] : List Str) = [] then g.decomposeMono
      else if n = 0 then .error (.exc "zero zones count to split")
      else if n ≤ (([] : List Str).length : Int) then .error (.exc "fixed zones count is more or equal than target zones count")
      else g.decomposeFarhat (n - (([] : List Str).length : Int)).toNat none []) := rfl
  rw [e, Py.int_natStr, res_bind_ok] at h
  by_cases h1 : k = 1
  · subst h1
    rw [if_pos ⟨rfl, rfl⟩] at h
    obtain ⟨g2, q1, -, -, q3, -, q5⟩ := mono_spec g hw none
    rw [q1] at h
    obtain rfl := Except.ok.inj h
    rw [q3]
    refine ⟨rfl, fun i z hz => ?_⟩
    cases i with
    | zero =>
      obtain rfl := Option.some.inj hz
      rw [q5]; simp [farhatSize, Nat.mod_one]
    | succ i => cases hz
  · rw [if_neg (by rintro ⟨a, -⟩; omega), if_neg (by omega), if_neg (by simp; omega)] at h
    simp only [List.length_nil, Nat.cast_zero, sub_zero, Int.toNat_natCast] at h
    obtain ⟨g2, q1, -, -, q3, -, -, q5⟩ := farhat_spec g hw k hk hne none []
    rw [q1] at h
    obtain rfl := Except.ok.inj h
    have hkept : keptZones g [] = [] := by simp [keptZones]
    have hfree : freeCount g [] = g.faces.length := by simp [freeCount, hkept]
    rw [hkept, List.nil_append] at q3
    rw [q3] at *
    refine ⟨by simp, fun i z hz => ?_⟩
    obtain ⟨a1, a2⟩ := List.getElem?_eq_some_iff.1 hz
    rw [List.length_range'] at a1
    rw [List.getElem_range'] at a2
    obtain ⟨-, -, a3, -⟩ := q5 i a1
    rw [← a2, one_mul]
    rw [← hfree]; exact a3

theorem sizes_sum (m k i : Nat) : ((List.range i).map (farhatSize m k)).sum = i * (m / k) + min (m % k) i := by
  rw [List.range_eq_range', farhatSize_sum, linTotal_eq]
  simp

theorem sizes_fit (m k i : Nat) : i * (m / k) + min (m % k) i = i * farhatSize m k i ↔ k ∣ m ∨ i < m % k := by
  unfold farhatSize
  rw [Nat.dvd_iff_mod_eq_zero]
  by_cases hi : i < m % k
  · rw [if_pos hi, min_eq_right hi.le, Nat.mul_add]; simp [hi]
  · rw [if_neg hi, min_eq_left (by omega)]
    simp only [Nat.add_zero, Nat.add_eq_left, hi, or_false]

variable [Field F] [LinearOrder F]

/-- What `crys.py` starts with: the file is read and split into as many zones as there are processes. -/
structure Started {S : Type} [LinearOrder S] [DecidableEq R] (rc : Vec F → R) (c : Codec F) (new : Grid F R) (fns : Grid F R → List (Nat → S))
    (text : Str) (k : Nat) (g : Grid F R) : Prop where
  file : ∃ s, parseFile c (Py.readlines text).length ⟨new.name, [], []⟩ (Py.readlines text) = .ok s ∧ NonDegenerate rc true s.blocks
  processes : 0 < k
  faces : g.faces ≠ []
  split : ∃ stem dir out, split rc c 0 new fns stem ".dat".toList text (some dir) true (strategy k) [] 1 = .ok (g, out)

variable {S : Type} [LinearOrder S] [DecidableEq R] {rc : Vec F → R} {c : Codec F} {new : Grid F R} {fns : Grid F R → List (Nat → S)} {text : Str}
  {k : Nat} {g root : Grid F R} {swim : List F → List F → List F → List F} {his : List (List F)}

theorem Started.facts (h : Started rc c new fns text k g) : Wf g ∧ ZoneLists g ∧ GloPerm g ∧ g.zones.length = k ∧
    ∀ i z, g.zones[i]? = some z → (g.zFaces z).length = farhatSize g.faces.length k i := by
  obtain ⟨⟨s, hfile, hd⟩, hk, hne, stem, dir, out, hs⟩ := h
  obtain ⟨g0, h1, -, h3⟩ := split_ok hs
  unfold loadText at h1
  dsimp only at h1
  rw [hfile, res_bind_ok] at h1
  have L := loaded_of hd h1
  have hw : Wf (fillFactor g0 1) := Wf.withData ⟨L.mesh, L.zones, L.alloc⟩ _
  have hD := splitGrid_ok hw h3
  have hne0 : (fillFactor g0 1).faces ≠ [] := by rw [← hD.same.faces]; exact hne
  obtain ⟨s1, s2⟩ := split_sizes hw hne0 hk h3
  rw [← hD.same.faces] at s2
  exact ⟨hD.wf hw.mesh, hD.lists, (hD.same.gloIds (L.glo.withData _)).perm, s1, s2⟩

theorem whole_sizes (hsw : ∀ t h w, t.length = h.length → w.length = h.length → (swim t h w).length = h.length) {late : Bool} (h : Whole late swim g his root) :
    OnePerFace g his ∧ ∀ i h, his[i]? = some h → solve swim g i = .ok h := by
  have hlen : his.length = g.zones.length := by rw [← h.work.length_eq, List.length_range]
  have hsol : ∀ i h', his[i]? = some h' → solve swim g i = .ok h' := by
    intro i h' hi
    obtain ⟨a1, a2⟩ := List.getElem?_eq_some_iff.1 hi
    have := (List.forall₂_iff_get.1 h.work).2 i (by rw [List.length_range]; omega) a1
    simp only [List.get_eq_getElem, List.getElem_range, a2] at this
    exact this
  refine ⟨?_, hsol⟩
  rw [OnePerFace, List.forall₂_iff_get]
  refine ⟨hlen.symm, fun i h1 h2 => ?_⟩
  obtain ⟨z, a, t, b, e1, e2, e3, e4, e5⟩ := solve_ok (hsol i _ (List.getElem?_eq_getElem h2))
  rw [List.getElem?_eq_getElem h1] at e1
  have l2 := (column_ok e2).length_eq
  have l3 := (column_ok e3).length_eq
  have l4 := (column_ok e4).length_eq
  simp only [List.get_eq_getElem, Option.some.inj e1, e5]
  rw [hsw t a b (by omega) (by omega), l2]

theorem whole_sum (hst : Started rc c new fns text k g) (ho : OnePerFace g his) {i : Nat} {h : List F} (hi : his[i]? = some h) :
    ((his.take i).map List.length).sum = i * h.length ↔ k ∣ g.faces.length ∨ i < g.faces.length % k := by
  obtain ⟨-, -, -, h4, h5⟩ := hst.facts
  have hsz : ∀ j x, his[j]? = some x → x.length = farhatSize g.faces.length k j := by
    intro j x hj
    obtain ⟨a1, a2⟩ := List.getElem?_eq_some_iff.1 hj
    have hz : j < g.zones.length := by rw [ho.length_eq]; exact a1
    have := (List.forall₂_iff_get.1 ho).2 j hz a1
    simp only [List.get_eq_getElem, a2] at this
    rw [this]
    exact h5 j _ (List.getElem?_eq_getElem hz)
  have : (his.take i).map List.length = (List.range i).map (farhatSize g.faces.length k) := by
    have hil := (List.getElem?_eq_some_iff.1 hi).1
    apply List.ext_getElem?
    intro j
    rw [List.getElem?_map, List.getElem?_map, List.getElem?_take]
    by_cases hj : j < i
    · rw [if_pos hj, List.getElem?_range hj, List.getElem?_eq_getElem (by omega : j < his.length)]
      simp only [Option.map_some]
      rw [hsz j _ (List.getElem?_eq_getElem _)]
    · rw [if_neg hj, List.getElem?_eq_none (by simp; omega)]; rfl
  rw [this, sizes_sum, hsz i h hi, sizes_fit]

/-- Missing for the full property: a number of faces that is not a multiple of the number of processes (see `C97_exactly`), and sends whose
buffers are read late (see `C58_race_violation`).

If the number of processes divides the number of faces, process 0 remeshes the grid of the file with the ice heights that the other processes
have computed, each on its own face; all other values are those of the file. -/
theorem C97_heights_partial (hst : Started rc c new fns text k g) (hsw : ∀ t h w, t.length = h.length → w.length = h.length → (swim t h w).length = h.length)
    (hrun : Whole false swim g his root) (hdiv : k ∣ g.faces.length) :
    ∃ d, scatter root his = { g with fData := d } ∧
      ∀ (i z p f : Nat) (h : List F) (x : F), g.zones[i]? = some z → solve swim g i = .ok h → (g.zFaces z)[p]? = some f → h[p]? = some x →
        Py.dictGet? (d f) "Hi".toList = some x ∧ ∀ v, v ≠ "Hi".toList → Py.dictGet? (d f) v = Py.dictGet? (g.fData f) v := by
  obtain ⟨hw, hl, hg, h4, h5⟩ := hst.facts
  obtain ⟨ho, hsol⟩ := whole_sizes hsw hrun
  obtain ⟨d, rfl, hd⟩ := idle hw hl hg hrun
  refine ⟨_, scatter_eq _ _, fun i z p f h x hz hs hf hx => ⟨?_, fun v hv => ?_⟩⟩
  · have hil : i < his.length := by rw [← ho.length_eq]; exact (List.getElem?_eq_some_iff.1 hz).1
    have hh : his[i]? = some h := by
      have := hsol i _ (List.getElem?_eq_getElem hil)
      rw [hs] at this
      rw [List.getElem?_eq_getElem hil, Except.ok.inj this]
    have ho' : OnePerFace ({ g with fData := d } : Grid F R) his := ho
    have := C59_gather_partial _ (hw.withData d) his ho' i (fun h' hh' => ((whole_sum hst ho hh').2 (Or.inl hdiv))) z h p f x hz hh hf hx
    rw [scatter_eq] at this
    exact this
  · rw [(setAll_spec _ _ _).1 f v hv]
    refine hd f ?_ v
    exact (hw.zones.partition.mem_iff).1 (List.mem_flatMap.2 ⟨_, List.mem_of_getElem? hz, List.mem_of_getElem? hf⟩)

/-- Otherwise only the first zones are right, as many as there are larger zones. When the computed values are different and new, process 0
puts the values of process `i` on the faces of zone `i` in these cases only. -/
theorem C97_exactly (hst : Started rc c new fns text k g) (hsw : ∀ t h w, t.length = h.length → w.length = h.length → (swim t h w).length = h.length)
    (hrun : Whole false swim g his root) (hd : his.flatten.Nodup)
    (hnew : ∀ f ∈ g.faces, ∀ x ∈ his.flatten, Py.dictGet? (g.fData f) "Hi".toList ≠ some x) (i : Nat) (h : List F) (hh : his[i]? = some h) (hne : h ≠ []) :
    RightZone g his (scatter root his).fData i ↔ k ∣ g.faces.length ∨ i < g.faces.length % k := by
  obtain ⟨hw, hl, hg, h4, h5⟩ := hst.facts
  obtain ⟨ho, hsol⟩ := whole_sizes hsw hrun
  obtain ⟨d, rfl, hdd⟩ := idle hw hl hg hrun
  have := C59_exactly ({ g with fData := d } : Grid F R) (hw.withData d) his ho hd (fun f hf x hx => by rw [hdd f hf]; exact hnew f hf x hx) i h hh hne
  rw [← whole_sum hst ho hh]
  exact this

/-! ### The file -/

omit [Field F] [LinearOrder F] in
theorem dictSet_keys (l : List (Str × F)) (v : Str) (x : F) (h : v ∈ l.map Prod.fst) : (Py.dictSet l v x).map Prod.fst = l.map Prod.fst := by
  induction l with
  | nil => cases h
  | cons p t ih =>
    obtain ⟨k, y⟩ := p
    unfold Py.dictSet
    split_ifs with e
    · simp [e]
    · simp only [List.map_cons, List.mem_cons] at h ⊢
      rw [ih (h.resolve_left fun h => e h.symm)]

omit [Field F] [LinearOrder F] in
theorem get_keys {l : List (Str × F)} {v : Str} {x : F} (h : Py.dictGet? l v = some x) : v ∈ l.map Prod.fst := by
  induction l with
  | nil => cases h
  | cons p t ih =>
    obtain ⟨k, y⟩ := p
    unfold Py.dictGet? at h
    split_ifs at h with e
    · simp [e]
    · exact List.mem_cons_of_mem _ (ih h)

omit [Field F] [LinearOrder F] in
theorem setData_keys {g : Grid F R} {f : Nat} {ks : List Str} (a : Nat) {v : Str} (x : F) (h : (g.fData f).map Prod.fst = ks) (hv : v ∈ ks) :
    ((g.setData a v x).fData f).map Prod.fst = ks := by
  show (upd g.fData a _ f).map Prod.fst = ks
  by_cases e : f = a
  · subst e
    rw [upd_self, dictSet_keys _ _ _ (by rw [h]; exact hv), h]
  · rw [upd_ne _ _ e, h]

omit [Field F] [LinearOrder F] in
theorem setAll_keys {f : Nat} {ks : List Str} {v : Str} (hv : v ∈ ks) (l : List (Nat × F)) : ∀ d : Nat → List (Str × F), (d f).map Prod.fst = ks →
    (setAll v l d f).map Prod.fst = ks := by
  induction l with
  | nil => intro d h; exact h
  | cons p t ih =>
    intro d h
    apply ih
    show (upd d p.1 _ f).map Prod.fst = ks
    by_cases e : f = p.1
    · subst e
      rw [upd_self, dictSet_keys _ _ _ (by rw [h]; exact hv), h]
    · rw [upd_ne _ _ e, h]

omit [Field F] [LinearOrder F] in
theorem takeAll_keys {p : Proc F R} {f : Nat} {ks : List Str} {v : Str} {rows : List (List F)} {g' : Grid F R} (h : takeAll p v rows = .ok g')
    (hk : (p.g.fData f).map Prod.fst = ks) (hv : v ∈ ks) : (g'.fData f).map Prod.fst = ks := by
  unfold takeAll at h
  refine foldlM_partial _ _ (fun _ (g : Grid F R) => (g.fData f).map Prod.fst = ks) _ _ h hk ?_
  intro _ a _ g1 g2 _ h1 h2
  refine foldlM_partial _ _ (fun _ (g : Grid F R) => (g.fData f).map Prod.fst = ks) _ _ h2 h1 ?_
  intro _ q _ g3 g4 _ h3 h4
  unfold takeOne at h4
  rw [res_bind_eq_ok] at h4
  obtain ⟨f', -, h4⟩ := h4
  obtain rfl := Except.ok.inj h4
  exact setData_keys _ _ h3 hv

/-- The face `f` has the variables `ks` in all processes and only some of them are exchanged. -/
def KeysKept (f : Nat) (ks : List Str) (w : World F R) : Prop :=
  ∀ i < w.n, ((w.procs i).g.fData f).map Prod.fst = ks ∧ (∀ v, (w.procs i).cur = some v → v ∈ ks) ∧ ∀ v ∈ (w.procs i).todo, v ∈ ks

omit [Field F] [LinearOrder F] in
theorem KeysKept.step {f : Nat} {ks : List Str} {late : Bool} {dflt : F} {w w' : World F R} (h : KeysKept f ks w) (hs : Step late dflt w w') :
    KeysKept f ks w' := by
  cases hs with
  | start i v vs rows copy hi hc ht hp hm =>
    intro j hj
    obtain ⟨h1, h2, h3⟩ := h j hj
    show ((upd w.procs i _ j).g.fData f).map Prod.fst = ks ∧ (∀ v, (upd w.procs i _ j).cur = some v → v ∈ ks) ∧ ∀ v ∈ (upd w.procs i _ j).todo, v ∈ ks
    by_cases e : j = i
    · subst e
      rw [upd_self]
      rw [ht] at h3
      refine ⟨h1, fun u hu => ?_, fun u hu => h3 u (List.mem_cons_of_mem _ hu)⟩
      obtain rfl := Option.some.inj hu
      exact h3 _ (by simp)
    · rw [upd_ne _ _ e]; exact ⟨h1, h2, h3⟩
  | deliver i k src ids v m ms hi hc hb hr hq hl =>
    intro j hj
    obtain ⟨h1, h2, h3⟩ := h j hj
    show ((upd w.procs i _ j).g.fData f).map Prod.fst = ks ∧ (∀ v, (upd w.procs i _ j).cur = some v → v ∈ ks) ∧ ∀ v ∈ (upd w.procs i _ j).todo, v ∈ ks
    by_cases e : j = i
    · subst e; rw [upd_self]; exact ⟨h1, h2, h3⟩
    · rw [upd_ne _ _ e]; exact ⟨h1, h2, h3⟩
  | finish i v rows g hi hc hr hg =>
    intro j hj
    obtain ⟨h1, h2, h3⟩ := h j hj
    show ((upd w.procs i _ j).g.fData f).map Prod.fst = ks ∧ (∀ v, (upd w.procs i _ j).cur = some v → v ∈ ks) ∧ ∀ v ∈ (upd w.procs i _ j).todo, v ∈ ks
    by_cases e : j = i
    · subst e
      rw [upd_self]
      exact ⟨takeAll_keys hg h1 (h2 v hc), by simp, h3⟩
    · rw [upd_ne _ _ e]; exact ⟨h1, h2, h3⟩

omit [Field F] [LinearOrder F] in
theorem start_g {g : Grid F R} {vars : List Str} {i : Nat} {p : Proc F R} (h : startProc g vars i = .ok p) : p.g = g ∧ p.todo = vars ∧ p.cur = none := by
  unfold startProc at h
  simp only [res_bind_eq_ok] at h
  obtain ⟨_, -, _, -, _, -, h⟩ := h
  split at h
  · cases h
  · obtain rfl := Except.ok.inj h
    exact ⟨rfl, rfl, rfl⟩

theorem root_keys {late : Bool} (hw : Wf g) (h : Whole late swim g his root) {f : Nat} (hf : f ∈ g.faces) :
    (root.fData f).map Prod.fst = (g.fData f).map Prod.fst := by
  by_cases h1 : g.zones.length ≤ 1
  · rw [h.one h1]
  · obtain ⟨w, w', ⟨e0, e1, -⟩, e2, e3, rfl⟩ := h.many (by omega)
    have h0 : KeysKept f ((g.fData f).map Prod.fst) w := by
      intro i hi
      obtain ⟨a1, a2, a3⟩ := start_g (e1 i hi)
      rw [a1, a2, a3]
      refine ⟨rfl, by simp, fun v hv => ?_⟩
      obtain ⟨x, hx⟩ := whole_has hw h hf hv
      exact get_keys hx
    have hall : KeysKept f ((g.fData f).map Prod.fst) w' ∧ w'.n = w.n := by
      clear e3 h
      induction e2 with
      | refl => exact ⟨h0, rfl⟩
      | tail _ hs ih => exact ⟨ih.1.step hs, by rw [← ih.2]; cases hs <;> rfl⟩
    exact (hall.1 0 (by rw [hall.2, e0]; omega)).1

/-- The file that process 0 writes, whatever the number of processes: title, zones and triangles of the split grid; the corners are where the
remesher moved the nodes; the variables are those of the file, the ice is zero and the other values are as before. -/
theorem C97_file [Inhabited F] (hst : Started rc c new fns text k g) (hc : c.Lawful) (hS : Storable g) (hrun : Whole false swim g his root)
    {P : RemeshPar F} {out : Str} (h : rootEnd P c root his = .ok out) :
    ∃ r : Ice F R, Ice.run P (scatter root his) = .ok r ∧ ∀ merge, KeysApart rc merge r.g → ∀ g1 : Grid F R, ∃ g', loadText rc c merge g1 out = .ok g' ∧
      g'.name = g.name ∧
      List.Forall₂ (fun z z' => g'.zName z' = g.zName z ∧ List.Forall₂ (fun f f' =>
        g'.fData f' = g.vars.map (fun v => (v, if v = "Hi".toList then 0 else g.getData 0 f v)) ∧
        (g'.fNodes f').map g'.nP = (g.fNodes f).map r.g.nP) (g.zFaces z) (g'.zFaces z')) g.zones g'.zones := by
  obtain ⟨hw, hl, hg, -, -⟩ := hst.facts
  unfold rootEnd at h
  rw [res_bind_eq_ok] at h
  obtain ⟨r, h1, h2⟩ := h
  refine ⟨r, h1, fun merge hk g1 => ?_⟩
  have hkeys := fun f hf => root_keys hw hrun (f := f) hf
  obtain ⟨d, rfl, hd⟩ := idle hw hl hg hrun
  rw [scatter_eq] at h1
  obtain ⟨D, hD⟩ : ∃ D, D = setAll "Hi".toList (g.zones.zipIdx.flatMap (gatherPairs ({ g with fData := d } : Grid F R) his)) d := ⟨_, rfl⟩
  have hHi : ∀ f ∈ g.faces, "Hi".toList ∈ (g.fData f).map Prod.fst := by
    intro f hf
    obtain ⟨x, hx⟩ := whole_has hw hrun hf (v := "Hi".toList) (by decide)
    exact get_keys hx
  have hDk : ∀ f ∈ g.faces, (D f).map Prod.fst = (g.fData f).map Prod.fst := by
    intro f hf
    rw [hD]
    exact setAll_keys (hHi f hf) _ _ (hkeys f hf)
  have hDv : ∀ f ∈ g.faces, ∀ v, v ≠ "Hi".toList → Py.dictGet? (D f) v = Py.dictGet? (g.fData f) v := by
    intro f hf v hv
    rw [hD, (setAll_spec _ _ _).1 f v hv]
    exact hd f hf v
  rw [show setAll "Hi".toList (({ g with fData := d } : Grid F R).zones.zipIdx.flatMap (gatherPairs ({ g with fData := d } : Grid F R) his))
    ({ g with fData := d } : Grid F R).fData = D from hD.symm] at h1
  obtain ⟨f0, fs, hfs⟩ := List.exists_cons_of_ne_nil hS.faces
  have hvars : ({ g with fData := D } : Grid F R).vars = g.vars := by
    unfold Grid.vars
    dsimp only
    rw [hfs]
    exact hDk f0 (by rw [hfs]; simp)
  have hHv : "Hi".toList ∈ g.vars := by
    unfold Grid.vars
    rw [hfs]
    exact hHi f0 (by rw [hfs]; simp)
  have hS' : Storable ({ g with fData := D } : Grid F R) := by
    refine ⟨hw.withData D, ⟨hl.1, hl.2⟩, ⟨hg.1, hg.2, hg.3⟩, hS.faces, hS.name, hS.zoneNames, ?_, ?_⟩
    · rw [hvars]; exact hS.vars
    · rw [hvars]; exact hS.dict
  obtain ⟨g', e1, e2, e3⟩ := remeshed_file hc hS' h1 h2 merge hk g1
  refine ⟨g', e1, e2, ?_⟩
  rw [hvars] at e3
  refine forall₂_mem e3 ?_
  rintro z hz z' _ ⟨a1, a2⟩
  refine ⟨a1, forall₂_mem a2 ?_⟩
  rintro f hf f' _ ⟨a3, a4⟩
  refine ⟨?_, a4⟩
  rw [a3]
  unfold iceVars
  rw [if_pos hHv, List.append_nil]
  apply List.map_congr_left
  intro v hv
  split_ifs with e
  · rfl
  · show (v, (Py.dictGet? (D f) v).getD 0) = _
    rw [hDv f (hw.face_mem hz hf) v e]; rfl

/-! ### Samples -/

/-- A strip of four triangles. -/
def stripFile : Str := "TITLE=\"t\"
VARIABLES=\"X\", \"Y\", \"Z\", \"T\", \"Hi\", \"Hw\"
ZONE T=\"low\"
NODES=6
ELEMENTS=4
DATAPACKING=BLOCK
ZONETYPE=FETRIANGLE
VARLOCATION=([4-6]=CELLCENTERED)
0 10 0 10 0 10
0 0 10 10 20 20
0 0 0 0 0 0
1/2 1/3 1/4 1/5
0 0 0 0
1 1 1 1
1 2 3
2 4 3
3 4 5
4 6 5
".toList

/-- A strip of three triangles. -/
def shortFile : Str := "TITLE=\"t\"
VARIABLES=\"X\", \"Y\", \"Z\", \"T\", \"Hi\", \"Hw\"
ZONE T=\"low\"
NODES=5
ELEMENTS=3
DATAPACKING=BLOCK
ZONETYPE=FETRIANGLE
VARLOCATION=([4-6]=CELLCENTERED)
0 10 0 10 0
0 0 10 10 20
0 0 0 0 0
1/2 1/3 1/4
0 0 0
1 1 1
1 2 3
2 4 3
3 4 5
".toList

/-- Two processes, one after the other. -/
def twoActs : List Act :=
  [.start 0 true, .start 1 true, .deliver 1 0, .finish 1, .start 1 true, .deliver 0 0, .finish 0, .start 0 true, .deliver 0 0, .deliver 1 0,
   .finish 1, .finish 0, .start 0 true, .start 1 true, .deliver 0 0, .deliver 1 0, .finish 0, .finish 1]

/-- The options of the remesher: one step. -/
def crysPar : RemeshPar ℚ :=
  ⟨Rat.sqrt, fun q => q.num.tdiv q.den, 0, 1, 1 / 10, 1 / 2, 0, 4, 15 / 100, 0, 1 / 5, 1 / 10, false, 0, true, false⟩

/-- The computation of the samples: the new ice height is the temperature. -/
def crysSwim (t _ _ : List ℚ) : List ℚ := t

/-- What can be checked by running the program with two processes. -/
def crysCheck (text : Str) (m : Nat) : Bool :=
  match parseFile ratCodec (Py.readlines text).length ⟨[], [], []⟩ (Py.readlines text) with
  | .error _ => false
  | .ok s => decide (∀ t ∈ fileFaces ratKey true s.blocks, t.Nodup) &&
    match split ratKey ratCodec 0 (empty : Grid ℚ (ℚ × ℚ × ℚ)) (fun _ => ([] : List (Nat → ℚ))) "g".toList ".dat".toList text (some []) true (strategy 2) [] 1 with
    | .error _ => false
    | .ok (g, _) => decide (g.faces.length = m) && decide (g.faces ≠ []) && decide ('=' ∉ g.name ∧ '\n' ∉ g.name ∧ '\r' ∉ g.name) &&
      decide (∀ z ∈ g.zones, ('=' ∉ g.zName z ∧ '\n' ∉ g.zName z ∧ '\r' ∉ g.zName z)) &&
      decide (∀ v ∈ g.vars, (v ≠ [] ∧ (∀ c ∈ v, Py.isWs c = false) ∧ '=' ∉ v ∧ '"' ∉ v ∧ ',' ∉ v)) && decide g.vars.Nodup &&
      decide (g.zones.length = 2) &&
      match solve crysSwim g 0, solve crysSwim g 1, startProc g exchanged 0, startProc g exchanged 1 with
      | .ok h0, .ok h1, .ok p0, .ok p1 => decide (h0 ++ h1).Nodup && decide (h0 ≠ []) && decide (h1 ≠ []) &&
        decide (∀ f ∈ g.faces, ∀ x ∈ h0 ++ h1, Py.dictGet? (g.fData f) "Hi".toList ≠ some x) &&
        match acts (0 : ℚ) twoActs ⟨2, fun i => if i = 0 then p0 else p1, fun _ _ => []⟩ with
        | none => false
        | some w => decide ((w.procs 0).cur = none) && decide ((w.procs 0).todo = []) && decide ((w.procs 1).cur = none) && decide ((w.procs 1).todo = []) &&
          match Ice.run crysPar (scatter (w.procs 0).g [h0, h1]) with
          | .error _ => false
          | .ok r => decide (∀ n ∈ r.g.nodes, ∀ m ∈ r.g.nodes, ratKey (r.g.nP n) = ratKey (r.g.nP m) → n = m) &&
            decide (∃ n ∈ r.g.nodes, r.g.nP n ≠ g.nP n) &&
            match r.g.storeText ratCodec 0 with
            | .ok _ => true
            | .error _ => false
      | _, _, _, _ => false

/-- The hypotheses of C97. -/
theorem crysCheck_sound {text : Str} {m : Nat} (h : crysCheck text m = true) :
    ∃ (g root : Grid ℚ (ℚ × ℚ × ℚ)) (h0 h1 : List ℚ) (out : Str) (r : Ice ℚ (ℚ × ℚ × ℚ)),
      Started ratKey ratCodec empty (fun _ => ([] : List (Nat → ℚ))) text 2 g ∧ Storable g ∧ g.faces.length = m ∧ Whole false crysSwim g [h0, h1] root ∧
      [h0, h1].flatten.Nodup ∧ h0 ≠ [] ∧ h1 ≠ [] ∧ (∀ f ∈ g.faces, ∀ x ∈ [h0, h1].flatten, Py.dictGet? (g.fData f) "Hi".toList ≠ some x) ∧
      rootEnd crysPar ratCodec root [h0, h1] = .ok out ∧ Ice.run crysPar (scatter root [h0, h1]) = .ok r ∧ KeysApart ratKey true r.g ∧
      ∃ n ∈ r.g.nodes, r.g.nP n ≠ g.nP n := by
  unfold crysCheck at h
  split at h
  · cases h
  rename_i s hs
  rw [Bool.and_eq_true] at h
  obtain ⟨hd, h⟩ := h
  split at h
  · cases h
  rename_i g o hg
  simp only [Bool.and_eq_true, decide_eq_true_eq] at h hd
  obtain ⟨⟨⟨⟨⟨⟨⟨a0, a1⟩, a2⟩, a3⟩, a4⟩, a5⟩, a6⟩, h⟩ := h
  split at h
  case h_2 => cases h
  rename_i h0 h1 p0 p1 e0 e1 s0 s1
  simp only [Bool.and_eq_true, decide_eq_true_eq] at h
  obtain ⟨⟨⟨⟨b1, b2⟩, b3⟩, b4⟩, h⟩ := h
  split at h
  · cases h
  rename_i w hw
  simp only [Bool.and_eq_true, decide_eq_true_eq] at h
  obtain ⟨⟨⟨⟨c1, c2⟩, c3⟩, c4⟩, h⟩ := h
  split at h
  · cases h
  rename_i r hr
  simp only [Bool.and_eq_true, decide_eq_true_eq] at h
  obtain ⟨⟨d1, d2⟩, h⟩ := h
  split at h
  case h_2 => cases h
  rename_i out ho
  have hst : Started ratKey ratCodec empty (fun _ => ([] : List (Nat → ℚ))) text 2 g :=
    ⟨⟨s, hs, hd⟩, by decide, a1, _, _, o, hg⟩
  obtain ⟨f1, f2, f3, -, -⟩ := hst.facts
  have two : ∀ i < g.zones.length, i = 0 ∨ i = 1 := by intro i hi; omega
  refine ⟨g, (w.procs 0).g, h0, h1, out, r, hst, ⟨f1, f2, f3, a1, a2, a3, a4, a5⟩, a0, ⟨?_, fun h => by omega, fun _ => ?_⟩,
    by simpa using b1, b2, b3, by simpa using b4, ?_, hr, ?_, d2⟩
  · rw [a6]; exact .cons e0 (.cons e1 .nil)
  · refine ⟨_, w, ⟨a6.symm, ?_, fun _ _ => rfl⟩, acts_run_late twoActs (by simp [twoActs]) hw, ?_, rfl⟩
    · intro i hi
      rcases (show i = 0 ∨ i = 1 by simp at hi; omega) with rfl | rfl
      · exact s0
      · exact s1
    · intro i hi
      rcases two i hi with rfl | rfl
      · exact ⟨c1, c2⟩
      · exact ⟨c3, c4⟩
  · unfold rootEnd
    rw [hr, res_bind_ok, ho]
  · unfold KeysApart
    rw [if_pos rfl]
    exact d1

/-- The hypotheses are met: two processes and four triangles. The remesher moves nodes. -/
example : ∃ (g root : Grid ℚ (ℚ × ℚ × ℚ)) (his : List (List ℚ)) (out : Str) (r : Ice ℚ (ℚ × ℚ × ℚ)),
    Started ratKey ratCodec empty (fun _ => ([] : List (Nat → ℚ))) stripFile 2 g ∧ Storable g ∧ 2 ∣ g.faces.length ∧ Whole false crysSwim g his root ∧
    rootEnd crysPar ratCodec root his = .ok out ∧ Ice.run crysPar (scatter root his) = .ok r ∧ KeysApart ratKey true r.g ∧
    ∃ n ∈ r.g.nodes, r.g.nP n ≠ g.nP n := by
  obtain ⟨g, root, h0, h1, out, r, q1, q2, q0, q3, -, -, -, -, q4⟩ := crysCheck_sound (text := stripFile) (m := 4) (by decide +kernel)
  exact ⟨g, root, _, out, r, q1, q2, by rw [q0]; decide, q3, q4⟩

/-- Two processes and three triangles: the value that process 1 has computed is not on its face when the grid is remeshed. -/
theorem C97_violation : ∃ (g root : Grid ℚ (ℚ × ℚ × ℚ)) (his : List (List ℚ)) (out : Str),
    Started ratKey ratCodec empty (fun _ => ([] : List (Nat → ℚ))) shortFile 2 g ∧ Whole false crysSwim g his root ∧
    rootEnd crysPar ratCodec root his = .ok out ∧ RightZone g his (scatter root his).fData 0 ∧ ¬ RightZone g his (scatter root his).fData 1 := by
  obtain ⟨g, root, h0, h1, out, r, q1, q2, q0, q3, n1, n2, n3, n4, q4, -⟩ := crysCheck_sound (text := shortFile) (m := 3) (by decide +kernel)
  have hsw : ∀ t h w : List ℚ, t.length = h.length → w.length = h.length → (crysSwim t h w).length = h.length := fun t h w e _ => e
  refine ⟨g, root, _, out, q1, q3, q4, ?_, ?_⟩
  · rw [C97_exactly q1 hsw q3 n1 n4 0 h0 rfl n2, q0]; decide
  · rw [C97_exactly q1 hsw q3 n1 n4 1 h1 rfl n3, q0]; decide

end Verif.Props
