import Verif.Proofs.Crys3
import Verif.Proofs.Lazurit
import Verif.Proofs.Delete

/-! Executions of the parallel program that can be computed, and the gathered array. -/

namespace Verif
open Crys
variable {F R : Type} {g : Grid F R}

/-- A choice of the next step. -/
inductive Act where
  | start (i : Nat) (copy : Bool)
  | deliver (i k : Nat)
  | finish (i : Nat)

/-- The step, if it is possible. -/
def act (dflt : F) (w : World F R) : Act → Option (World F R)
  | .start i copy =>
    if i < w.n then
      match (w.procs i).cur, (w.procs i).todo, put (w.procs i) dflt (((w.procs i).todo.head?).getD []) with
      | none, v :: vs, .ok rows => some { w with
          procs := upd w.procs i { w.procs i with send := rows, recv := List.replicate (w.procs i).borders.length none, todo := vs, cur := some v }
          chan := fun a b => if a = i then w.chan a b ++ posted (w.procs i).borders rows (fun _ => copy) b else w.chan a b }
      | _, _, _ => none
    else none
  | .deliver i k =>
    if i < w.n then
      match (w.procs i).cur, (w.procs i).borders[k]?, (w.procs i).recv[k]? with
      | some _, some (src, ids), some none =>
        match w.chan src i with
        | m :: ms => if (w.read src m).length = ids.length then some { w with
            procs := upd w.procs i { w.procs i with recv := (w.procs i).recv.set k (some (w.read src m)) }
            chan := fun a b => if a = src ∧ b = i then ms else w.chan a b } else none
        | [] => none
      | _, _, _ => none
    else none
  | .finish i =>
    if i < w.n then
      if (w.procs i).recv.all (fun o => o.isSome) then
        match (w.procs i).cur with
        | some v =>
          match takeAll (w.procs i) v ((w.procs i).recv.map (fun o => o.getD [])) with
          | .ok g => some { w with procs := upd w.procs i { w.procs i with g := g, cur := none } }
          | .error _ => none
        | none => none
      else none
    else none

theorem act_step {dflt : F} {w w' : World F R} {a : Act} {late : Bool} (hl : ∀ i, a = .start i false → late = true) (h : act dflt w a = some w') :
    Step late dflt w w' := by
  cases a with
  | start i copy =>
    simp only [act] at h
    split_ifs at h with hi
    split at h
    · rename_i v vs rows hc ht hp
      obtain rfl := Option.some.inj h
      rw [ht] at hp
      exact .start w i v vs rows _ hi hc ht hp (fun _ e => hl i (by rw [e]))
    · cases h
  | deliver i k =>
    simp only [act] at h
    split_ifs at h with hi
    split at h
    · rename_i v src ids hc hb hr
      split at h
      · rename_i m ms hq
        split_ifs at h with hl
        obtain rfl := Option.some.inj h
        exact .deliver w i k src ids v m ms hi hc hb hr hq hl
      · cases h
    · cases h
  | finish i =>
    simp only [act] at h
    split_ifs at h with hi hr
    split at h
    · rename_i v hc
      split at h
      · rename_i g hg
        obtain rfl := Option.some.inj h
        refine .finish w i v _ g hi hc ?_ hg
        rw [List.map_map]
        conv_lhs => rw [← List.map_id (w.procs i).recv]
        apply List.map_congr_left
        intro o ho
        have := List.all_eq_true.1 hr o ho
        cases o with
        | none => cases this
        | some l => rfl
      · cases h
    · cases h

/-- Several steps. -/
def acts (dflt : F) (l : List Act) (w : World F R) : Option (World F R) := l.foldlM (act dflt) w

theorem acts_run_late {dflt : F} {late : Bool} (l : List Act) : ∀ {w w' : World F R}, (∀ i, Act.start i false ∈ l → late = true) →
    acts dflt l w = some w' → Run late dflt w w' := by
  induction l with
  | nil => intro w w' _ h; obtain rfl := Option.some.inj h; exact .refl
  | cons a t ih =>
    intro w w' hl h
    unfold acts at h
    rw [List.foldlM_cons] at h
    cases e : act dflt w a with
    | none => rw [e] at h; cases h
    | some w1 =>
      rw [e] at h
      exact .head (act_step (fun i hi => hl i (by simp [hi])) e) (ih (fun i hi => hl i (List.mem_cons_of_mem _ hi)) h)

theorem acts_run {dflt : F} (l : List Act) {w w' : World F R} (h : acts dflt l w = some w') : Run true dflt w w' :=
  acts_run_late l (fun _ _ => rfl) h

/-- The beginning, when all processes can start. -/
def startWorld (g : Grid F R) (data : Nat → Nat → List (Str × F)) (vars : List Str) : World F R where
  n := g.zones.length
  procs i := ((startProc { g with fData := data i } vars i).toOption).getD ⟨g, zoneVal g, 0, [], [], [], [], none⟩
  chan _ _ := []

theorem startWorld_start (hw : Wf g) (hl : ZoneLists g) (hg : GloPerm g) (ha : NoneAlone g) (data : Nat → Nat → List (Str × F)) (vars : List Str) :
    Start g data vars (startWorld g data vars) := by
  refine ⟨rfl, ?_, fun _ _ => rfl⟩
  intro i hi
  have hi : i < g.zones.length := hi
  have h2 : startProc ({ g with fData := data i } : Grid F R) vars i =
      if bordersOf g i = [] then .error .value else .ok ⟨{ g with fData := data i }, marked g (zn g i), zn g i, bordersOf g i, [], [], vars, none⟩ :=
    startProc_ok (g := { g with fData := data i }) ⟨⟨hw.mesh.1, hw.mesh.2, hw.mesh.3, hw.mesh.4, hw.mesh.5, hw.mesh.6, hw.mesh.7, hw.mesh.8,
      hw.mesh.9, hw.mesh.10, hw.mesh.11, hw.mesh.12, hw.mesh.13, hw.mesh.14, hw.mesh.15⟩, ⟨hw.zones.1, hw.zones.2, hw.zones.3⟩, hw.alloc⟩
      ⟨hl.1, hl.2⟩ ⟨hg.1, hg.2, hg.3⟩ (zn_eq hi) vars
  obtain ⟨j, f, hf⟩ := ha i hi
  obtain ⟨-, -, hn, -⟩ := common_of_ghost hw hf
  rw [if_neg] at h2
  · show startProc ({ g with fData := data i } : Grid F R) vars i = .ok (((startProc { g with fData := data i } vars i).toOption).getD _)
    rw [h2]; rfl
  · intro e
    unfold bordersOf at e
    rw [List.map_eq_nil_iff] at e
    rw [e] at hn
    cases hn

/-! ### The gathered array -/

/-- The pairs written by the loop. -/
def gatherPairs (g : Grid F R) (his : List (List F)) (q : Nat × Nat) : List (Nat × F) :=
  (g.zFaces q.1).zip ((his.flatten.drop (q.2 * ((his[q.2]?).getD []).length)).take ((his[q.2]?).getD []).length)

theorem fold_setData (v : Str) (l : List (Nat × F)) : ∀ g : Grid F R,
    l.foldl (fun g p => g.setData p.1 v p.2) g = { g with fData := setAll v l g.fData } := by
  induction l with
  | nil => intro g; rfl
  | cons p t ih => intro g; rw [List.foldl_cons, ih]; rfl

theorem gather_slice (his : List (List F)) (i : Nat) (c : Nat) :
    Py.slice his.flatten (some ((i : Int) * (c : Int))) (some (((i : Int) + 1) * (c : Int))) = (his.flatten.drop (i * c)).take c := by
  have h1 : (i : Int) * (c : Int) = ((i * c : Nat) : Int) := by push_cast; rfl
  have h2 : ((i : Int) + 1) * (c : Int) = ((i * c + c : Nat) : Int) := by push_cast; ring
  rw [h1, h2, slice_nat]
  congr 1
  omega

theorem scatter_eq (g : Grid F R) (his : List (List F)) :
    scatter g his = { g with fData := setAll "Hi".toList (g.zones.zipIdx.flatMap (gatherPairs g his)) g.fData } := by
  unfold scatter
  have : ∀ (l : List (Nat × Nat)) (d : Nat → List (Str × F)), l.foldl (fun (g : Grid F R) q =>
      let c : Int := ((his[q.2]?).getD []).length
      ((g.zFaces q.1).zip (Py.slice his.flatten (some ((q.2 : Int) * c)) (some (((q.2 : Int) + 1) * c)))).foldl
        (fun g p => g.setData p.1 "Hi".toList p.2) g) { g with fData := d } =
      { g with fData := setAll "Hi".toList (l.flatMap (gatherPairs g his)) d } := by
    intro l
    induction l with
    | nil => intro d; rfl
    | cons q t ih =>
      intro d
      rw [List.foldl_cons, List.flatMap_cons, setAll_append]
      simp only [gather_slice, fold_setData] at ih ⊢
      exact ih _
  exact this g.zones.zipIdx g.fData

theorem zipIdx_mem {α : Type} {l : List α} {q : α × Nat} : q ∈ l.zipIdx ↔ l[q.2]? = some q.1 := by
  rw [show q = (q.1, q.2) from rfl, List.mk_mem_zipIdx_iff_getElem?]

/-- What the loop does: the face number `p` of zone number `i` gets the value number `i * c + p` of the gathered array, if there is one. -/
theorem scatter_spec (hw : Wf g) (his : List (List F)) {i z p f : Nat} {h : List F} (hz : g.zones[i]? = some z) (hf : (g.zFaces z)[p]? = some f)
    (hh : his[i]? = some h) (hlen : h.length = (g.zFaces z).length) :
    (∀ x, his.flatten[i * h.length + p]? = some x → Py.dictGet? ((scatter g his).fData f) "Hi".toList = some x) ∧
    (his.flatten[i * h.length + p]? = none → (scatter g his).fData f = g.fData f) := by
  rw [scatter_eq]
  simp only
  have hzm := List.mem_of_getElem? hz
  have hfm := List.mem_of_getElem? hf
  have hpl : p < h.length := by rw [hlen]; exact (List.getElem?_eq_some_iff.1 hf).1
  have hmem : ∀ x, (f, x) ∈ g.zones.zipIdx.flatMap (gatherPairs g his) ↔ his.flatten[i * h.length + p]? = some x := by
    intro x
    rw [List.mem_flatMap]
    constructor
    · rintro ⟨q, hq, hx⟩
      rw [zipIdx_mem] at hq
      unfold gatherPairs at hx
      obtain ⟨k, hk⟩ := List.getElem?_of_mem hx
      rw [List.getElem?_zip_eq_some] at hk
      have h1 := hw.zones.points _ (List.mem_of_getElem? hq) f (List.mem_of_getElem? hk.1)
      rw [hw.zones.points _ hzm f hfm] at h1
      have e1 : z = q.1 := Option.some.inj h1
      rw [← e1] at hq hk
      have e2 : q.2 = i := by
        obtain ⟨l1, g1⟩ := List.getElem?_eq_some_iff.1 hq
        obtain ⟨l2, g2⟩ := List.getElem?_eq_some_iff.1 hz
        exact (List.Nodup.getElem_inj_iff hw.zones.zones_nodup).1 (g1.trans g2.symm)
      have e3 : k = p := by
        obtain ⟨l1, g1⟩ := List.getElem?_eq_some_iff.1 hk.1
        obtain ⟨l2, g2⟩ := List.getElem?_eq_some_iff.1 hf
        exact (List.Nodup.getElem_inj_iff (Grid.zFaces_nodup hw.zones hw.mesh hzm)).1 (g1.trans g2.symm)
      rw [e2, e3, hh] at hk
      have := hk.2
      simp only [Option.getD_some] at this
      rw [List.getElem?_take_of_lt hpl, List.getElem?_drop] at this
      exact this
    · intro hx
      refine ⟨(z, i), zipIdx_mem.2 hz, ?_⟩
      unfold gatherPairs
      rw [hh]
      simp only [Option.getD_some]
      apply List.mem_of_getElem? (i := p)
      rw [List.getElem?_zip_eq_some]
      refine ⟨hf, ?_⟩
      rw [List.getElem?_take_of_lt hpl, List.getElem?_drop]
      exact hx
  constructor
  · intro x hx
    rcases (setAll_spec "Hi".toList (g.zones.zipIdx.flatMap (gatherPairs g his)) g.fData).2 f with ⟨y, hy, e⟩ | ⟨hn, -⟩
    · rw [e, ← (hmem y).1 hy, hx]
    · exact absurd ((hmem x).2 hx) (hn x)
  · intro hx
    rcases (setAll_spec "Hi".toList (g.zones.zipIdx.flatMap (gatherPairs g his)) g.fData).2 f with ⟨y, hy, e⟩ | ⟨-, e⟩
    · rw [(hmem y).1 hy] at hx; cases hx
    · exact e

theorem flatten_get {α : Type} (l : List (List α)) : ∀ (i p : Nat) (h : List α), l[i]? = some h → p < h.length →
    l.flatten[((l.take i).map List.length).sum + p]? = h[p]? := by
  induction l with
  | nil => intro i p h hi; cases hi
  | cons a t ih =>
    intro i p h hi hp
    cases i with
    | zero =>
      obtain rfl : a = h := Option.some.inj hi
      simp [List.getElem?_append_left hp]
    | succ i =>
      rw [List.flatten_cons, List.take_succ_cons, List.map_cons, List.sum_cons, Nat.add_assoc, List.getElem?_append_right (by omega),
        Nat.add_sub_cancel_left]
      exact ih i p h hi hp

end Verif
