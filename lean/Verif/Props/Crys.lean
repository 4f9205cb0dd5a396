import Verif.Proofs.Crys4
import Verif.Proofs.Explode
import Verif.Proofs.Sample
import Mathlib.Algebra.Field.Rat

/-! Properties C58 - C60: exchanges between processes, the gathered array and the explosion of the grid. `Wf`, `ZoneLists` and `GloPerm` are
established for loaded and decomposed grids by `C04_frame`, `C05_history`, `C06_history`. -/

namespace Verif.Props
open Verif Crys
variable {F R : Type}

/-! ## C58 Exchanges -/

/-- Missing for the full property: MPI may read the send buffer after `Isend` has returned (`late = true`); this is harmless for one
exchange, but `crys.py` does three with the same buffer (see `C58_race_violation`).

Whatever the order in which processes run and messages arrive: as soon as a process has finished its exchanges, every face on the far side
of a cross edge has the values that the owner of the face had at the beginning, and nothing else in the grid of the process has changed. -/
theorem C58_exchange_partial (g : Grid F R) (hw : Wf g) (hl : ZoneLists g) (hg : GloPerm g) (data : Nat → Nat → List (Str × F)) (dflt : F)
    (vars : List Str) (late : Bool) (hlate : late = true → vars.length ≤ 1) (w w' : World F R) (hs : Start g data vars w) (hr : Run late dflt w w')
    (i : Nat) (hi : i < g.zones.length) (hd : Done (w'.procs i)) :
    (∀ j f v, GhostOf g i j f → v ∈ vars → Py.dictGet? ((w'.procs i).g.fData f) v = some ((Py.dictGet? (data j f) v).getD dflt)) ∧
    (∀ f v, (∀ j, ¬ GhostOf g i j f) ∨ v ∉ vars → Py.dictGet? ((w'.procs i).g.fData f) v = Py.dictGet? (data i f) v) ∧
    ∃ d, (w'.procs i).g = { g with fData := d } := by
  have h := (ExInv.start (dflt := dflt) hw hl hg hs).run hw hl hlate hr
  have hfin : vars.take (finished vars (w'.procs i)) = vars := by
    unfold finished sent
    rw [hd.1, hd.2, if_pos rfl]
    simp
  refine ⟨fun j f v hf hv => ?_, fun f v hf => ?_, ?_⟩
  · exact h.got i hi j f v hf (by rw [hfin]; exact hv)
  · exact h.keep i hi f v (by rw [hfin]; exact hf)
  · obtain ⟨d, hd⟩ := h.fixed i hi
    exact ⟨d, hd.grid⟩

/-- There is no deadlock: as long as some process has not finished, some step is possible. -/
theorem C58_no_deadlock (g : Grid F R) (hw : Wf g) (hl : ZoneLists g) (hg : GloPerm g) (data : Nat → Nat → List (Str × F)) (dflt : F)
    (vars : List Str) (late : Bool) (hlate : late = true → vars.length ≤ 1) (w w' : World F R) (hs : Start g data vars w) (hr : Run late dflt w w')
    (hn : ∃ i < g.zones.length, ¬ Done (w'.procs i)) : ∃ w'', Step late dflt w' w'' := by
  have h := (ExInv.start (dflt := dflt) hw hl hg hs).run hw hl hlate hr
  obtain ⟨i, hi, hd⟩ := hn
  exact h.progress hw hl late ⟨i, h.n ▸ hi, hd⟩

/-- There is no infinite execution. -/
theorem C58_terminates (late : Bool) (dflt : F) (w : Nat → World F R) : ¬ ∀ k, Step late dflt (w k) (w (k + 1)) := by
  intro h
  have : ∀ k, worldLeft (w k) + k ≤ worldLeft (w 0) := by
    intro k
    induction k with
    | zero => simp
    | succ k ih => have := step_decreases (h k); omega
  have := this (worldLeft (w 0) + 1)
  omega

/-- So the exchanges always come to an end in which all processes have finished. -/
theorem C58_all_finish (g : Grid F R) (hw : Wf g) (hl : ZoneLists g) (hg : GloPerm g) (data : Nat → Nat → List (Str × F)) (dflt : F)
    (vars : List Str) (late : Bool) (hlate : late = true → vars.length ≤ 1) (w w' : World F R) (hs : Start g data vars w) (hr : Run late dflt w w') :
    ∃ w'', Run late dflt w' w'' ∧ ∀ i < g.zones.length, Done (w''.procs i) := by
  induction hm : worldLeft w' using Nat.strong_induction_on generalizing w' with
  | _ m ih =>
    by_cases hn : ∃ i < g.zones.length, ¬ Done (w'.procs i)
    · obtain ⟨w1, h1⟩ := C58_no_deadlock g hw hl hg data dflt vars late hlate w w' hs hr hn
      obtain ⟨w2, h2, h3⟩ := ih (worldLeft w1) (hm ▸ step_decreases h1) w1 (hr.tail h1) rfl
      exact ⟨w2, .head h1 h2, h3⟩
    · exact ⟨w', .refl, fun i hi => by by_contra hc; exact hn ⟨i, hi, hc⟩⟩

/-- All processes can start when every zone has a neighbour. -/
theorem C58_start (g : Grid F R) (hw : Wf g) (hl : ZoneLists g) (hg : GloPerm g) (ha : NoneAlone g) (data : Nat → Nat → List (Str × F))
    (vars : List Str) : ∃ w, Start g data vars w := ⟨_, startWorld_start hw hl hg ha data vars⟩

/-- A process whose zone has no neighbour ends with `ValueError` (the largest of no lengths). -/
theorem C58_isolated (g : Grid F R) (hw : Wf g) (hl : ZoneLists g) (hg : GloPerm g) (vars : List Str) (i : Nat) (hi : i < g.zones.length)
    (ha : ∀ j f, ¬ GhostOf g i j f) : startProc g vars i = .error .value := by
  rw [startProc_ok hw hl hg (zn_eq hi), if_pos]
  unfold bordersOf
  rw [List.map_eq_nil_iff, List.eq_nil_iff_forall_not_mem]
  intro j hj
  obtain ⟨-, hjl, hne⟩ := neighbours_symm hw hi hj
  have := (mem_neighbours hw (zn_eq hi) (zn_eq hjl)).1 hj
  obtain ⟨-, e, he, a, b, hab, hza, hzb⟩ := this
  exact ha j b ⟨fun h => hne h.symm, _, _, e, a, zn_eq hi, zn_eq hjl, he, hab, hza, hzb⟩

/-- Without the loop that replaces the zones of faces by numbers, no real and no ghost face is ever found: a zone object is compared with a
number. -/
theorem C58_without_marking (g : Grid F R) (z : Nat) (e : Int) (f : Nat) :
    realFace g (zoneVal g) z e ≠ .ok f ∧ ghostFace g (zoneVal g) z e ≠ .ok f := by
  have h : ∀ f i, zoneVal g f ≠ .num i := by
    intro f i
    unfold zoneVal
    split <;> simp
  constructor
  · unfold realFace
    cases hx : Py.get (g.zEdges z) e with
    | error x => rw [res_bind_error]; simp
    | ok e =>
      rw [res_bind_ok]
      simp only [h, if_false]
      split <;> simp
  · unfold ghostFace
    cases hx : Py.get (g.zEdges z) e with
    | error x => rw [res_bind_error]; simp
    | ok e =>
      rw [res_bind_ok]
      simp only [h, if_false]
      split <;> simp

/-- The data of the example: the values of `T` are the numbers of faces, the values of `Hi` are 100 more. -/
def raceData (_ f : Nat) : List (Str × Int) := [("T".toList, f), ("Hi".toList, 100 + f)]

theorem sample_ghost : GhostOf Sample.grid 0 1 2 ∧ GhostOf Sample.grid 1 0 1 := by
  constructor
  · refine ⟨by decide, 0, 1, 3, 1, ?_⟩; decide +kernel
  · refine ⟨by decide, 1, 0, 3, 2, ?_⟩; decide +kernel

theorem sample_alone : NoneAlone Sample.grid := by
  intro i hi
  rw [Sample.zones] at hi
  have : i = 0 ∨ i = 1 := by simp at hi; omega
  rcases this with rfl | rfl
  · exact ⟨1, 2, sample_ghost.1⟩
  · exact ⟨0, 1, sample_ghost.2⟩

/-- The hypotheses of the theorems above can be met by a grid with two zones. -/
example : Wf Sample.grid ∧ ZoneLists Sample.grid ∧ GloPerm Sample.grid ∧ NoneAlone Sample.grid ∧
    (∃ w, Start Sample.grid raceData ["T".toList] w) ∧ GhostOf Sample.grid 1 0 1 :=
  ⟨Sample.wf, Sample.loaded.2.lists, Sample.loaded.2.glo.perm, sample_alone,
    C58_start _ Sample.wf Sample.loaded.2.lists Sample.loaded.2.glo.perm sample_alone _ _, sample_ghost.2⟩

/-- If the contents of messages may be read late, two exchanges can go wrong: process 0 refills its buffer with `Hi` before its message with
`T` was read, and process 1 ends with the ice height of face 1 as the temperature of face 1. -/
theorem C58_race_violation : ∃ w w' : World Int (Int × Int × Int), Start Sample.grid raceData ["T".toList, "Hi".toList] w ∧ Run true 0 w w' ∧
    (∀ i < Sample.grid.zones.length, Done (w'.procs i)) ∧ GhostOf Sample.grid 1 0 1 ∧
    Py.dictGet? (raceData 0 1) "T".toList = some 1 ∧ Py.dictGet? ((w'.procs 1).g.fData 1) "T".toList = some 101 := by
  obtain ⟨l, hl⟩ : ∃ l : List Act, l = [.start 0 false, .start 1 true, .deliver 0 0, .finish 0, .start 0 true, .deliver 1 0, .finish 1,
    .start 1 true, .deliver 1 0, .finish 1, .deliver 0 0, .finish 0] := ⟨_, rfl⟩
  have hk : ((acts (0 : Int) l (startWorld Sample.grid raceData ["T".toList, "Hi".toList])).map (fun w =>
      ((w.procs 0).cur, (w.procs 0).todo, (w.procs 1).cur, (w.procs 1).todo, Py.dictGet? ((w.procs 1).g.fData 1) "T".toList))) =
      some (none, [], none, [], some 101) := by
    subst hl
    have he : ∀ o : Option (Option Str × List Str × Option Str × List Str × Option Int), o = some (none, [], none, [], some 101) ↔
        (match o with | some (none, [], none, [], some x) => decide (x = 101) | _ => false) = true := by
      intro o
      split <;> simp_all
    rw [he]
    decide +kernel
  cases hw : acts (0 : Int) l (startWorld Sample.grid raceData ["T".toList, "Hi".toList]) with
  | none => rw [hw] at hk; cases hk
  | some w' =>
    rw [hw] at hk
    simp only [Option.map_some, Option.some.injEq, Prod.mk.injEq] at hk
    refine ⟨_, w', startWorld_start Sample.wf Sample.loaded.2.lists Sample.loaded.2.glo.perm sample_alone _ _, acts_run l hw, ?_, sample_ghost.2,
      by decide, hk.2.2.2.2⟩
    intro i hi
    rw [Sample.zones] at hi
    have : i = 0 ∨ i = 1 := by simp at hi; omega
    rcases this with rfl | rfl
    · exact ⟨hk.1, hk.2.1⟩
    · exact ⟨hk.2.2.1, hk.2.2.2.1⟩

/-! ## C59 The gathered array -/

/-- Every process sends one value for each of its faces. -/
def OnePerFace (g : Grid F R) (his : List (List F)) : Prop :=
  List.Forall₂ (fun z (h : List F) => h.length = (g.zFaces z).length) g.zones his

/-- The values of process `i` are on the faces of zone `i`. -/
def RightZone (g : Grid F R) (his : List (List F)) (d : Nat → List (Str × F)) (i : Nat) : Prop :=
  ∀ (z : Nat) (h : List F) (p f : Nat) (x : F), g.zones[i]? = some z → his[i]? = some h → (g.zFaces z)[p]? = some f → h[p]? = some x → Py.dictGet? (d f) "Hi".toList = some x

/-- Missing for the full property: zones for which the values do not begin at the place `i * (number of faces of the zone)` of the gathered
array (see `C59_exactly`).

The values of the processes are put on the right faces of zone `i` if they begin at this place. -/
theorem C59_gather_partial (g : Grid F R) (hw : Wf g) (his : List (List F)) (ho : OnePerFace g his) (i : Nat)
    (hi : ∀ h, his[i]? = some h → ((his.take i).map List.length).sum = i * h.length) : RightZone g his (scatter g his).fData i := by
  intro z h p f x hz hh hf hx
  have hlen : h.length = (g.zFaces z).length := by
    obtain ⟨l1, g1⟩ := List.getElem?_eq_some_iff.1 hz
    obtain ⟨l2, g2⟩ := List.getElem?_eq_some_iff.1 hh
    have := (List.forall₂_iff_get.1 ho).2 i l1 l2
    simpa only [List.get_eq_getElem, g1, g2] using this
  refine (scatter_spec hw his hz hf hh hlen).1 x ?_
  rw [← hi h hh, flatten_get his i p h hh (List.getElem?_eq_some_iff.1 hx).1]
  exact hx

/-- In particular everything is right when all zones have the same number of faces. -/
theorem C59_equal_zones (g : Grid F R) (hw : Wf g) (his : List (List F)) (ho : OnePerFace g his) (c : Nat)
    (hc : ∀ z ∈ g.zones, (g.zFaces z).length = c) (i : Nat) : RightZone g his (scatter g his).fData i := by
  have hl : ∀ h ∈ his, h.length = c := by
    intro h hh
    obtain ⟨j, hj⟩ := List.getElem?_of_mem hh
    obtain ⟨l2, g2⟩ := List.getElem?_eq_some_iff.1 hj
    have l1 : j < g.zones.length := by rw [ho.length_eq]; exact l2
    have := (List.forall₂_iff_get.1 ho).2 j l1 l2
    simp only [List.get_eq_getElem, g2] at this
    rw [this]
    exact hc _ (List.getElem_mem l1)
  apply C59_gather_partial g hw his ho i
  intro h hh
  have h1 : (his.take i).map List.length = List.replicate i c := by
    rw [List.eq_replicate_iff]
    refine ⟨?_, ?_⟩
    · have := (List.getElem?_eq_some_iff.1 hh).1
      simp; omega
    · intro b hb
      obtain ⟨a, ha, rfl⟩ := List.mem_map.1 hb
      exact hl a (List.mem_of_mem_take ha)
  rw [h1, hl h (List.mem_of_getElem? hh)]
  simp

/-- When all values are different and new, zone `i` with at least one face is right exactly in this case. -/
theorem C59_exactly (g : Grid F R) (hw : Wf g) (his : List (List F)) (ho : OnePerFace g his) (hd : his.flatten.Nodup)
    (hnew : ∀ f ∈ g.faces, ∀ x ∈ his.flatten, Py.dictGet? (g.fData f) "Hi".toList ≠ some x) (i : Nat) (h : List F) (hh : his[i]? = some h) (hne : h ≠ []) :
    RightZone g his (scatter g his).fData i ↔ ((his.take i).map List.length).sum = i * h.length := by
  constructor
  · intro hr
    obtain ⟨l2, g2⟩ := List.getElem?_eq_some_iff.1 hh
    have l1 : i < g.zones.length := by rw [ho.length_eq]; exact l2
    have hlen := (List.forall₂_iff_get.1 ho).2 i l1 l2
    simp only [List.get_eq_getElem, g2] at hlen
    have h0 : 0 < h.length := List.length_pos_iff.2 hne
    have hz := List.getElem?_eq_getElem l1
    have hf := List.getElem?_eq_getElem (hlen ▸ h0 : 0 < (g.zFaces g.zones[i]).length)
    have hx := List.getElem?_eq_getElem h0
    have key := hr _ _ 0 _ _ hz hh hf hx
    have hpos := flatten_get his i 0 h hh h0
    obtain ⟨s1, s2⟩ := scatter_spec hw his hz hf hh hlen
    rw [hx] at hpos
    cases hq : his.flatten[i * h.length + 0]? with
    | none =>
      rw [s2 hq] at key
      exact absurd key (hnew _ ((hw.zones.partition.mem_iff).1 (List.mem_flatMap.2 ⟨_, List.mem_of_getElem? hz, List.mem_of_getElem? hf⟩)) _
        (List.mem_of_getElem? hpos))
    | some y =>
      rw [s1 y hq] at key
      rw [Option.some.inj key] at hq
      obtain ⟨l1, g1⟩ := List.getElem?_eq_some_iff.1 hpos
      obtain ⟨l2, g2⟩ := List.getElem?_eq_some_iff.1 hq
      have := (List.Nodup.getElem_inj_iff hd).1 (g1.trans g2.symm)
      simpa using this
  · intro he
    apply C59_gather_partial g hw his ho i
    intro h' hh'
    rw [hh] at hh'
    obtain rfl := Option.some.inj hh'
    exact he

/-- Two zones with two faces and one face: the face of the second zone gets a value of the first zone. -/
theorem C59_violation : OnePerFace Sample.grid [[10, 20], [30]] ∧ Sample.grid.zones[1]? = some 1 ∧ Sample.grid.zFaces 1 = [2] ∧
    Py.dictGet? ((scatter Sample.grid [[10, 20], [30]]).fData 2) "Hi".toList = some 20 := by
  refine ⟨?_, by decide +kernel, by decide +kernel, by decide +kernel⟩
  unfold OnePerFace
  rw [Sample.zones]
  refine .cons ?_ (.cons ?_ .nil) <;> decide +kernel

example : RightZone Sample.grid [[10, 20], [30]] (scatter Sample.grid [[10, 20], [30]]).fData 0 :=
  C59_gather_partial _ Sample.wf _ C59_violation.1 0 (by simp)

example : ¬ RightZone Sample.grid [[10, 20], [30]] (scatter Sample.grid [[10, 20], [30]]).fData 1 := by
  rw [C59_exactly _ Sample.wf _ C59_violation.1 (by decide) ?_ 1 [30] rfl (by simp)]
  · decide
  · intro f hf x hx
    have hall : ∀ f ∈ Sample.grid.faces, Py.dictGet? (Sample.grid.fData f) "Hi".toList = none := by decide +kernel
    rw [hall f hf]
    simp

/-! ## C60 Explosion -/

section Explosion
variable [Field F] [DecidableEq F] [CharZero F]
open Grid

/-- Every zone is moved as a whole: all its nodes by the vector from the mean point of the grid to the mean point of the zone times `k`.
Nodes in no zone stay, and nothing but coordinates changes. -/
theorem C60_explosion (k : F) (g : Grid F R) (hz : g.zones.Nodup) (hn : ∀ z ∈ g.zones, (g.zNodes z).Nodup) (he : ∀ z ∈ g.zones, g.zNodes z ≠ [])
    (h0 : g.nodes ≠ []) (ha : ZonesApart g) :
    ∃ P gm, g.moveFromMeanPoint k = .ok { g with nP := P } ∧ IsMean g.nP g.nodes gm ∧
      (∀ z ∈ g.zones, ∃ m, IsMean g.nP (g.zNodes z) m ∧
        (∀ n ∈ g.zNodes z, P n = ⟨(g.nP n).x + k * (m.x - gm.x), (g.nP n).y + k * (m.y - gm.y), (g.nP n).z + k * (m.z - gm.z)⟩) ∧
        ∃ m', IsMean P (g.zNodes z) m' ∧
          m'.x - gm.x = (1 + k) * (m.x - gm.x) ∧ m'.y - gm.y = (1 + k) * (m.y - gm.y) ∧ m'.z - gm.z = (1 + k) * (m.z - gm.z)) ∧
      ∀ n, (∀ z ∈ g.zones, n ∉ g.zNodes z) → P n = g.nP n := by
  obtain ⟨P, gm, h1, h2, h3, h4⟩ := explode_spec k g hz hn he h0 ha
  refine ⟨P, gm, h1, h2, fun z hzz => ?_, h4⟩
  obtain ⟨m, a1, a2⟩ := h3 z hzz
  refine ⟨m, a1, fun n hnn => ?_, _, isMean_shift a1 a2, ?_, ?_, ?_⟩
  · rw [a2 n hnn]
    simp only [Vec.add, Vec.smul, Vec.sub, mul_comm k]
  all_goals
    simp only [Vec.add, Vec.smul, Vec.sub]
    ring

/-- Distances inside a zone do not change. -/
theorem C60_distances (k : F) (g g' : Grid F R) (hz : g.zones.Nodup) (hn : ∀ z ∈ g.zones, (g.zNodes z).Nodup) (he : ∀ z ∈ g.zones, g.zNodes z ≠ [])
    (h0 : g.nodes ≠ []) (ha : ZonesApart g) (h : g.moveFromMeanPoint k = .ok g') (z : Nat) (hzz : z ∈ g.zones) (n m : Nat)
    (hnn : n ∈ g.zNodes z) (hmm : m ∈ g.zNodes z) :
    (g'.nP n).x - (g'.nP m).x = (g.nP n).x - (g.nP m).x ∧ (g'.nP n).y - (g'.nP m).y = (g.nP n).y - (g.nP m).y ∧
      (g'.nP n).z - (g'.nP m).z = (g.nP n).z - (g.nP m).z := by
  obtain ⟨P, gm, h1, h2, h3, h4⟩ := C60_explosion k g hz hn he h0 ha
  rw [h1] at h
  obtain rfl := Except.ok.inj h
  obtain ⟨c, -, a2, -⟩ := h3 z hzz
  simp only
  rw [a2 n hnn, a2 m hmm]
  refine ⟨?_, ?_, ?_⟩ <;> simp only <;> ring

/-- The mean point of the grid stays where it is, if every node is in exactly one zone. -/
theorem C60_center_stays (k : F) (g g' : Grid F R) (hz : g.zones.Nodup) (hp : (g.zones.flatMap g.zNodes).Perm g.nodes) (hnd : g.nodes.Nodup)
    (he : ∀ z ∈ g.zones, g.zNodes z ≠ []) (h0 : g.nodes ≠ []) (h : g.moveFromMeanPoint k = .ok g') (gm : Vec F) (hm : IsMean g.nP g.nodes gm) :
    IsMean g'.nP g'.nodes gm := by
  have hnd' := (hp.nodup_iff).2 hnd
  rw [List.nodup_flatMap] at hnd'
  have ha : ZonesApart g := by
    intro z hz z' hz' hne n hn hn'
    haveI : Std.Symm (Function.onFun List.Disjoint g.zNodes) := ⟨fun _ _ h _ h1 h2 => h h2 h1⟩
    exact hnd'.2.forall hz hz' hne hn hn'
  obtain ⟨P, gm', h1, h2, h3, h4⟩ := C60_explosion k g hz (fun z hz => hnd'.1 z hz) he h0 ha
  obtain rfl := isMean_unique hm h2
  rw [h1] at h
  obtain rfl := Except.ok.inj h
  have key : ∀ (c : Vec F → F), (∀ z ∈ g.zones, ∃ m : F, ((g.zNodes z).map (fun n => c (g.nP n))).sum = (g.zNodes z).length * m ∧
      ∀ n ∈ g.zNodes z, c (P n) = c (g.nP n) + k * (m - c gm)) → (g.nodes.map (fun n => c (g.nP n))).sum = g.nodes.length * c gm →
      (g.nodes.map (fun n => c (P n))).sum = g.nodes.length * c gm := by
    intro c hc hs
    have e1 : ∀ zs : List Nat, (∀ z ∈ zs, z ∈ g.zones) → ((zs.flatMap g.zNodes).map (fun n => c (P n))).sum =
        (1 + k) * ((zs.flatMap g.zNodes).map (fun n => c (g.nP n))).sum - k * (((zs.flatMap g.zNodes).length : F) * c gm) := by
      intro zs
      induction zs with
      | nil => intro _; simp
      | cons z t ih =>
        intro hzs
        obtain ⟨m, b1, b2⟩ := hc z (hzs z List.mem_cons_self)
        rw [List.flatMap_cons, List.map_append, List.map_append, List.sum_append, List.sum_append, List.length_append,
          ih (fun w hw => hzs w (List.mem_cons_of_mem _ hw)), sum_shift _ (fun n => c (g.nP n)) (fun n => c (P n)) _ b2, b1]
        push_cast
        ring
    have e2 := e1 g.zones (fun _ h => h)
    rw [(hp.map _).sum_eq, (hp.map _).sum_eq, hp.length_eq, hs] at e2
    rw [e2]
    ring
  refine ⟨h0, ?_, ?_, ?_⟩
  · refine key (·.x) (fun z hzz => ?_) hm.2.1
    obtain ⟨m, a1, a2, -⟩ := h3 z hzz
    exact ⟨m.x, a1.2.1, fun n hn => by rw [a2 n hn]⟩
  · refine key (·.y) (fun z hzz => ?_) hm.2.2.1
    obtain ⟨m, a1, a2, -⟩ := h3 z hzz
    exact ⟨m.y, a1.2.2.1, fun n hn => by rw [a2 n hn]⟩
  · refine key (·.z) (fun z hzz => ?_) hm.2.2.2
    obtain ⟨m, a1, a2, -⟩ := h3 z hzz
    exact ⟨m.z, a1.2.2.2, fun n hn => by rw [a2 n hn]⟩

/-- A grid without nodes and a zone without nodes: division by zero. -/
theorem C60_no_nodes (k : F) (g : Grid F R) :
    (g.nodes = [] → g.moveFromMeanPoint k = .error .zeroDiv) ∧
    (g.nodes ≠ [] → (∃ z ∈ g.zones, g.zNodes z = []) → g.moveFromMeanPoint k = .error .zeroDiv) := by
  constructor
  · intro h
    unfold moveFromMeanPoint
    rw [h, meanP_nil, res_bind_error]
  · rintro h ⟨z, hz, hzn⟩
    obtain ⟨gm, h1, -⟩ := meanP_ok g h
    unfold moveFromMeanPoint
    rw [h1, res_bind_ok]
    have : ∀ zs : List Nat, z ∈ zs → ∀ P : Nat → Vec F, zs.foldlM (explodeZone gm k) ({ g with nP := P } : Grid F R) = .error .zeroDiv := by
      intro zs
      induction zs with
      | nil => intro h; cases h
      | cons a t ih =>
        intro hzt P
        rw [List.foldlM_cons]
        by_cases ha : g.zNodes a = []
        · have : explodeZone gm k ({ g with nP := P } : Grid F R) a = .error .zeroDiv := by
            unfold explodeZone
            show (meanP ({ g with nP := P } : Grid F R) (g.zNodes a) >>= _) = _
            rw [ha, meanP_nil, res_bind_error]
          rw [this, res_bind_error]
        · obtain ⟨m, hm, -⟩ := meanP_ok ({ g with nP := P } : Grid F R) ha
          have hs : ∀ (s : Vec F) (ns : List Nat) (P : Nat → Vec F), ∃ P', ns.foldl (shiftNode s) ({ g with nP := P } : Grid F R) = { g with nP := P' } := by
            intro s ns
            induction ns with
            | nil => intro P; exact ⟨P, rfl⟩
            | cons b u ih => intro P; exact ih _
          obtain ⟨P', hP⟩ := hs ((m.sub gm).smul k) (g.zNodes a) P
          have : explodeZone gm k ({ g with nP := P } : Grid F R) a = .ok { g with nP := P' } := by
            unfold explodeZone
            show (meanP ({ g with nP := P } : Grid F R) (g.zNodes a) >>= _) = _
            rw [hm, res_bind_ok]
            exact congrArg _ hP
          rw [this, res_bind_ok]
          refine ih ?_ P'
          rcases List.mem_cons.1 hzt with e | e
          · exact absurd (e ▸ hzn) ha
          · exact e
    exact this g.zones hz g.nP

/-- From the file: a grid that was loaded without merging nodes and has no empty zones can be exploded and every zone keeps its form. -/
theorem C60_loaded [DecidableEq R] (rc : Vec F → R) (blocks : List (ZoneBlock F)) (g : Grid F R) (hv : ∀ b ∈ blocks, b.Valid)
    (hd : NonDegenerate rc false blocks) (hp : ZonePoints rc false blocks) (ho : ¬ OverShared rc false blocks) (hb : blocks ≠ [])
    (hf : ∀ b ∈ blocks, b.faces ≠ []) (k : F) :
    ∃ g' g'', loadBlocks rc false g blocks = .ok g' ∧ g'.moveFromMeanPoint k = .ok g'' ∧ g''.zones.length = blocks.length ∧
      ∀ z ∈ g'.zones, ∀ n ∈ g'.zNodes z, ∀ m ∈ g'.zNodes z,
        (g''.nP n).x - (g''.nP m).x = (g'.nP n).x - (g'.nP m).x ∧ (g''.nP n).y - (g''.nP m).y = (g'.nP n).y - (g'.nP m).y ∧
        (g''.nP n).z - (g''.nP m).z = (g'.nP n).z - (g'.nP m).z := by
  rcases load_spec rc false g blocks hv hd hp with ⟨h, -⟩ | ⟨-, g', h1, hL⟩
  · exact absurd h ho
  have hnd : ∀ z ∈ g'.zones, (g'.zNodes z).Nodup := by
    intro z hz
    rw [hL.lists.nodes z hz]
    exact hL.mesh.nodes_nodup.filter _
  have hne : ∀ z ∈ g'.zones, g'.zNodes z ≠ [] := by
    intro z hz
    obtain ⟨i, hi⟩ := List.getElem?_of_mem hz
    obtain ⟨i1, i2⟩ := List.getElem?_eq_some_iff.1 hi
    have hbl : i < blocks.length := by rw [hL.rep.length_eq]; exact i1
    have hr := (List.forall₂_iff_get.1 hL.rep).2 i hbl i1
    simp only [List.get_eq_getElem, i2] at hr
    have hfl : 0 < (g'.zFaces z).length := by
      have := hr.2.length_eq
      rw [← this]
      exact List.length_pos_iff.2 (hf _ (List.getElem_mem hbl))
    obtain ⟨f, hfz⟩ := List.exists_mem_of_length_pos hfl
    have hff : f ∈ g'.faces := (hL.zones.partition.mem_iff).1 (List.mem_flatMap.2 ⟨z, hz, hfz⟩)
    obtain ⟨n, hn⟩ := List.exists_mem_of_length_pos (l := g'.fNodes f) (by rw [(hL.mesh.face_nodes f hff).1]; omega)
    intro e
    have : n ∈ g'.zNodes z := by
      rw [hL.lists.nodes z hz, List.mem_filter, List.any_eq_true]
      exact ⟨(hL.mesh.face_nodes f hff).2.2 n hn, f, hfz, by simpa using hn⟩
    rw [e] at this
    cases this
  have hz0 : g'.zones ≠ [] := by
    intro e
    have := hL.rep.length_eq
    rw [e] at this
    exact hb (List.length_eq_zero_iff.1 this)
  have h0 : g'.nodes ≠ [] := by
    intro e
    obtain ⟨z, hz⟩ := List.exists_mem_of_ne_nil _ hz0
    have := hne z hz
    rw [hL.lists.nodes z hz, e] at this
    simp at this
  obtain ⟨P, gm, h2, -⟩ := C60_explosion k g' hL.zones.zones_nodup hnd hne h0 (loaded_apart hL)
  refine ⟨g', _, h1, h2, hL.rep.length_eq.symm, fun z hz n hn m hm => ?_⟩
  exact C60_distances k g' _ hL.zones.zones_nodup hnd hne h0 (loaded_apart hL) h2 z hz n m hn hm

end Explosion

/-- Two triangles of two zones with two common points. -/
def twoZones : List (ZoneBlock ℚ) :=
  [ { name := "a".toList, pts := [⟨0, 0, 0⟩, ⟨1, 0, 0⟩, ⟨0, 1, 0⟩], faces := [([], [1, 2, 3])] },
    { name := "b".toList, pts := [⟨1, 0, 0⟩, ⟨0, 1, 0⟩, ⟨1, 1, 0⟩], faces := [([], [1, 3, 2])] } ]

/-- The hypotheses can be met. -/
example : (∀ b ∈ twoZones, b.Valid) ∧ NonDegenerate Sample.rcq false twoZones ∧ ZonePoints Sample.rcq false twoZones ∧ twoZones ≠ [] ∧
    (∀ b ∈ twoZones, b.faces ≠ []) ∧ (Grid.loadBlocks Sample.rcq false Grid.empty twoZones).isOk = true := by
  refine ⟨?_, ?_, ?_, by simp [twoZones], by simp [twoZones], by decide +kernel⟩
  · unfold ZoneBlock.Valid; decide +kernel
  · unfold NonDegenerate; decide +kernel
  · unfold ZonePoints; decide +kernel

/-- When zones share nodes (nodes were merged), zones change their form: nodes 0 and 1 of the first zone. -/
theorem C60_merged_violation : ∃ g g' : Grid ℚ (ℚ × ℚ × ℚ), Grid.loadBlocks Sample.rcq true Grid.empty twoZones = .ok g ∧
    g.moveFromMeanPoint 1 = .ok g' ∧ 0 ∈ g.zNodes 0 ∧ 1 ∈ g.zNodes 0 ∧ 0 ∈ g.zones ∧
    (g'.nP 0).x - (g'.nP 1).x ≠ (g.nP 0).x - (g.nP 1).x := by
  cases h1 : Grid.loadBlocks Sample.rcq true (Grid.empty : Grid ℚ (ℚ × ℚ × ℚ)) twoZones with
  | error e =>
    have : (Grid.loadBlocks Sample.rcq true (Grid.empty : Grid ℚ (ℚ × ℚ × ℚ)) twoZones).isOk = true := by decide +kernel
    rw [h1] at this; cases this
  | ok g =>
    have hk : (match Grid.loadBlocks Sample.rcq true (Grid.empty : Grid ℚ (ℚ × ℚ × ℚ)) twoZones with
        | .error _ => false
        | .ok g => match g.moveFromMeanPoint 1 with
          | .error _ => false
          | .ok g' => decide (0 ∈ g.zNodes 0 ∧ 1 ∈ g.zNodes 0 ∧ 0 ∈ g.zones ∧ (g'.nP 0).x - (g'.nP 1).x ≠ (g.nP 0).x - (g.nP 1).x)) = true := by
      decide +kernel
    rw [h1] at hk
    simp only at hk
    cases h2 : g.moveFromMeanPoint 1 with
    | error e => rw [h2] at hk; cases hk
    | ok g' =>
      rw [h2] at hk
      exact ⟨g, g', rfl, h2, of_decide_eq_true hk⟩

end Verif.Props
