import Verif.Proofs.Cry
import Verif.Props.Mpi
import Verif.Props.Text

/-! # C116 The text of a `.cry` file -/

namespace Verif.Props
open Grid
variable {F R : Type}

theorem mpiFileOf_shape (g : Grid F R) (dflt : F) (z i : Nat) : Cry.Shape (mpiFileOf g dflt z i) := by
  refine ⟨⟨rfl, ?_⟩, ?_, ⟨rfl, ?_⟩, ?_, ?_, ?_, ?_⟩ <;> simp [mpiFileOf, coordSlice, dataSlice, mpiVars]

/-- The files `store_mpi` writes, one for each zone, are read back by a program that takes the lines in order and counts
them by the numbers in the head; what it gets is what the other properties of `store_mpi` (C18 to C21) are about. -/
theorem C116_reads_back (c : Codec F) (hc : c.Lawful) (g : Grid F R) (hw : Wf g) (hl : ZoneLists g) (hg : GloPerm g)
    (hn : ∀ z ∈ g.zones, '\n' ∉ g.zName z ∧ '\r' ∉ g.zName z) (dflt : F) :
    ∃ files, g.storeMpi dflt = .ok files ∧ files.length = g.zones.length ∧
      ∀ (i : Nat) (m : MpiFile F), files[i]? = some m → Cry.read c (m.render c.fmt) = some m := by
  refine ⟨_, storeMpi_spec hw hl hg dflt, by simp, ?_⟩
  intro i m hm
  rw [List.getElem?_map] at hm
  obtain ⟨⟨z, j⟩, h1, rfl⟩ := Option.map_eq_some_iff.1 hm
  have h2 := List.mem_zipIdx_iff_getElem?.1 (List.mem_of_getElem? h1)
  have := hn z (List.mem_of_getElem? h2)
  exact Cry.read_ok hc this.1 this.2 (mpiFileOf_shape g dflt z j)

/-- What the reader finds, in terms of the zone: its name and number, the numbers of nodes, edges and faces, the
coordinates of the nodes, the identifiers of the faces and eleven rows of values of the faces, zero where a face has no
value of this name. -/
theorem C116_contents (c : Codec F) (hc : c.Lawful) (g : Grid F R) (hw : Wf g) (hl : ZoneLists g) (hg : GloPerm g)
    (hn : ∀ z ∈ g.zones, '\n' ∉ g.zName z ∧ '\r' ∉ g.zName z) (dflt : F) (files : List (MpiFile F)) (hm : g.storeMpi dflt = .ok files)
    (i z : Nat) (hz : g.zones[i]? = some z) :
    ∃ m r, files[i]? = some m ∧ Cry.read c (m.render c.fmt) = some r ∧ r.title = g.zName z ∧ r.mpi = i ∧
      r.nodesCount = (g.zNodes z).length ∧ r.edgesCount = (g.zEdges z).length ∧ r.facesCount = (g.zFaces z).length ∧
      r.coords = [(g.zNodes z).map (fun n => (g.nP n).x), (g.zNodes z).map (fun n => (g.nP n).y), (g.zNodes z).map (fun n => (g.nP n).z)] ∧
      r.gloIds = (g.zFaces z).map g.fGlo ∧
      r.data = ["T", "Hw", "Hi", "HTC", "Beta", "MImp2", "Vd2", "TauX", "TauY", "TauZ", "RecoveryFactor"].map (fun v =>
        (g.zFaces z).map (fun f => (Py.dictGet? (g.fData f) v.toList).getD dflt)) := by
  rw [storeMpi_spec hw hl hg dflt] at hm
  obtain rfl := (Except.ok.inj hm).symm
  have := hn z (List.mem_of_getElem? hz)
  refine ⟨mpiFileOf g dflt z i, _, ?_, Cry.read_ok hc this.1 this.2 (mpiFileOf_shape g dflt z i), rfl, rfl, rfl, rfl, rfl, rfl, rfl, rfl⟩
  rw [List.getElem?_map, List.getElem?_zipIdx, hz]
  simp

/-- Zones with different contents have different texts. -/
theorem C116_injective (c : Codec F) (hc : c.Lawful) (g g' : Grid F R) (hw : Wf g) (hl : ZoneLists g) (hg : GloPerm g)
    (hn : ∀ z ∈ g.zones, '\n' ∉ g.zName z ∧ '\r' ∉ g.zName z) (hw' : Wf g') (hl' : ZoneLists g') (hg' : GloPerm g')
    (hn' : ∀ z ∈ g'.zones, '\n' ∉ g'.zName z ∧ '\r' ∉ g'.zName z) (dflt : F) (files files' : List (MpiFile F))
    (h : g.storeMpi dflt = .ok files) (h' : g'.storeMpi dflt = .ok files')
    (he : files.map (MpiFile.render c.fmt) = files'.map (MpiFile.render c.fmt)) : files = files' := by
  obtain ⟨fs, e1, -, r1⟩ := C116_reads_back c hc g hw hl hg hn dflt
  obtain ⟨fs', e2, -, r2⟩ := C116_reads_back c hc g' hw' hl' hg' hn' dflt
  obtain rfl := Except.ok.inj (h.symm.trans e1)
  obtain rfl := Except.ok.inj (h'.symm.trans e2)
  apply List.ext_getElem?
  intro i
  have hi : (files.map (MpiFile.render c.fmt))[i]? = (files'.map (MpiFile.render c.fmt))[i]? := by rw [he]
  rw [List.getElem?_map, List.getElem?_map] at hi
  cases h1 : files[i]? with
  | none =>
    rw [h1] at hi
    cases h2 : files'[i]? with
    | none => rfl
    | some m' => rw [h2] at hi; cases hi
  | some m =>
    rw [h1] at hi
    cases h2 : files'[i]? with
    | none => rw [h2] at hi; cases hi
    | some m' =>
      rw [h2] at hi
      have e : m.render c.fmt = m'.render c.fmt := Option.some.inj hi
      have a := r1 i m h1
      rw [e, r2 i m' h2] at a
      exact a.symm

/-- The hypotheses are met by the sample grid with two zones. -/
example : Wf Sample.grid ∧ ZoneLists Sample.grid ∧ GloPerm Sample.grid ∧ intCodec.Lawful ∧ Sample.grid.zones.length = 2 ∧
    ∀ z ∈ Sample.grid.zones, '\n' ∉ Sample.grid.zName z ∧ '\r' ∉ Sample.grid.zName z :=
  ⟨Sample.wf, Sample.loaded.2.lists, Sample.loaded.2.glo.perm, intCodec_lawful, by rw [Sample.zones]; rfl, by
    rw [Sample.zones]; decide +kernel⟩

end Verif.Props
