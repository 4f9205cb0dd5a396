import Verif.Proofs.LazuritDir
import Verif.Proofs.Tec2
import Verif.Proofs.Tec3
import Verif.Proofs.Interp
import Mathlib.Data.Finset.Basic
import Mathlib.Tactic.Linarith
import Mathlib.Algebra.Order.Field.Basic

/-! Lemmas for the properties of the converters. -/

namespace Verif
variable {F R : Type}
open Grid

/-! ### Areas -/

section
variable [Field F]

theorem nodePoints3 {z : Ansys.CZone F} {a b c : Nat} (ha : a < z.nodes.length) (hb : b < z.nodes.length) (hc : c < z.nodes.length) :
    nodePoints z [a, b, c] = [z.nodes[a].p, z.nodes[b].p, z.nodes[c].p] := by
  simp [nodePoints, ha, hb, hc]

theorem nodePoints4 {z : Ansys.CZone F} {a b c d : Nat} (ha : a < z.nodes.length) (hb : b < z.nodes.length) (hc : c < z.nodes.length)
    (hd : d < z.nodes.length) : nodePoints z [a, b, c, d] = [z.nodes[a].p, z.nodes[b].p, z.nodes[c].p, z.nodes[d].p] := by
  simp [nodePoints, ha, hb, hc, hd]

theorem polyArea3 (a b c : Vec F) : polyArea [a, b, c] =
    ⟨1 / 2 * (a.y * b.z - a.z * b.y + (b.y * c.z - b.z * c.y) + (c.y * a.z - c.z * a.y)),
     1 / 2 * (a.z * b.x - a.x * b.z + (b.z * c.x - b.x * c.z) + (c.z * a.x - c.x * a.z)),
     1 / 2 * (a.x * b.y - a.y * b.x + (b.x * c.y - b.y * c.x) + (c.x * a.y - c.y * a.x))⟩ := by
  simp only [polyArea, vecScale, sumVec, vecProd]
  simp
  refine ⟨?_, ?_, ?_⟩ <;> left <;> ring

theorem polyArea4 (a b c d : Vec F) : polyArea [a, b, c, d] =
    ⟨1 / 2 * (a.y * b.z - a.z * b.y + (b.y * c.z - b.z * c.y) + (c.y * d.z - c.z * d.y) + (d.y * a.z - d.z * a.y)),
     1 / 2 * (a.z * b.x - a.x * b.z + (b.z * c.x - b.x * c.z) + (c.z * d.x - c.x * d.z) + (d.z * a.x - d.x * a.z)),
     1 / 2 * (a.x * b.y - a.y * b.x + (b.x * c.y - b.y * c.x) + (c.x * d.y - c.y * d.x) + (d.x * a.y - d.y * a.x))⟩ := by
  simp only [polyArea, vecScale, sumVec, vecProd]
  simp
  refine ⟨?_, ?_, ?_⟩ <;> left <;> ring

theorem sumVec2 (u v : Vec F) : sumVec [u, v] = ⟨u.x + v.x, u.y + v.y, u.z + v.z⟩ := by simp [sumVec]

theorem quad_two (a b c d : Vec F) : sumVec [polyArea [a, b, c], polyArea [a, c, d]] = polyArea [a, b, c, d] := by
  rw [sumVec2, polyArea3, polyArea3, polyArea4]
  simp only [Vec.mk.injEq]
  refine ⟨?_, ?_, ?_⟩ <;> ring

theorem quad_rev (a b c d : Vec F) : polyArea [d, c, b, a] = vecScale (-1) (polyArea [a, b, c, d]) := by
  rw [polyArea4, polyArea4]
  simp only [vecScale, Vec.mk.injEq]
  refine ⟨?_, ?_, ?_⟩ <;> ring

theorem quad_ab (a c d : Vec F) : polyArea [a, a, c, d] = polyArea [a, c, d] := by
  rw [polyArea3, polyArea4]
  simp only [Vec.mk.injEq]
  refine ⟨?_, ?_, ?_⟩ <;> ring

theorem quad_bc (a b d : Vec F) : polyArea [a, b, b, d] = polyArea [a, b, d] := by
  rw [polyArea3, polyArea4]
  simp only [Vec.mk.injEq]
  refine ⟨?_, ?_, ?_⟩ <;> ring

theorem quad_cd (a b c : Vec F) : polyArea [a, b, c, c] = polyArea [a, b, c] := by
  rw [polyArea3, polyArea4]
  simp only [Vec.mk.injEq]
  refine ⟨?_, ?_, ?_⟩ <;> ring

theorem quad_da (a b c : Vec F) : polyArea [a, b, c, a] = polyArea [a, b, c] := by
  rw [polyArea3, polyArea4]
  simp only [Vec.mk.injEq]
  refine ⟨?_, ?_, ?_⟩ <;> ring

theorem quad_opposite (a b d : Vec F) : polyArea [a, b, a, d] = ⟨0, 0, 0⟩ := by
  rw [polyArea4]
  simp only [Vec.mk.injEq]
  refine ⟨?_, ?_, ?_⟩ <;> ring

end

/-! ### Reading nodes -/

section
variable [Field F]

theorem triangle_mem {rev : Bool} {q : Quad} {t : List Nat} (h : t ∈ q.triangles rev) : ∀ n ∈ t, n ∈ q.list := by
  intro n hn
  have hc : n ∈ q.corners rev := by
    unfold Quad.triangles at h
    split at h
    · rename_i a b c d e
      rw [e]
      simp only [List.mem_cons, List.not_mem_nil, or_false] at h
      rcases h with rfl | rfl <;> simp only [List.mem_cons, List.not_mem_nil, or_false] at hn ⊢ <;> tauto
    · simp only [List.mem_singleton] at h
      rw [← h]; exact hn
  unfold Quad.corners at hc
  rw [List.mem_eraseDups] at hc
  cases rev
  · simpa using hc
  · simpa using hc

/-- The corners of the faces are nodes of the zone. -/
theorem ZoneReads.corners {c : Codec F} {rev : Bool} {z : TecZone} {cz : Ansys.CZone F} (h : ZoneReads c rev z cz) :
    ∀ f ∈ cz.faces, f.n1 < cz.nodes.length ∧ f.n2 < cz.nodes.length ∧ f.n3 < cz.nodes.length := by
  intro f hf
  obtain ⟨qs, h1, -, h3⟩ := h.elems
  have hm : faceCorners f ∈ qs.flatMap (Quad.triangles rev) := by rw [← h3]; exact List.mem_map_of_mem hf
  obtain ⟨q, hq, ht⟩ := List.mem_flatMap.mp hm
  have hlt : ∀ n ∈ q.list, n < cz.nodes.length := by
    obtain ⟨i, hi, rfl⟩ := List.getElem_of_mem hq
    have hi' : i < z.elems.length := by rw [h1.length_eq]; exact hi
    obtain ⟨_, _, _, _, _, _, _, _, _, hk⟩ := (List.forall₂_iff_get.mp h1).2 i hi' hi
    exact hk
  have := triangle_mem ht
  refine ⟨hlt _ (this _ ?_), hlt _ (this _ ?_), hlt _ (this _ ?_)⟩ <;> simp [faceCorners]

theorem convert_block (rd : F → F) {cz : Ansys.CZone F}
    (h : ∀ f ∈ cz.faces, f.n1 < cz.nodes.length ∧ f.n2 < cz.nodes.length ∧ f.n3 < cz.nodes.length) :
    FaceBlock rd cz (ansysBlock rd cz.convert) := by
  refine ⟨rfl, rfl, ?_⟩
  have hfaces : (ansysBlock rd cz.convert).faces = cz.faces.map (fun f => (meanData rd (cz.node f.n1) (cz.node f.n2) (cz.node f.n3),
      [(f.n1 + 1 : Int), (f.n2 + 1 : Int), (f.n3 + 1 : Int)])) := by
    simp only [ansysBlock, Ansys.CZone.convert, List.map_map]
    rfl
  rw [hfaces, List.forall₂_map_right_iff]
  apply List.forall₂_same.mpr
  intro f hf
  obtain ⟨h1, h2, h3⟩ := h f hf
  refine ⟨cz.nodes[f.n1], cz.nodes[f.n2], cz.nodes[f.n3], List.getElem?_eq_getElem h1, List.getElem?_eq_getElem h2,
    List.getElem?_eq_getElem h3, ?_⟩
  simp [Ansys.CZone.node, h1, h2, h3]

/-- Nodes to faces: the file is read, converted, written and read by the grid reader. -/
theorem nodesToFaces_ok [DecidableEq F] [DecidableEq R] [Inhabited F] [Inhabited R] (rc : Vec F → R) {c out : Codec F} {fmt : F → Str} {rd : F → F}
    (hw : ∀ x, IsWord (fmt x)) (hr : ∀ x, c.parse (fmt x) = .ok (rd x)) (rev : Bool) {f : TecFile} (hf : f.Ok)
    {zs : List (Ansys.CZone F)} (hz : List.Forall₂ (ZoneReads c rev) f.zones zs) (hn : ∀ z ∈ zs, PlainName z.title) :
    ∃ blocks, List.Forall₂ (FaceBlock rd) zs blocks ∧ Ansys.nodesToFaces rc c out fmt rev f.text =
      (Grid.loadBlocks rc true (Grid.empty : Grid F R) blocks).bind (fun g => g.storeText out 0) := by
  refine ⟨(zs.map Ansys.CZone.convert).map (ansysBlock rd), ?_, ?_⟩
  · rw [List.map_map, List.forall₂_map_right_iff]
    apply List.forall₂_same.mpr
    intro z hzm
    apply convert_block
    obtain ⟨i, hi, rfl⟩ := List.getElem_of_mem hzm
    have hi' : i < f.zones.length := by rw [hz.length_eq]; exact hi
    exact ((List.forall₂_iff_get.mp hz).2 i hi' hi).corners
  · unfold Ansys.nodesToFaces
    rw [loadNodes_ok rev hf hz, res_bind_ok, loadText_export rc hw hr true]
    · rfl
    · intro z hz
      obtain ⟨z', h', rfl⟩ := List.mem_map.mp hz
      exact hn z' h'

end

/-! ### Cells of a block -/

theorem links_cells (b : LazBlock F) : Lazurit.links b.I b.J =
    (List.range (b.I - 1)).flatMap (fun i => (List.range (b.J - 1)).flatMap (fun j => b.cell i j)) := by
  unfold Lazurit.links
  rw [show ((b.I : Int) - 1).toNat = b.I - 1 from by omega, show ((b.J : Int) - 1).toNat = b.J - 1 from by omega]
  rfl

theorem node_inj (b : LazBlock F) {i j i' j' : Nat} (hi : i < b.I) (hi' : i' < b.I) (h : b.node i j = b.node i' j') : i = i' ∧ j = j' := by
  unfold LazBlock.node at h
  have h' : i + j * b.I = i' + j' * b.I := by
    have : ((i + j * b.I : Nat) : Int) = ((i' + j' * b.I : Nat) : Int) := by push_cast; omega
    exact_mod_cast this
  have h1 : i = i' := by
    have := congrArg (· % b.I) h'
    simpa [Nat.mod_eq_of_lt hi, Nat.mod_eq_of_lt hi'] using this
  subst h1
  have h2 : j * b.I = j' * b.I := by omega
  exact ⟨rfl, Nat.eq_of_mul_eq_mul_right (by omega) h2⟩

/-- A triangle belongs to one cell and is one of its two triangles. -/
theorem cell_inj (b : LazBlock F) {i j i' j' : Nat} (hi : i < b.I - 1) (hi' : i' < b.I - 1) {t : List Int} (h : t ∈ b.cell i j)
    (h' : t ∈ b.cell i' j') : i = i' ∧ j = j' := by
  have h0 : ∀ i j, t ∈ b.cell i j → t.head? = some (b.node i j) := by
    intro i j ht
    simp only [LazBlock.cell, List.mem_cons, List.not_mem_nil, or_false] at ht
    rcases ht with rfl | rfl <;> rfl
  have := (h0 i j h).symm.trans (h0 i' j' h')
  exact node_inj b (by omega) (by omega) (Option.some.inj this)

theorem cell_nodup (b : LazBlock F) {i j : Nat} (hi : i < b.I - 1) : (b.cell i j).Nodup := by
  simp only [LazBlock.cell, List.nodup_cons, List.mem_singleton, List.not_mem_nil, not_false_eq_true, List.nodup_nil, and_true]
  intro h
  simp only [List.cons.injEq, and_true, true_and] at h
  have := node_inj b (by omega) (by omega) h.1
  omega

theorem cells_nodup (b : LazBlock F) :
    ((List.range (b.I - 1)).flatMap (fun i => (List.range (b.J - 1)).flatMap (fun j => b.cell i j))).Nodup := by
  rw [List.nodup_flatMap]
  refine ⟨?_, ?_⟩
  · intro i hi
    rw [List.mem_range] at hi
    rw [List.nodup_flatMap]
    refine ⟨fun j _ => cell_nodup b hi, ?_⟩
    refine List.Pairwise.imp ?_ List.nodup_range
    intro j j' hne t h h'
    exact hne (cell_inj b hi hi h h').2
  · refine List.Pairwise.imp_of_mem ?_ List.nodup_range
    intro i i' hi hi' hne t h h'
    rw [List.mem_range] at hi hi'
    obtain ⟨j, _, h⟩ := List.mem_flatMap.mp h
    obtain ⟨j', _, h'⟩ := List.mem_flatMap.mp h'
    exact hne (cell_inj b hi hi' h h').1

theorem node_range (b : LazBlock F) {i j : Nat} (hi : i < b.I) (hj : j < b.J) : 1 ≤ b.node i j ∧ b.node i j ≤ (b.I : Int) * b.J := by
  unfold LazBlock.node
  have : i + j * b.I + 1 ≤ b.I * b.J := by
    calc i + j * b.I + 1 ≤ b.I + j * b.I := by omega
      _ = (j + 1) * b.I := by ring
      _ ≤ b.J * b.I := Nat.mul_le_mul_right _ hj
      _ = b.I * b.J := by ring
  have h0 : (0 : Int) ≤ (i : Int) + j * b.I := by positivity
  exact ⟨by omega, by exact_mod_cast this⟩

theorem cells_mem (b : LazBlock F) {t : List Int}
    (h : t ∈ (List.range (b.I - 1)).flatMap (fun i => (List.range (b.J - 1)).flatMap (fun j => b.cell i j))) :
    ∃ i j, i < b.I - 1 ∧ j < b.J - 1 ∧ t ∈ b.cell i j := by
  obtain ⟨i, hi, h⟩ := List.mem_flatMap.mp h
  obtain ⟨j, hj, h⟩ := List.mem_flatMap.mp h
  exact ⟨i, j, List.mem_range.mp hi, List.mem_range.mp hj, h⟩

theorem laz_conns [Neg F] (name : Str) (b : LazBlock F) : ((lazText name b).block lazuritVars).faces.map Prod.snd = Lazurit.links b.I b.J := by
  simp only [ZoneText.block]
  rw [List.map_snd_zip (by simp)]
  rfl

theorem cellsCovered [Neg F] (name : Str) {b : LazBlock F} (hb : b.Ok) : CellsCovered b ((lazText name b).block lazuritVars) := by
  have hmem : ∀ t, t ∈ ((lazText name b).block lazuritVars).faces.map Prod.snd ↔ ∃ i j, i < b.I - 1 ∧ j < b.J - 1 ∧ t ∈ b.cell i j := by
    intro t
    rw [laz_conns, links_cells]
    refine ⟨cells_mem b, ?_⟩
    rintro ⟨i, j, hi, hj, ht⟩
    exact List.mem_flatMap.mpr ⟨i, List.mem_range.mpr hi, List.mem_flatMap.mpr ⟨j, List.mem_range.mpr hj, ht⟩⟩
  refine ⟨(lazWritten name hb).count, ?_, ?_, hmem⟩
  · intro p hp
    obtain ⟨i, j, hi, hj, ht⟩ := (hmem p.2).1 (List.mem_map_of_mem hp)
    have n00 := node_range b (i := i) (j := j) (by omega) (by omega)
    have n01 := node_range b (i := i) (j := j + 1) (by omega) (by omega)
    have n10 := node_range b (i := i + 1) (j := j) (by omega) (by omega)
    have n11 := node_range b (i := i + 1) (j := j + 1) (by omega) (by omega)
    simp only [LazBlock.cell, List.mem_cons, List.not_mem_nil, or_false] at ht
    rcases ht with ht | ht <;> rw [ht] <;> simp only [List.mem_cons, List.not_mem_nil, or_false] <;>
      refine ⟨rfl, ?_⟩ <;> rintro n (rfl | rfl | rfl) <;> assumption
  · rw [laz_conns, links_cells]
    exact cells_nodup b

/-- The numbers that the triangles of a cell get. -/
theorem written_values [Neg F] {name : Str} {b : LazBlock F} {blk : ZoneBlock F} (hw : LazWritten name b blk) (hc : CellsCovered b blk)
    {i j : Nat} {conn : List Int} {data : List (Str × F)} (hi : i < b.I - 1) (hj : j < b.J - 1) (hm : conn ∈ b.cell i j)
    (h : (data, conn) ∈ blk.faces) : b.values (i * (b.J - 1) + j) data := by
  obtain ⟨k, hk⟩ := List.getElem?_of_mem hm
  obtain ⟨data', h1, h2⟩ := hw.faces i j k conn hi hj hk
  have h3 : (data', conn) ∈ blk.faces := List.mem_of_getElem? h1
  have h4 : (data, conn) = (data', conn) := List.inj_on_of_nodup_map hc.once h h3 rfl
  rw [(Prod.mk.inj h4).1]
  exact h2

theorem values_eq [Field F] {b : LazBlock F} {k k' : Nat} {data : List (Str × F)} (h : b.values k data) (h' : b.values k' data) :
    ∀ r ∈ b.rows, r[k]? = r[k']? := by
  obtain ⟨t, hw, hi, htc, be, tx, ty, tz, e, d⟩ := h
  obtain ⟨t', hw', hi', htc', be', tx', ty', tz', e', d'⟩ := h'
  rw [d] at d'
  simp [lazuritVars] at d'
  obtain ⟨rfl, rfl, rfl, rfl, rfl, rfl, rfl, rfl⟩ := d'
  intro r hr
  rw [← e'] at e
  exact List.map_inj_left.1 e r hr

end Verif
