import Verif.Proofs.Tec5
import Verif.Props.Text

/-! Properties C54 to C57 and C68 to C75: the converters. -/

namespace Verif.Props
open Verif Grid
variable {F R : Type}

/-! ## A codec for samples: fractions -/

/-- Fractions are written as `numerator/denominator`. -/
def ratCodec : Codec ℚ where
  fmt x := Py.intStr x.num ++ '/' :: Py.natStr x.den
  parse s :=
    match Py.splitCh '/' s with
    | [a] => do
      let a ← Py.int a
      .ok (a : ℚ)
    | [a, b] => do
      let a ← Py.int a
      let b ← Py.int b
      .ok ((a : ℚ) / (b : ℚ))
    | _ => .error .value

theorem intStr_chars (i : Int) : ∀ c ∈ Py.intStr i, c = '-' ∨ Py.isDecimal c = true := by
  cases i with
  | ofNat n => intro c hc; exact .inr (natStr_isDecimal n c hc)
  | negSucc n =>
    intro c hc
    simp only [Py.intStr, List.mem_cons] at hc
    rcases hc with rfl | hc
    · exact .inl rfl
    · exact .inr (natStr_isDecimal _ c hc)

theorem ratCodec_chars (x : ℚ) : ∀ c ∈ ratCodec.fmt x, c = '/' ∨ c = '-' ∨ Py.isDecimal c = true := by
  intro c hc
  simp only [ratCodec, List.mem_append, List.mem_cons] at hc
  rcases hc with hc | rfl | hc
  · exact .inr (intStr_chars _ c hc)
  · exact .inl rfl
  · exact .inr (.inr (natStr_isDecimal _ c hc))

theorem ratCodec_lawful : ratCodec.Lawful := by
  refine ⟨?_, ?_, ?_⟩
  · intro x
    simp only [ratCodec]
    rw [Py.splitCh_one]
    · simp only
      rw [Py.int_intStr, Py.int_natStr]
      simp only [res_bind_ok]
      congr 1
      exact_mod_cast Rat.num_div_den x
    · intro h
      rcases intStr_chars _ _ h with h | h
      · exact absurd h (by decide)
      · exact absurd h (by decide +kernel)
    · intro h
      exact absurd (natStr_isDecimal _ _ h) (by decide +kernel)
  · intro x
    simp [ratCodec]
  · intro x c hc
    simp only [ratCodec, List.mem_append, List.mem_cons] at hc
    rcases hc with hc | rfl | hc
    · exact (Py.intStr_facts _).2 c hc
    · decide +kernel
    · exact (Py.intStr_facts (Int.ofNat x.den)).2 c hc

theorem ratCodec_plain (x : ℚ) : PlainWord (ratCodec.fmt x) := by
  have h : ∀ (c : Char) (p : Str), c ∈ p → c ≠ '/' → c ≠ '-' → Py.isDecimal c = false → ¬ p <:+: ratCodec.fmt x := by
    intro c p hp h1 h2 h3 hi
    rcases ratCodec_chars x c (hi.subset hp) with h | h | h
    · exact h1 h
    · exact h2 h
    · rw [h3] at h; cases h
  exact ⟨h 'T' _ (by decide +kernel) (by decide) (by decide) (by decide +kernel),
    h 'V' _ (by decide +kernel) (by decide) (by decide) (by decide +kernel),
    h 'Z' _ (by decide +kernel) (by decide) (by decide) (by decide +kernel)⟩

/-! ## C54 Quadrangles are converted to triangles -/

/-- The corners of an element in the order they are used. -/
def Quad.order (rev : Bool) (q : Quad) : List Nat := if rev then q.list.reverse else q.list

/-- A quadrangle with four different corners becomes two faces that share a diagonal, go around it in the same (or, on demand, in the
opposite) direction and have together its vector area. -/
theorem C54_quadrangle [Field F] [DecidableEq F] (rev : Bool) {l : Str} {q : Quad} (z : Ansys.CZone F) (h : ElemLine z.nodes.length l q)
    (hq : q.list.Nodup) :
    ∃ f g : Ansys.CFace F, Ansys.addElement rev l z = .ok { z with faces := z.faces ++ [f, g] } ∧
      [f.n1, f.n2, f.n3, g.n3] = Quad.order rev q ∧ f.n1 = g.n1 ∧ f.n3 = g.n2 ∧
      sumVec [polyArea (nodePoints z (faceCorners f)), polyArea (nodePoints z (faceCorners g))] =
        vecScale (if rev then -1 else 1) (polyArea (nodePoints z q.list)) := by
  have hk : ∀ n ∈ q.list, n < z.nodes.length := by obtain ⟨_, _, _, _, _, _, _, _, _, hk⟩ := h; exact hk
  have ha := hk q.a (by simp [Quad.list])
  have hb := hk q.b (by simp [Quad.list])
  have hc := hk q.c (by simp [Quad.list])
  have hd := hk q.d (by simp [Quad.list])
  rw [addElement_ok rev z h]
  simp only [Quad.list, List.nodup_cons, List.mem_cons, List.not_mem_nil, or_false, not_or, List.nodup_nil, not_false_eq_true, and_true] at hq
  obtain ⟨⟨h1, h2, h3⟩, ⟨h4, h5⟩, h6⟩ := hq
  cases rev
  · refine ⟨Ansys.face q.a q.b q.c, Ansys.face q.a q.c q.d, ?_, rfl, rfl, rfl, ?_⟩
    · simp [Ansys.quadFaces, h1, h2, h3, h4, h5, h6]
    · simp only [Ansys.face, faceCorners, Quad.list]
      rw [nodePoints3 ha hb hc, nodePoints3 ha hc hd, nodePoints4 ha hb hc hd, quad_two]
      simp [vecScale]
  · refine ⟨Ansys.face q.d q.c q.b, Ansys.face q.d q.b q.a, ?_, rfl, rfl, rfl, ?_⟩
    · simp [Ansys.quadFaces, Ne.symm h1, Ne.symm h2, Ne.symm h3, Ne.symm h4, Ne.symm h5, Ne.symm h6]
    · simp only [Ansys.face, faceCorners, Quad.list]
      rw [nodePoints3 hd hc hb, nodePoints3 hd hb ha, nodePoints4 ha hb hc hd, quad_two, quad_rev]
      rfl

/-- A quadrangle with one pair of coinciding adjacent corners becomes one face with its three corners and its vector area. -/
theorem C54_pinched [Field F] [DecidableEq F] (rev : Bool) {l : Str} {q : Quad} (z : Ansys.CZone F) (h : ElemLine z.nodes.length l q)
    (hq : q.list.eraseDups.length = 3) (hac : q.a ≠ q.c) (hbd : q.b ≠ q.d) :
    ∃ f : Ansys.CFace F, Ansys.addElement rev l z = .ok { z with faces := z.faces ++ [f] } ∧
      (faceCorners f).Nodup ∧ (∀ n, n ∈ faceCorners f ↔ n ∈ q.list) ∧
      polyArea (nodePoints z (faceCorners f)) = vecScale (if rev then -1 else 1) (polyArea (nodePoints z q.list)) := by
  have hk : ∀ n ∈ q.list, n < z.nodes.length := by obtain ⟨_, _, _, _, _, _, _, _, _, hk⟩ := h; exact hk
  rw [addElement_ok rev z h]
  obtain ⟨a, b, c, d⟩ := q
  have ha := hk a (by simp [Quad.list])
  have hb := hk b (by simp [Quad.list])
  have hc := hk c (by simp [Quad.list])
  have hd := hk d (by simp [Quad.list])
  simp only [Quad.list] at hq hac hbd ⊢
  have hcases : (a = b ∧ a ≠ c ∧ a ≠ d ∧ c ≠ d) ∨ (b = c ∧ a ≠ b ∧ a ≠ d ∧ b ≠ d) ∨ (c = d ∧ a ≠ b ∧ a ≠ c ∧ b ≠ c) ∨
      (d = a ∧ a ≠ b ∧ a ≠ c ∧ b ≠ c) := by
    by_cases e1 : a = b
    · subst e1
      refine .inl ⟨rfl, hac, hbd, ?_⟩
      rintro rfl
      simp [List.eraseDups_cons, hac, Ne.symm hac] at hq
    by_cases e2 : b = c
    · subst e2
      refine .inr (.inl ⟨rfl, e1, ?_, hbd⟩)
      rintro rfl
      simp [List.eraseDups_cons, e1, Ne.symm e1] at hq
    by_cases e3 : c = d
    · subst e3
      exact .inr (.inr (.inl ⟨rfl, e1, hac, e2⟩))
    by_cases e4 : d = a
    · subst e4
      exact .inr (.inr (.inr ⟨rfl, e1, hac, e2⟩))
    · simp [List.eraseDups_cons, e1, Ne.symm e1, e2, Ne.symm e2, e3, Ne.symm e3, e4, Ne.symm e4, hac, Ne.symm hac, hbd, Ne.symm hbd] at hq
  rcases hcases with ⟨rfl, h1, h2, h3⟩ | ⟨rfl, h1, h2, h3⟩ | ⟨rfl, h1, h2, h3⟩ | ⟨rfl, h1, h2, h3⟩ <;> cases rev
  · refine ⟨Ansys.face a c d, by simp [Ansys.quadFaces], by simp [Ansys.face, faceCorners]; tauto, by simp [Ansys.face, faceCorners], ?_⟩
    simp only [Ansys.face, faceCorners]
    rw [nodePoints3 ha hc hd, nodePoints4 ha ha hc hd, quad_ab]; simp [vecScale]
  · refine ⟨Ansys.face d c a, by simp [Ansys.quadFaces, h1, h2, h3, Ne.symm h1, Ne.symm h2, Ne.symm h3],
      by simp [Ansys.face, faceCorners]; tauto, by simp [Ansys.face, faceCorners]; tauto, ?_⟩
    simp only [Ansys.face, faceCorners]
    rw [nodePoints3 hd hc ha, nodePoints4 ha ha hc hd, ← quad_cd, quad_rev]; rfl
  · refine ⟨Ansys.face a b d, by simp [Ansys.quadFaces, h1, h2, h3], by simp [Ansys.face, faceCorners]; tauto,
      by simp [Ansys.face, faceCorners], ?_⟩
    simp only [Ansys.face, faceCorners]
    rw [nodePoints3 ha hb hd, nodePoints4 ha hb hb hd, quad_bc]; simp [vecScale]
  · refine ⟨Ansys.face d b a, by simp [Ansys.quadFaces, h1, h2, h3, Ne.symm h1, Ne.symm h2, Ne.symm h3],
      by simp [Ansys.face, faceCorners]; tauto, by simp [Ansys.face, faceCorners]; tauto, ?_⟩
    simp only [Ansys.face, faceCorners]
    rw [nodePoints3 hd hb ha, nodePoints4 ha hb hb hd, ← quad_bc, quad_rev]; rfl
  · refine ⟨Ansys.face a b c, by simp [Ansys.quadFaces, h1, h2, h3], by simp [Ansys.face, faceCorners]; tauto,
      by simp [Ansys.face, faceCorners], ?_⟩
    simp only [Ansys.face, faceCorners]
    rw [nodePoints3 ha hb hc, nodePoints4 ha hb hc hc, quad_cd]; simp [vecScale]
  · refine ⟨Ansys.face c b a, by simp [Ansys.quadFaces, h1, h2, h3, Ne.symm h1, Ne.symm h2, Ne.symm h3],
      by simp [Ansys.face, faceCorners]; tauto, by simp [Ansys.face, faceCorners]; tauto, ?_⟩
    simp only [Ansys.face, faceCorners]
    rw [nodePoints3 hc hb ha, nodePoints4 ha hb hc hc, ← quad_ab, quad_rev]; rfl
  · refine ⟨Ansys.face d b c, by simp [Ansys.quadFaces, h1, h2, h3], by simp [Ansys.face, faceCorners]; tauto,
      by simp [Ansys.face, faceCorners]; tauto, ?_⟩
    simp only [Ansys.face, faceCorners]
    rw [nodePoints3 hd hb hc, nodePoints4 hd hb hc hd, quad_da]; simp [vecScale]
  · refine ⟨Ansys.face d c b, by simp [Ansys.quadFaces, h1, h2, h3, Ne.symm h1, Ne.symm h2, Ne.symm h3],
      by simp [Ansys.face, faceCorners]; tauto, by simp [Ansys.face, faceCorners]; tauto, ?_⟩
    simp only [Ansys.face, faceCorners]
    rw [nodePoints3 hd hc hb, nodePoints4 hd hb hc hd, ← quad_da, quad_rev]; rfl

/-- With coinciding opposite corners there is a face too, though the quadrangle has no area; its vector area is not that of the
quadrangle unless it is zero. -/
theorem C54_opposite_corners [Field F] [DecidableEq F] {l : Str} {q : Quad} (z : Ansys.CZone F) (h : ElemLine z.nodes.length l q)
    (hac : q.a = q.c) (hab : q.a ≠ q.b) (had : q.a ≠ q.d) :
    polyArea (nodePoints z q.list) = ⟨0, 0, 0⟩ ∧
    Ansys.addElement false l z = .ok { z with faces := z.faces ++ [Ansys.face q.a q.b q.d] } := by
  have hk : ∀ n ∈ q.list, n < z.nodes.length := by obtain ⟨_, _, _, _, _, _, _, _, _, hk⟩ := h; exact hk
  rw [addElement_ok false z h]
  obtain ⟨a, b, c, d⟩ := q
  have ha := hk a (by simp [Quad.list])
  have hb := hk b (by simp [Quad.list])
  have hd := hk d (by simp [Quad.list])
  simp only at hac hab had
  subst hac
  simp only [Quad.list]
  rw [nodePoints4 ha hb ha hd, quad_opposite]
  refine ⟨rfl, by simp [Ansys.quadFaces, hab]⟩

/-- Four nodes. -/
def unitSquare : Ansys.CZone ℚ :=
  ⟨"S".toList, [⟨⟨0, 0, 0⟩, 1, 2, ⟨3, 4, 5⟩, 6⟩, ⟨⟨1, 0, 0⟩, 2, 2, ⟨3, 4, 5⟩, 6⟩, ⟨⟨1, 1, 0⟩, 3, 2, ⟨3, 4, 5⟩, 6⟩,
    ⟨⟨0, 1, 0⟩, 4, 2, ⟨3, 4, 5⟩, 6⟩], [⟨0, 1, 2, 0, 0, ⟨0, 0, 0⟩, 0⟩]⟩

example : ElemLine unitSquare.nodes.length " 1 2 3  4\n".toList ⟨0, 1, 2, 3⟩ ∧ (Quad.list ⟨0, 1, 2, 3⟩).Nodup :=
  ⟨⟨"1".toList, "2".toList, "3".toList, "4".toList, by decide +kernel, by decide +kernel, by decide +kernel, by decide +kernel,
    by decide +kernel, by decide⟩, by decide⟩

example : ElemLine unitSquare.nodes.length " 1 2 3  3\n".toList ⟨0, 1, 2, 2⟩ ∧ (Quad.list ⟨0, 1, 2, 2⟩).eraseDups.length = 3 :=
  ⟨⟨"1".toList, "2".toList, "3".toList, "3".toList, by decide +kernel, by decide +kernel, by decide +kernel, by decide +kernel,
    by decide +kernel, by decide⟩, by decide⟩

/-- The triangle made from a quadrangle with coinciding opposite corners has an area. -/
example : ElemLine unitSquare.nodes.length " 1 2 1  4\n".toList ⟨0, 1, 0, 3⟩ ∧ polyArea (nodePoints unitSquare [0, 1, 3]) = ⟨0, 0, 1 / 2⟩ :=
  ⟨⟨"1".toList, "2".toList, "1".toList, "4".toList, by decide +kernel, by decide +kernel, by decide +kernel, by decide +kernel,
    by decide +kernel, by decide⟩, by
      rw [nodePoints3 (by decide) (by decide) (by decide), polyArea3]
      simp [unitSquare]⟩

/-! ## C55 Averaging node data to faces stays in range -/

/-- The mean of three numbers and its bounds. -/
def MeanOf [Field F] [LinearOrder F] (a b c v : F) : Prop := 3 * v = a + b + c ∧ min a (min b c) ≤ v ∧ v ≤ max a (max b c)

theorem mean_of [Field F] [LinearOrder F] [IsStrictOrderedRing F] (a b c : F) : MeanOf a b c (Ansys.mean3 a b c) := by
  unfold MeanOf Ansys.mean3
  refine ⟨by field_simp, ?_, ?_⟩
  · rw [le_div_iff₀ (by norm_num)]
    have h1 : min a (min b c) ≤ a := min_le_left _ _
    have h2 : min a (min b c) ≤ b := le_trans (min_le_right _ _) (min_le_left _ _)
    have h3 : min a (min b c) ≤ c := le_trans (min_le_right _ _) (min_le_right _ _)
    linarith
  · rw [div_le_iff₀ (by norm_num)]
    have h1 : a ≤ max a (max b c) := le_max_left _ _
    have h2 : b ≤ max a (max b c) := le_trans (le_max_left _ _) (le_max_right _ _)
    have h3 : c ≤ max a (max b c) := le_trans (le_max_right _ _) (le_max_right _ _)
    linarith

/-- Every value of a face is the mean of the values in its three nodes and lies between the smallest and the largest of them; the
nodes, the name and the corners of the faces do not change. -/
theorem C55_mean [Field F] [LinearOrder F] [IsStrictOrderedRing F] (z : Ansys.CZone F)
    (h : ∀ f ∈ z.faces, ∀ n ∈ faceCorners f, n < z.nodes.length) :
    z.convert.title = z.title ∧ z.convert.nodes = z.nodes ∧
    List.Forall₂ (fun f f' => faceCorners f' = faceCorners f ∧ ∃ a b c, z.nodes[f.n1]? = some a ∧ z.nodes[f.n2]? = some b ∧
      z.nodes[f.n3]? = some c ∧ MeanOf a.htc b.htc c.htc f'.htc ∧ MeanOf a.beta b.beta c.beta f'.beta ∧
      MeanOf a.tau.x b.tau.x c.tau.x f'.tau.x ∧ MeanOf a.tau.y b.tau.y c.tau.y f'.tau.y ∧ MeanOf a.tau.z b.tau.z c.tau.z f'.tau.z ∧
      MeanOf a.rf b.rf c.rf f'.rf) z.faces z.convert.faces := by
  refine ⟨rfl, rfl, ?_⟩
  unfold Ansys.CZone.convert
  rw [List.forall₂_map_right_iff]
  apply List.forall₂_same.mpr
  intro f hf
  have h1 := h f hf f.n1 (by simp [faceCorners])
  have h2 := h f hf f.n2 (by simp [faceCorners])
  have h3 := h f hf f.n3 (by simp [faceCorners])
  refine ⟨rfl, z.nodes[f.n1], z.nodes[f.n2], z.nodes[f.n3], List.getElem?_eq_getElem h1, List.getElem?_eq_getElem h2,
    List.getElem?_eq_getElem h3, ?_⟩
  simp only [Ansys.CZone.node, List.getD, List.getElem?_eq_getElem h1, List.getElem?_eq_getElem h2, List.getElem?_eq_getElem h3,
    Option.getD_some]
  exact ⟨mean_of _ _ _, mean_of _ _ _, mean_of _ _ _, mean_of _ _ _, mean_of _ _ _, mean_of _ _ _⟩

example : (∀ f ∈ unitSquare.faces, ∀ n ∈ faceCorners f, n < unitSquare.nodes.length) ∧ unitSquare.faces ≠ [] := by decide

/-! ## C56 Structured block links cover every cell -/

/-- The text that the LAZURIT converter writes for a directory has a block for every pair of files, in the order of the names of the
files, with the name of the block, its points, and triangles that are those of the cells, each of them once. -/
theorem C56_cells [Neg F] {c : Codec F} (hc : c.Lawful) {es : List (LazEntry F)} {dir : List (Str × Str)} (hd : LazDir c es dir) :
    ∃ t blocks, Lazurit.writeText c dir = .ok t ∧ ReadsBlocks c t "FE Surface Data ASCII".toList blocks ∧
      List.Forall₂ (fun e blk => blk.name = e.name ∧ blk.pts = e.block.pts ∧ CellsCovered e.block blk) es blocks := by
  obtain ⟨t, h1, h2⟩ := writeText_ok hc hd
  refine ⟨t, _, h1, h2, ?_⟩
  rw [List.forall₂_map_right_iff]
  exact List.forall₂_same.mpr (fun e he => ⟨rfl, rfl, cellsCovered e.name (hd.entries e he).block⟩)

/-! ## C57 Cell data stays with its cell in the LAZURIT converter -/

/-- The triangles of a cell have the numbers of the cell when the block is one cell wide in one of the directions. -/
theorem C57_cell_data_partial [Neg F] {c : Codec F} (hc : c.Lawful) {es : List (LazEntry F)} {dir : List (Str × Str)} (hd : LazDir c es dir)
    (hn : ∀ e ∈ es, e.block.I ≤ 2 ∨ e.block.J ≤ 2) :
    ∃ t blocks, Lazurit.writeText c dir = .ok t ∧ ReadsBlocks c t "FE Surface Data ASCII".toList blocks ∧
      List.Forall₂ (fun e blk => CellsCovered e.block blk ∧ CellDataKept e.block blk) es blocks := by
  obtain ⟨t, h1, h2⟩ := writeText_ok hc hd
  refine ⟨t, _, h1, h2, ?_⟩
  rw [List.forall₂_map_right_iff]
  refine List.forall₂_same.mpr (fun e he => ?_)
  have hcov := cellsCovered e.name (hd.entries e he).block
  refine ⟨hcov, ?_⟩
  intro i j conn data hi hj hm h
  have h3 := written_values (lazWritten e.name (hd.entries e he).block) hcov hi hj hm h
  have : i + j * (e.block.I - 1) = i * (e.block.J - 1) + j := by
    rcases hn e he with h | h
    · rw [show e.block.I - 1 = 1 from by omega, show i = 0 from by omega]; omega
    · rw [show e.block.J - 1 = 1 from by omega, show j = 0 from by omega]; omega
  rw [this]
  exact h3

/-- In general the triangles of a cell have the numbers of the cell if the numbers of the file go with the second index fastest. -/
theorem C57_second_index_fastest [Neg F] {c : Codec F} (hc : c.Lawful) {es : List (LazEntry F)} {dir : List (Str × Str)}
    (hd : LazDir c es dir) :
    ∃ t blocks, Lazurit.writeText c dir = .ok t ∧ ReadsBlocks c t "FE Surface Data ASCII".toList blocks ∧
      List.Forall₂ (fun e blk => ∀ i j conn data, i < e.block.I - 1 → j < e.block.J - 1 → conn ∈ e.block.cell i j →
        (data, conn) ∈ blk.faces → e.block.values (i * (e.block.J - 1) + j) data) es blocks := by
  obtain ⟨t, h1, h2⟩ := writeText_ok hc hd
  refine ⟨t, _, h1, h2, ?_⟩
  rw [List.forall₂_map_right_iff]
  refine List.forall₂_same.mpr (fun e he i j conn data hi hj hm h => ?_)
  exact written_values (lazWritten e.name (hd.entries e he).block) (cellsCovered e.name (hd.entries e he).block) hi hj hm h

/-- In every block that is wider in both directions the cell `(0, 1)` gets wrong numbers (unless they are the same by chance). -/
theorem C57_violation [Field F] {c : Codec F} (hc : c.Lawful) {es : List (LazEntry F)} {dir : List (Str × Str)} (hd : LazDir c es dir) :
    ∃ t blocks, Lazurit.writeText c dir = .ok t ∧ ReadsBlocks c t "FE Surface Data ASCII".toList blocks ∧
      List.Forall₂ (fun e blk => 3 ≤ e.block.I → 3 ≤ e.block.J → (∃ r ∈ e.block.rows, r[1]? ≠ r[e.block.I - 1]?) →
        ¬ CellDataKept e.block blk) es blocks := by
  obtain ⟨t, h1, h2⟩ := writeText_ok hc hd
  refine ⟨t, _, h1, h2, ?_⟩
  rw [List.forall₂_map_right_iff]
  refine List.forall₂_same.mpr (fun e he h3 h4 h5 hk => ?_)
  obtain ⟨r, hr, hne⟩ := h5
  have hcov := cellsCovered e.name (hd.entries e he).block
  have hwr := lazWritten e.name (hd.entries e he).block
  obtain ⟨data, h6, h7⟩ := hwr.faces 0 1 0 _ (by omega) (by omega) rfl
  have h8 := hk 0 1 _ data (by omega) (by omega) (by simp [LazBlock.cell]) (List.mem_of_getElem? h6)
  rw [Nat.zero_mul, Nat.zero_add] at h7
  rw [Nat.one_mul, Nat.zero_add] at h8
  exact hne (values_eq h7 h8 r hr)

/-- A block of 3 by 3 points. -/
def sampleBlock : LazBlock ℚ where
  I := 3
  J := 3
  pts := [⟨0, 0, 0⟩, ⟨1, 0, 0⟩, ⟨2, 0, 0⟩, ⟨0, 1, 0⟩, ⟨1, 1, 0⟩, ⟨2, 1, 0⟩, ⟨0, 2, 0⟩, ⟨1, 2, 0⟩, ⟨2, 2, 1⟩]
  rows := [[11, 12, 13, 14], [0, 0, 0, 0], [0, 0, 0, 0], [0, 0, 0, 0], [0, 0, 0, 0], [1, 2, 3, 4], [0, 0, 0, 0], [0, 0, 0, 0]]

/-- Its files. -/
def sampleEntry : LazEntry ℚ where
  suffix := "B1_B0012.TEC".toList
  name := "B0012".toList
  block := sampleBlock
  grid := "a\nb\nc\nI= 3 J= 3 K= 1\nd\ne\n0 1 2 0 1 2\n0 1 2\n0 0 0 1 1 1 2 2 2\n0 0 0 0 0 0 0 0 1\n".toList
  solution := ("a\nb\nc\nd\ne\nf\n11 12 13 14\n0 0 0 0 0 0 0 0 0 0 0 0 0 0 0 0\n1 2 3 4\n0 0 0 0 0 0 0 0\n").toList

def sampleDir : List (Str × Str) :=
  [("readme".toList, []), ("TEC_WALL_Solution_B1_B0012.TEC".toList, sampleEntry.solution),
   ("TEC_WALL_Grid_B1_B0012.TEC".toList, sampleEntry.grid)]

theorem sampleDir_ok : LazDir ratCodec [sampleEntry] sampleDir := by
  refine ⟨by simp, ?_, [("readme".toList, [])], by decide +kernel, ?_⟩
  · intro e he
    simp only [List.mem_singleton] at he
    subst he
    refine ⟨⟨"B1_".toList, "0012".toList, by decide +kernel, by decide +kernel, by decide +kernel⟩, by decide +kernel,
      ⟨by decide, by decide, by decide, by decide, by decide +kernel⟩, ?_⟩
    refine ⟨⟨"I= 3 J= 3 K= 1\n".toList, "I=".toList, "J=".toList, "K=".toList, [], by decide +kernel, by decide +kernel⟩, ?_, ?_⟩
    · refine ⟨((Py.readlines sampleEntry.grid).drop 6).flatMap Py.splitWs, [], by simp, ?_⟩
      unfold ReadsAs
      decide +kernel
    · refine ⟨((Py.readlines sampleEntry.solution).drop 6).flatMap Py.splitWs, [], by simp, ?_⟩
      unfold ReadsAs
      decide +kernel
  · decide +kernel

example : 3 ≤ sampleEntry.block.I ∧ 3 ≤ sampleEntry.block.J ∧ ∃ r ∈ sampleEntry.block.rows, r[1]? ≠ r[sampleEntry.block.I - 1]? :=
  ⟨by decide, by decide, [11, 12, 13, 14], by decide, by decide +kernel⟩

end Verif.Props
