import Verif.Proofs.RawText

/-! The conversion of LAZURIT blocks. -/

namespace Verif
variable {F R : Type}
open Grid

theorem slice_nat {α : Type} (l : List α) (a b : Nat) : Py.slice l (some (a : Int)) (some (b : Int)) = (l.drop a).take (b - a) := by
  have hb : ∀ n k : Nat, Py.bound n (k : Int) = min k n := by
    intro n k
    unfold Py.bound
    simp only
    rw [if_neg (by omega)]; simp
  unfold Py.slice
  simp only [hb]
  by_cases h : a ≤ l.length
  · rw [min_eq_left h]
    apply List.ext_getElem?
    intro i
    simp only [List.getElem?_take, List.getElem?_drop]
    by_cases h1 : i < b - a
    · rw [if_pos h1]
      by_cases h2 : i < min b l.length - a
      · rw [if_pos h2]
      · rw [if_neg h2, eq_comm, List.getElem?_eq_none_iff]; omega
    · rw [if_neg h1, if_neg (by omega)]
  · rw [min_eq_right (by omega : l.length ≤ a), List.drop_eq_nil_of_le (le_refl _), List.drop_eq_nil_of_le (by omega)]
    simp

theorem flatten_piece {α : Type} (rows : List (List α)) (h : Nat) (hl : ∀ r ∈ rows, r.length = h) (k : Nat) (r : List α)
    (hk : rows[k]? = some r) : (rows.flatten.drop (k * h)).take h = r := by
  induction rows generalizing k with
  | nil => simp at hk
  | cons s rows ih =>
    have hs := hl s (by simp)
    cases k with
    | zero =>
      simp at hk
      subst hk
      simp [← hs]
    | succ k =>
      rw [List.flatten_cons, show (k + 1) * h = s.length + k * h from by rw [hs]; ring, ← List.drop_drop, List.drop_left]
      exact ih (fun r hr => hl r (by simp [hr])) k (by simpa using hk)

theorem flatten_length {α : Type} (rows : List (List α)) (h : Nat) (hl : ∀ r ∈ rows, r.length = h) :
    rows.flatten.length = rows.length * h := by
  induction rows with
  | nil => simp
  | cons s rows ih =>
    rw [List.flatten_cons, List.length_append, hl s (by simp), ih (fun r hr => hl r (by simp [hr])), List.length_cons]
    ring

theorem words_piece {c : Codec F} {rows : List (List F)} {h : Nat} (hl : ∀ r ∈ rows, r.length = h) {ws more : List Str}
    (hr : ReadsAs c ws rows.flatten) (k : Nat) (r : List F) (hk : rows[k]? = some r) :
    ReadsAs c (Py.slice (ws ++ more) (some ((k * h : Nat) : Int)) (some (((k + 1) * h : Nat) : Int))) r := by
  have hlen := hr.length_eq
  rw [flatten_length rows h hl] at hlen
  have hkl : k < rows.length := (List.getElem?_eq_some_iff.mp hk).1
  have hle : k * h + h ≤ ws.length := by
    rw [hlen]
    calc k * h + h = (k + 1) * h := by ring
      _ ≤ rows.length * h := Nat.mul_le_mul_right h hkl
  rw [slice_nat, show (k + 1) * h - k * h = h from by rw [Nat.add_mul]; omega, List.drop_append_of_le_length (by omega),
    List.take_append_of_le_length (by rw [List.length_drop]; omega)]
  rw [← flatten_piece rows h hl k r hk]
  exact List.forall₂_take h (List.forall₂_drop (k * h) hr)

theorem double_length {α : Type} (l : List α) : (Lazurit.double l).length = 2 * l.length := by
  induction l with
  | nil => rfl
  | cons a l ih => simp only [Lazurit.double, List.flatMap_cons, List.length_append] at *; simp [ih]; ring

theorem double_reads {c : Codec F} {ws : List Str} {vs : List F} (h : ReadsAs c ws vs) :
    ReadsAs c (Lazurit.double ws) (Lazurit.double vs) := by
  unfold ReadsAs at *
  induction h with
  | nil => exact .nil
  | cons h1 _ ih => exact .cons h1 (.cons h1 ih)

theorem double_get {α : Type} (l : List α) (k : Nat) : (Lazurit.double l)[k]? = l[k / 2]? := by
  induction l generalizing k with
  | nil => simp [Lazurit.double]
  | cons a l ih =>
    show (a :: a :: Lazurit.double l)[k]? = _
    match k with
    | 0 => rfl
    | 1 => rfl
    | k + 2 =>
      rw [show (k + 2) / 2 = k / 2 + 1 from by omega]
      simpa using ih k

theorem slice_mem {α : Type} {l : List α} {a b : Option Int} {x : α} (h : x ∈ Py.slice l a b) : x ∈ l := by
  unfold Py.slice at h
  exact List.mem_of_mem_drop (List.mem_of_mem_take h)

section
variable [Neg F]

theorem doubleNeg_ok {c : Codec F} {ws : List Str} {vs : List F} (h : ReadsAs c ws vs) :
    Lazurit.doubleNeg c ws = .ok (Lazurit.double (vs.map (fun v => c.fmt (-v)))) := by
  unfold Lazurit.doubleNeg
  have : ws.mapM (fun e => do
      let x ← c.parse e
      (.ok (c.fmt (-x)) : Res Str)) = .ok (vs.map (fun v => c.fmt (-v))) := by
    apply mapM_of_forall₂
    rw [List.forall₂_map_right_iff]
    refine h.imp ?_
    intro w v hw
    rw [hw]; rfl
  rw [this]; rfl

theorem neg_reads {c : Codec F} (hc : c.Lawful) (vs : List F) : ReadsAs c (vs.map (fun v => c.fmt (-v))) (vs.map (fun v => -v)) := by
  unfold ReadsAs
  rw [List.forall₂_map_left_iff, List.forall₂_map_right_iff]
  exact List.forall₂_same.mpr (fun x _ => hc.roundtrip _)

/-- The rows written for a block: the last three are negated. -/
def lazRows (rows : List (List F)) : List (List F) := rows.take 5 ++ (rows.drop 5).map (fun r => r.map (fun v => -v))

/-- The numbers of a block as they are in the file. -/
def lazText (name : Str) (b : LazBlock F) : ZoneText F :=
  { name := name
    pts := b.pts
    rows := (lazRows b.rows).map Lazurit.double
    conns := Lazurit.links b.I b.J }

omit [Neg F] in
theorem links_length (I J : Nat) : (Lazurit.links I J).length = 2 * ((I - 1) * (J - 1)) := by
  unfold Lazurit.links
  rw [show ((I : Int) - 1).toNat = I - 1 from by omega, show ((J : Int) - 1).toNat = J - 1 from by omega]
  have h1 : ∀ (i n : Nat), ((List.range n).flatMap (fun (j : Nat) => Lazurit.cellLinks (I : Int) (i : Int) (j : Int))).length = 2 * n := by
    intro i n
    simp [List.length_flatMap, Lazurit.cellLinks, Nat.mul_comm]
  rw [List.length_flatMap]
  simp only [h1]
  simp
  ring

theorem lazText_ok {name : Str} (hn : PlainName name) {b : LazBlock F} (hb : b.Ok) : (lazText name b).Ok lazuritVars := by
  refine ⟨hn, by simp [lazText, lazRows, hb.rows, lazuritVars], ?_⟩
  intro r hr
  simp only [lazText, List.mem_map] at hr
  obtain ⟨s, hs, rfl⟩ := hr
  have hsl : s.length = (b.I - 1) * (b.J - 1) := by
    simp only [lazRows, List.mem_append, List.mem_map] at hs
    rcases hs with hs | ⟨t, ht, rfl⟩
    · exact hb.row s (List.mem_of_mem_take hs)
    · rw [List.length_map]; exact hb.row t (List.mem_of_mem_drop ht)
  rw [double_length, hsl]
  show _ = (Lazurit.links b.I b.J).length
  rw [links_length]

/-- The lines of a block and what they say. -/
theorem blockLines_ok {c : Codec F} (hc : c.Lawful) (name : Str) {b : LazBlock F} (hb : b.Ok) {grid solution : List Str}
    (hf : LazFiles c b grid solution) :
    ∃ r : RawZone, Lazurit.blockLines c name grid solution = .ok (r.lines 11 (lazText name b)) ∧ r.Reads c (lazText name b) ∧
      Py.IsLine r.lx ∧ Py.IsLine r.ly ∧ Py.IsLine r.lz ∧ (∀ l ∈ r.rows, Py.IsLine l) ∧ ∀ l ∈ r.conns, Py.IsLine l := by
  obtain ⟨l, w0, w2, w4, rest, hl, hs⟩ := hf.sizes
  obtain ⟨gw, gm, hg, hgr⟩ := hf.grid
  obtain ⟨sw, sm, hsol, hsr⟩ := hf.solution
  have h4 : (grid.drop 3).headD [] = l := by
    rw [List.headD_eq_head?_getD, List.head?_drop, hl]; rfl
  obtain ⟨h, hh⟩ : ∃ h, h = (b.I - 1) * (b.J - 1) := ⟨_, rfl⟩
  obtain ⟨nc, hnc⟩ : ∃ nc, nc = b.I * b.J := ⟨_, rfl⟩
  have ehec : ((b.I : Int) - 1) * ((b.J : Int) - 1) = (h : Int) := by
    have h1 := hb.i
    have h2 := hb.j
    rw [hh]
    push_cast [Nat.cast_sub h1, Nat.cast_sub h2]
    ring
  have enc : (b.I : Int) * (b.J : Int) * 1 = (nc : Int) := by rw [hnc]; push_cast; ring
  obtain ⟨r0, r1, r2, r3, r4, r5, r6, r7, hrows⟩ : ∃ r0 r1 r2 r3 r4 r5 r6 r7, b.rows = [r0, r1, r2, r3, r4, r5, r6, r7] := by
    match b.rows, hb.rows with
    | [r0, r1, r2, r3, r4, r5, r6, r7], _ => exact ⟨_, _, _, _, _, _, _, _, rfl⟩
  have hrl : ∀ r ∈ b.rows, r.length = h := by rw [hh]; exact hb.row
  have hpl : ∀ r ∈ [b.pts.map Vec.x, b.pts.map Vec.y, b.pts.map Vec.z], r.length = nc := by
    intro r hr
    simp only [List.mem_cons, List.not_mem_nil, or_false] at hr
    rcases hr with rfl | rfl | rfl <;> rw [List.length_map, hb.pts, hnc]
  have hgr' : ReadsAs c gw [b.pts.map Vec.x, b.pts.map Vec.y, b.pts.map Vec.z].flatten := by simpa using hgr
  have gp := fun k r hk => words_piece (more := gm) hpl hgr' k r hk
  have sp := fun k r hk => words_piece (more := sm) hrl hsr k r hk
  have gx := gp 0 _ rfl
  have gy := gp 1 _ rfl
  have gz := gp 2 _ rfl
  have s0 := sp 0 r0 (by rw [hrows]; rfl)
  have s1 := sp 1 r1 (by rw [hrows]; rfl)
  have s2 := sp 2 r2 (by rw [hrows]; rfl)
  have s3 := sp 3 r3 (by rw [hrows]; rfl)
  have s4 := sp 4 r4 (by rw [hrows]; rfl)
  have s5 := sp 5 r5 (by rw [hrows]; rfl)
  have s6 := sp 6 r6 (by rw [hrows]; rfl)
  have s7 := sp 7 r7 (by rw [hrows]; rfl)
  have gwords : ∀ t ∈ gw ++ gm, IsWord t := by
    rw [← hg]
    intro t ht
    obtain ⟨l, -, ht⟩ := List.mem_flatMap.mp ht
    exact splitWs_words l t ht
  have swords : ∀ t ∈ sw ++ sm, IsWord t := by
    rw [← hsol]
    intro t ht
    obtain ⟨l, -, ht⟩ := List.mem_flatMap.mp ht
    exact splitWs_words l t ht
  have dwords : ∀ ws : List Str, (∀ t ∈ ws, IsWord t) → ∀ t ∈ Lazurit.double ws, IsWord t := by
    intro ws hw t ht
    simp only [Lazurit.double, List.mem_flatMap, List.mem_cons, List.not_mem_nil, or_false, or_self] at ht
    obtain ⟨a, ha, rfl⟩ := ht
    exact hw _ ha
  have nwords : ∀ vs : List F, ∀ t ∈ vs.map (fun v => c.fmt (-v)), IsWord t := by
    intro vs t ht
    obtain ⟨v, -, rfl⟩ := List.mem_map.mp ht
    exact ⟨hc.nonempty _, hc.word _⟩
  have gpw : ∀ a b, ∀ t ∈ Py.slice (gw ++ gm) a b, IsWord t := fun a b t ht => gwords t (slice_mem ht)
  have spw : ∀ a b, ∀ t ∈ Py.slice (sw ++ sm) a b, IsWord t := fun a b t ht => swords t (slice_mem ht)
  have rd : ∀ (ws : List Str) (vs : List F), (∀ t ∈ ws, IsWord t) → ReadsAs c ws vs → parseFloats c (Lazurit.wordLine ws) = .ok vs :=
    fun ws vs hw hr => parseFloats_of (wordLine_split hw) hr
  push_cast at gx gy gz s0 s1 s2 s3 s4 s5 s6 s7
  simp only [zero_mul, zero_add, one_mul, one_add_one_eq_two, show (2 : Int) + 1 = 3 from rfl, show (3 : Int) + 1 = 4 from rfl,
    show (4 : Int) + 1 = 5 from rfl, show (5 : Int) + 1 = 6 from rfl, show (6 : Int) + 1 = 7 from rfl,
    show (7 : Int) + 1 = 8 from rfl] at gx gy gz s0 s1 s2 s3 s4 s5 s6 s7
  refine ⟨{ lx := Lazurit.wordLine (Py.slice (gw ++ gm) (some 0) (some nc))
            ly := Lazurit.wordLine (Py.slice (gw ++ gm) (some nc) (some (2 * nc)))
            lz := Lazurit.wordLine (Py.slice (gw ++ gm) (some (2 * nc)) (some (3 * nc)))
            rows := [Lazurit.wordLine (Lazurit.double (Py.slice (sw ++ sm) (some 0) (some h))),
              Lazurit.wordLine (Lazurit.double (Py.slice (sw ++ sm) (some h) (some (2 * h)))),
              Lazurit.wordLine (Lazurit.double (Py.slice (sw ++ sm) (some (2 * h)) (some (3 * h)))),
              Lazurit.wordLine (Lazurit.double (Py.slice (sw ++ sm) (some (3 * h)) (some (4 * h)))),
              Lazurit.wordLine (Lazurit.double (Py.slice (sw ++ sm) (some (4 * h)) (some (5 * h)))),
              Lazurit.wordLine (Lazurit.double (r5.map (fun v => c.fmt (-v)))),
              Lazurit.wordLine (Lazurit.double (r6.map (fun v => c.fmt (-v)))),
              Lazurit.wordLine (Lazurit.double (r7.map (fun v => c.fmt (-v))))]
            conns := (Lazurit.links b.I b.J).map connLine }, ?_, ⟨?_, ?_, ?_, ?_, ?_⟩, ?_, ?_, ?_, ?_, ?_⟩
  · unfold Lazurit.blockLines
    rw [h4]
    simp only
    rw [hs]
    simp only [show ∀ (a b : Str) (l : List Str), Py.get (a :: b :: l) 1 = .ok b from fun _ _ _ => rfl, res_bind_ok,
      show ∀ (a b c d : Str) (l : List Str), Py.get (a :: b :: c :: d :: l) 3 = .ok d from fun _ _ _ _ _ => rfl,
      show ∀ (a b c d e f : Str) (l : List Str), Py.get (a :: b :: c :: d :: e :: f :: l) 5 = .ok f from fun _ _ _ _ _ _ _ => rfl,
      Py.int_natStr, show Py.int "1".toList = .ok 1 from by decide]
    rw [if_neg (by simp)]
    unfold Lazurit.leapLines
    rw [hg, hsol, ehec, enc, doubleNeg_ok s5, res_bind_ok, doubleNeg_ok s6, res_bind_ok, doubleNeg_ok s7, res_bind_ok]
    have e1 : Py.intStr (nc : Int) = Py.natStr b.pts.length := by rw [hb.pts, ← hnc]; rfl
    have e2 : Py.intStr (2 * (h : Int)) = Py.natStr (Lazurit.links b.I b.J).length := by
      rw [links_length, ← hh]; rfl
    rw [e1, e2]
    simp [RawZone.lines, RawZone.tail, lazText, show Py.natStr 11 = ['1', '1'] from by decide]
  · exact rd _ _ (gpw _ _) gx
  · exact rd _ _ (gpw _ _) gy
  · exact rd _ _ (gpw _ _) gz
  · unfold lazText lazRows
    rw [hrows]
    exact .cons (rd _ _ (dwords _ (spw _ _)) (double_reads s0)) (.cons (rd _ _ (dwords _ (spw _ _)) (double_reads s1))
      (.cons (rd _ _ (dwords _ (spw _ _)) (double_reads s2)) (.cons (rd _ _ (dwords _ (spw _ _)) (double_reads s3))
      (.cons (rd _ _ (dwords _ (spw _ _)) (double_reads s4)) (.cons (rd _ _ (dwords _ (nwords _)) (double_reads (neg_reads hc r5)))
      (.cons (rd _ _ (dwords _ (nwords _)) (double_reads (neg_reads hc r6)))
      (.cons (rd _ _ (dwords _ (nwords _)) (double_reads (neg_reads hc r7))) .nil)))))))
  · show List.Forall₂ _ ((Lazurit.links b.I b.J).map connLine) (Lazurit.links b.I b.J)
    rw [List.forall₂_map_left_iff]
    exact List.forall₂_same.mpr (fun x _ => parseInts_line x)
  · exact wordLine_isLine (gpw _ _)
  · exact wordLine_isLine (gpw _ _)
  · exact wordLine_isLine (gpw _ _)
  · intro l hl
    simp only [List.mem_cons, List.not_mem_nil, or_false] at hl
    rcases hl with rfl | rfl | rfl | rfl | rfl | rfl | rfl | rfl
    · exact wordLine_isLine (dwords _ (spw _ _))
    · exact wordLine_isLine (dwords _ (spw _ _))
    · exact wordLine_isLine (dwords _ (spw _ _))
    · exact wordLine_isLine (dwords _ (spw _ _))
    · exact wordLine_isLine (dwords _ (spw _ _))
    · exact wordLine_isLine (dwords _ (nwords _))
    · exact wordLine_isLine (dwords _ (nwords _))
    · exact wordLine_isLine (dwords _ (nwords _))
  · intro l hl
    obtain ⟨x, -, rfl⟩ := List.mem_map.mp hl
    exact connLine_isLine _

end

end Verif
