import Verif.Proofs.RawText
import Verif.Proofs.Reload

/-! Reading of the beginning of a grid file. -/

namespace Verif
variable {F R : Type}
open Grid

/-- `L` are the lines read from a beginning of the text with lines `ls`. -/
inductive Cut : List Str → List Str → Prop
  | nil (ls : List Str) : Cut ls []
  | part (l : Str) (ls : List Str) (q : Str) : q ≠ [] → q <+: l → q.length < l.length → Cut (l :: ls) [q]
  | cons (l : Str) (ls L : List Str) : Cut ls L → Cut (l :: ls) (l :: L)

theorem prefix_append_cases {α : Type} {p a b : List α} (h : p <+: a ++ b) :
    (p <+: a ∧ p.length < a.length) ∨ ∃ p', p = a ++ p' ∧ p' <+: b := by
  induction a generalizing p with
  | nil => exact .inr ⟨p, rfl, h⟩
  | cons x a ih =>
    cases p with
    | nil => exact .inl ⟨List.nil_prefix, by simp⟩
    | cons y p =>
      rw [List.cons_append, List.cons_prefix_cons] at h
      obtain ⟨rfl, h⟩ := h
      rcases ih h with ⟨h1, h2⟩ | ⟨p', rfl, h2⟩
      · exact .inl ⟨List.cons_prefix_cons.2 ⟨rfl, h1⟩, by simpa using h2⟩
      · exact .inr ⟨p', rfl, h2⟩

theorem linesAux_noNl {q : Str} (h : '\n' ∉ q) (acc : Str) : Py.linesAux q acc = if acc ++ q = [] then [] else [acc ++ q] := by
  induction q generalizing acc with
  | nil => simp [Py.linesAux]
  | cons c q ih =>
    simp only [List.mem_cons, not_or] at h
    rw [Py.linesAux, if_neg (fun e => h.1 e.symm), ih h.2]
    simp

theorem readlines_cut {ls : List Str} (h : ∀ l ∈ ls, Py.IsLine l) {p : Str} (hp : p <+: ls.flatten) : Cut ls (Py.readlines p) := by
  have hr : '\r' ∉ p := by
    intro hr
    obtain ⟨l, hl, hr⟩ := List.mem_flatten.mp (hp.subset hr)
    obtain ⟨b, rfl, -, h2⟩ := h l hl
    simp at hr
    exact h2 hr
  unfold Py.readlines
  rw [Py.universalNewlines_id hr]
  clear hr
  induction ls generalizing p with
  | nil =>
    have : p = [] := by simpa using hp
    subst this
    exact .nil _
  | cons l ls ih =>
    rw [List.flatten_cons] at hp
    obtain ⟨b, e, h1, -⟩ := h l (by simp)
    rcases prefix_append_cases hp with ⟨h2, h3⟩ | ⟨p', rfl, h2⟩
    · have hn : '\n' ∉ p := by
        have : p <+: b := by
          rw [e] at h2 h3
          rcases prefix_append_cases h2 with ⟨h4, -⟩ | ⟨p', rfl, h4⟩
          · exact h4
          · have : p' = [] := by
              simp at h3
              exact h3
            subst this
            simp
        exact fun hm => h1 (this.subset hm)
      rw [linesAux_noNl hn]
      simp only [List.nil_append]
      split
      · exact .nil _
      · next hne => exact .part _ _ _ hne h2 h3
    · rw [e, List.append_assoc, List.singleton_append, Py.linesAux_line h1]
      simp only [List.nil_append]
      exact .cons _ _ _ (ih (fun x hx => h x (by simp [hx])) h2)

theorem Cut.length_le {ls L : List Str} (h : Cut ls L) : L.length ≤ ls.length := by
  induction h with
  | nil => simp
  | part => simp
  | cons _ _ _ _ ih => simpa using ih

theorem Cut.split {A B L : List Str} (h : Cut (A ++ B) L) : (Cut A L ∧ L ≠ A) ∨ ∃ L', L = A ++ L' ∧ Cut B L' := by
  induction A generalizing L with
  | nil => exact .inr ⟨L, rfl, h⟩
  | cons a A ih =>
    cases h with
    | nil => exact .inl ⟨.nil _, by simp⟩
    | part _ _ q h1 h2 h3 =>
      refine .inl ⟨.part _ _ _ h1 h2 h3, ?_⟩
      intro e
      simp only [List.cons.injEq] at e
      rw [e.1] at h3
      omega
    | cons _ _ L h =>
      rcases ih h with ⟨h1, h2⟩ | ⟨L', rfl, h1⟩
      · exact .inl ⟨.cons _ _ _ h1, by simpa using h2⟩
      · exact .inr ⟨L', rfl, h1⟩

theorem Cut.last {A L : List Str} {l : Str} (h : Cut (A ++ [l]) L) (hne : L ≠ A ++ [l]) :
    L.length < A.length + 1 ∨ ∃ q, L = A ++ [q] ∧ q ≠ [] ∧ q <+: l ∧ q.length < l.length := by
  rcases h.split with ⟨h1, -⟩ | ⟨L', rfl, h1⟩
  · have := h1.length_le
    exact .inl (by omega)
  · cases h1 with
    | nil => exact .inl (by simp)
    | part _ _ q h1 h2 h3 => exact .inr ⟨q, rfl, h1, h2, h3⟩
    | cons _ _ L h4 =>
      have : L = [] := by
        have := h4.length_le
        simpa using this
      exact absurd (by rw [this]) hne

theorem Cut.mem {ls L : List Str} (h : Cut ls L) {x : Str} (hx : x ∈ L) : ∃ l ∈ ls, x <+: l := by
  induction h with
  | nil => simp at hx
  | part l ls q _ h2 _ =>
    simp only [List.mem_singleton] at hx
    subst hx
    exact ⟨l, by simp, h2⟩
  | cons l ls L _ ih =>
    rcases List.mem_cons.1 hx with rfl | hx
    · exact ⟨x, by simp, List.prefix_refl _⟩
    · obtain ⟨l', h1, h2⟩ := ih hx
      exact ⟨l', by simp [h1], h2⟩

/-! ### Repeated reading -/

theorem readlines_eq (n : Nat) (ls : List Str) :
    Grid.readlines n ls = ((List.range n).map (fun i => ls.getD i []), ls.drop n) := by
  induction n generalizing ls with
  | zero => simp [Grid.readlines]
  | succ n ih =>
    rw [Grid.readlines, ih, List.range_succ_eq_map]
    cases ls with
    | nil => simp [readline, Function.comp_def]
    | cons l ls => simp [readline, Function.comp_def]

/-! ### A zone cut short -/

theorem checkHead_len {vc : Nat} {a b c d e : Str} (h : checkHead vc a b c d e = .ok ()) :
    e.length = ("VARLOCATION=([4-".toList ++ Py.natStr vc ++ "]=CELLCENTERED)".toList).length + 1 := by
  unfold checkHead at h
  split at h
  · cases h
  · split at h
    · cases h
    · split at h
      · cases h
      · split at h
        · cases h
        · split at h
          · cases h
          · next h5 =>
            rw [not_not] at h5
            have := congrArg List.length h5
            rw [← this]
            have h0 : e ≠ [] := by
              rintro rfl
              rw [show Py.slice ([] : Str) none (some (-1)) = [] from rfl] at h5
              simp at h5
            have : 0 < e.length := List.length_pos_of_ne_nil h0
            simp only [Py.slice, Py.bound, List.drop_zero, List.length_take]
            rw [if_pos (by omega)]
            omega

theorem res_cases {α : Type} (r : Res α) : (∃ e, r = .error e) ∨ ∃ a, r = .ok a := by
  cases r with
  | error e => exact .inl ⟨e, rfl⟩
  | ok a => exact .inr ⟨a, rfl⟩

/-- A zone whose head is not complete is refused. -/
theorem parseZone_head (c : Codec F) (vars : List Str) (line : Str) (L : List Str)
    (h : (L.getD 4 []).length < ("VARLOCATION=([4-".toList ++ Py.natStr vars.length ++ "]=CELLCENTERED)".toList).length + 1) :
    ∃ e, parseZone c vars line L = .error e := by
  unfold parseZone
  rcases res_cases (lastField line) with ⟨e, he⟩ | ⟨zl, he⟩
  · exact ⟨e, by rw [he]; rfl⟩
  · rw [he, res_bind_ok, readlines_eq]
    simp only [show List.range 5 = [0, 1, 2, 3, 4] from rfl, List.map_cons, List.map_nil]
    rcases res_cases (checkHead vars.length (L.getD 0 []) (L.getD 1 []) (L.getD 2 []) (L.getD 3 []) (L.getD 4 [])) with ⟨e, he⟩ | ⟨u, he⟩
    · exact ⟨e, by rw [he]; rfl⟩
    · have := checkHead_len he
      omega

theorem parseFloats_ws (c : Codec F) {l : Str} (h : ∀ ch ∈ l, Py.isWs ch = true) : parseFloats c l = .ok [] := by
  unfold parseFloats Py.splitWs
  rw [Py.splitWsAux_ws h]
  rfl

theorem getD_cases (L : List Str) (i : Nat) : L.getD i [] = [] ∨ L.getD i [] ∈ L := by
  by_cases h : i < L.length
  · right; simp [h]
  · left; simp [h]

theorem zone_line (t : ZoneText F) (hn : PlainName t.name) : lastField ("ZONE T=\"".toList ++ t.name ++ "\"\n".toList) =
    .ok ('"' :: t.name ++ "\"\n".toList) := by
  refine (lastField_one (a := "ZONE T".toList) (b := '"' :: t.name ++ "\"\n".toList) (by decide) ?_)
  have := hn.1
  simp [this]

/-- The five lines of the head. -/
def zoneHead (vc : Nat) (t : ZoneText F) : List Str :=
  ["NODES=".toList ++ (Py.natStr t.pts.length ++ ['\n']), "ELEMENTS=".toList ++ (Py.natStr t.conns.length ++ ['\n']),
  "DATAPACKING=BLOCK\n".toList, "ZONETYPE=FETRIANGLE\n".toList,
  "VARLOCATION=([4-".toList ++ Py.natStr vc ++ "]=CELLCENTERED)\n".toList]

/-- The lines with numbers. -/
def zoneBody (c : Codec F) (t : ZoneText F) : List Str :=
  floatLine c (t.pts.map Vec.x) :: floatLine c (t.pts.map Vec.y) :: floatLine c (t.pts.map Vec.z) ::
  (t.rows.map (floatLine c) ++ t.conns.map connLine)

theorem lines_parts (c : Codec F) (vc : Nat) (t : ZoneText F) :
    t.lines c vc = ("ZONE T=\"".toList ++ t.name ++ "\"\n".toList) :: (zoneHead vc t ++ zoneBody c t) := by
  simp [ZoneText.lines, zoneLines, zoneHead, zoneBody]

/-- After the head of a zone. -/
theorem parseZone_body (c : Codec F) (vars : List Str) (t : ZoneText F) (hn : PlainName t.name) (L : List Str) :
    parseZone c vars ("ZONE T=\"".toList ++ t.name ++ "\"\n".toList) (zoneHead vars.length t ++ L) = (do
      let cs ← [L.getD 0 [], L.getD 1 [], L.getD 2 []].mapM (parseFloats c)
      match cs with
      | [cx, cy, cz] =>
        let pts ← (List.range t.pts.length).mapM (pointAt cx cy cz)
        let d ← ((List.range (vars.drop 3).length).map (fun i => (L.drop 3).getD i [])).mapM (parseFloats c)
        let datas ← (List.range t.conns.length).mapM (dataAt (vars.drop 3) d)
        let conns ← ((List.range t.conns.length).map (fun i => ((L.drop 3).drop (vars.drop 3).length).getD i [])).mapM parseInts
        pure ({ name := t.name, pts := pts, faces := datas.zip conns },
          ((L.drop 3).drop (vars.drop 3).length).drop t.conns.length)
      | _ => .error .index) := by
  have hnn : countOf ("NODES=".toList ++ (Py.natStr t.pts.length ++ ['\n'])) = _ :=
    countOf_line (a := "NODES".toList) (by decide) t.pts.length
  have hf : countOf ("ELEMENTS=".toList ++ (Py.natStr t.conns.length ++ ['\n'])) = _ :=
    countOf_line (a := "ELEMENTS".toList) (by decide) t.conns.length
  unfold parseZone zoneHead
  rw [zone_line t hn, res_bind_ok]
  simp only [show ∀ (a b c d e : Str) l, Grid.readlines 5 ([a, b, c, d, e] ++ l) = ([a, b, c, d, e], l) from
    fun _ _ _ _ _ _ => rfl]
  rw [checkHead_ok, res_bind_ok, hnn, res_bind_ok, hf, res_bind_ok]
  simp only [readlines_eq, show List.range 3 = [0, 1, 2] from rfl, List.map_cons, List.map_nil, Int.toNat_natCast,
    show Py.slice ('"' :: t.name ++ "\"\n".toList) (some 1) (some (-2)) = t.name from
      Py.slice_one_neg '"' t.name _ 2 (by omega) rfl]
  rfl

theorem mapM_length {α β : Type} {f : α → Res β} {l : List α} {l' : List β} (h : l.mapM f = .ok l') : l'.length = l.length := by
  induction l generalizing l' with
  | nil => cases h; rfl
  | cons a l ih =>
    rw [List.mapM_cons] at h
    simp only [res_bind_eq_ok] at h
    obtain ⟨b, -, l2, h2, h3⟩ := h
    cases h3
    simp [ih h2]

theorem mapM_getElem {α β : Type} {f : α → Res β} {l : List α} {l' : List β} (h : l.mapM f = .ok l') (i : Nat) (hi : i < l.length)
    (hi' : i < l'.length) : f l[i] = .ok l'[i] := by
  induction l generalizing l' i with
  | nil => simp at hi
  | cons a l ih =>
    rw [List.mapM_cons] at h
    simp only [res_bind_eq_ok] at h
    obtain ⟨b, h1, l2, h2, h3⟩ := h
    cases h3
    cases i with
    | zero => exact h1
    | succ i => exact ih h2 i (by simpa using hi) (by simpa using hi')

/-- A zone without faces is read even if its empty lines are missing. -/
theorem zone_empty (c : Codec F) (vars : List Str) (t : ZoneText F) (hn : PlainName t.name) (h1 : t.conns = []) (h2 : t.pts = [])
    (L : List Str) (hw : ∀ l ∈ L, ∀ ch ∈ l, Py.isWs ch = true) (hl : L.length ≤ 3 + (vars.drop 3).length) :
    parseZone c vars ("ZONE T=\"".toList ++ t.name ++ "\"\n".toList) (zoneHead vars.length t ++ L) = .ok (t.block (vars.drop 3), []) := by
  have hg : ∀ (M : List Str) (i : Nat), (∀ l ∈ M, l ∈ L) → parseFloats c (M.getD i []) = .ok [] := by
    intro M i hM
    apply parseFloats_ws
    rcases getD_cases M i with e | e
    · rw [e]; simp
    · exact hw _ (hM _ e)
  rw [parseZone_body c vars t hn, mapM_eq_ok (h := fun _ => []) (by
    intro a ha
    simp only [List.mem_cons, List.not_mem_nil, or_false] at ha
    rcases ha with rfl | rfl | rfl <;> exact hg L _ (fun _ h => h)), res_bind_ok]
  simp only [List.map_cons, List.map_nil, h1, h2, List.length_nil, List.range_zero]
  rw [mapM_eq_ok (h := fun _ => []) (by
    intro a ha
    obtain ⟨i, -, rfl⟩ := List.mem_map.1 ha
    exact hg _ _ (fun _ h => List.mem_of_mem_drop h))]
  have e : ((L.drop 3).drop (vars.drop 3).length).drop 0 = [] := by
    rw [List.drop_eq_nil_iff.2]
    simp only [List.length_drop] at hl ⊢
    omega
  rw [e]
  simp [ZoneText.block, h1, h2]

/-- A zone whose last line is missing is refused by the reader of numbers or has a face without corners. -/
theorem zone_missing (c : Codec F) (vars : List Str) (t : ZoneText F) (hn : PlainName t.name) (h1 : t.conns ≠ [])
    (L : List Str) (hl : L.length < 3 + (vars.drop 3).length + t.conns.length) :
    (∃ e, parseZone c vars ("ZONE T=\"".toList ++ t.name ++ "\"\n".toList) (zoneHead vars.length t ++ L) = .error e) ∨
    ∃ b, parseZone c vars ("ZONE T=\"".toList ++ t.name ++ "\"\n".toList) (zoneHead vars.length t ++ L) = .ok (b, []) ∧ ¬ b.Valid := by
  rcases res_cases (parseZone c vars ("ZONE T=\"".toList ++ t.name ++ "\"\n".toList) (zoneHead vars.length t ++ L)) with h | ⟨⟨b, rem⟩, h⟩
  · exact .inl h
  · right
    have h0 := h
    rw [parseZone_body c vars t hn] at h
    simp only [res_bind_eq_ok] at h
    obtain ⟨cs, -, h⟩ := h
    split at h
    · simp only [res_bind_eq_ok] at h
      obtain ⟨pts, -, d, -, datas, h3, conns, h4, h⟩ := h
      have h5 := mapM_length h3
      have h6 := mapM_length h4
      simp only [List.length_range, List.length_map] at h5 h6
      have hpos := List.length_pos_of_ne_nil h1
      have h7 := mapM_getElem h4 (t.conns.length - 1) (by simp; omega) (by omega)
      simp only [List.getElem_map, List.getElem_range] at h7
      rw [show ((L.drop 3).drop (vars.drop 3).length).getD (t.conns.length - 1) [] = [] from by
        rw [List.getD_eq_getElem?_getD, List.getElem?_eq_none]
        · rfl
        · simp only [List.length_drop] at hl ⊢
          omega] at h7
      have h8 : conns[t.conns.length - 1]'(by omega) = [] := by
        simpa [parseInts, Py.splitWs, Py.splitWsAux] using h7.symm
      cases h
      have e : ((L.drop 3).drop (vars.drop 3).length).drop t.conns.length = [] := by
        rw [List.drop_eq_nil_iff.2]
        simp only [List.length_drop] at hl ⊢
        omega
      refine ⟨_, by rw [h0, e], ?_⟩
      intro hv
      have hm : (datas[t.conns.length - 1]'(by omega), conns[t.conns.length - 1]'(by omega)) ∈ datas.zip conns := by
        rw [List.mem_iff_getElem]
        exact ⟨t.conns.length - 1, by simp; omega, by simp⟩
      have := (hv _ hm).1
      rw [h8] at this
      simp at this
    · cases h

/-- A zone whose last line is incomplete. -/
theorem zone_partial {c : Codec F} (hc : c.Lawful) (vars : List Str) (t : ZoneText F) (ht : t.Ok (vars.drop 3)) (hv : (vars.drop 3).Nodup)
    (cs : List (List Int)) (x : List Int) (h1 : t.conns = cs ++ [x]) (q : Str) :
    (∃ e, parseZone c vars ("ZONE T=\"".toList ++ t.name ++ "\"\n".toList) (zoneHead vars.length t ++
      (floatLine c (t.pts.map Vec.x) :: floatLine c (t.pts.map Vec.y) :: floatLine c (t.pts.map Vec.z) ::
        (t.rows.map (floatLine c) ++ cs.map connLine ++ [q]))) = .error e) ∨
    ∃ l, parseInts q = .ok l ∧
      parseZone c vars ("ZONE T=\"".toList ++ t.name ++ "\"\n".toList) (zoneHead vars.length t ++
      (floatLine c (t.pts.map Vec.x) :: floatLine c (t.pts.map Vec.y) :: floatLine c (t.pts.map Vec.z) ::
        (t.rows.map (floatLine c) ++ cs.map connLine ++ [q]))) = .ok (({ t with conns := cs ++ [l] } : ZoneText F).block (vars.drop 3), []) := by
  rcases res_cases (parseInts q) with ⟨e, he⟩ | ⟨l, he⟩
  · left
    rcases res_cases (parseZone c vars ("ZONE T=\"".toList ++ t.name ++ "\"\n".toList) (zoneHead vars.length t ++
      (floatLine c (t.pts.map Vec.x) :: floatLine c (t.pts.map Vec.y) :: floatLine c (t.pts.map Vec.z) ::
        (t.rows.map (floatLine c) ++ cs.map connLine ++ [q])))) with h | ⟨r, h⟩
    · exact h
    · exfalso
      rw [parseZone_body c vars t ht.name] at h
      simp only [res_bind_eq_ok] at h
      obtain ⟨_, -, h⟩ := h
      split at h
      · simp only [res_bind_eq_ok] at h
        obtain ⟨_, -, _, -, _, -, conns, h4, -⟩ := h
        have h6 := mapM_length h4
        simp only [List.length_range, List.length_map] at h6
        have hlen : t.conns.length = cs.length + 1 := by rw [h1]; simp
        have h7 := mapM_getElem h4 cs.length (by simp [hlen]) (by omega)
        simp only [List.getElem_map, List.getElem_range] at h7
        rw [show (List.drop (vars.drop 3).length (List.drop 3 (floatLine c (t.pts.map Vec.x) :: floatLine c (t.pts.map Vec.y) ::
          floatLine c (t.pts.map Vec.z) :: (t.rows.map (floatLine c) ++ cs.map connLine ++ [q])))).getD cs.length [] = q from by
            rw [show List.drop 3 (floatLine c (t.pts.map Vec.x) :: floatLine c (t.pts.map Vec.y) ::
              floatLine c (t.pts.map Vec.z) :: (t.rows.map (floatLine c) ++ cs.map connLine ++ [q])) =
              t.rows.map (floatLine c) ++ (cs.map connLine ++ [q]) from by simp,
              List.drop_append_of_le_length (by simp [ht.rows]), List.drop_of_length_le (by simp [ht.rows])]
            simp] at h7
        rw [he] at h7
        cases h7
      · cases h
  · right
    refine ⟨l, he, ?_⟩
    have hr := parseZone_raw (c := c) vars { t with conns := cs ++ [l] } ⟨ht.name, ht.rows, by
        intro r hr
        rw [ht.row r hr, h1]
        simp⟩ hv
      ⟨floatLine c (t.pts.map Vec.x), floatLine c (t.pts.map Vec.y), floatLine c (t.pts.map Vec.z), t.rows.map (floatLine c),
        cs.map connLine ++ [q]⟩ ⟨parseFloats_line hc _, parseFloats_line hc _, parseFloats_line hc _, by
          rw [List.forall₂_map_left_iff]
          exact List.forall₂_same.2 (fun _ _ => parseFloats_line hc _), by
          refine List.rel_append ?_ (.cons he .nil)
          rw [List.forall₂_map_left_iff]
          exact List.forall₂_same.2 (fun _ _ => parseInts_line _)⟩ []
    rw [← hr]
    simp [zoneHead, RawZone.tail, h1]

/-! ### A number cut short -/

theorem prefix_natStrAux (fuel k : Nat) (hf : k < fuel) {w : Str} (hw : w ≠ []) (h : w <+: Py.natStrAux fuel k) :
    ∃ i, Py.parseDigits 0 false w = some (k / 10 ^ i) ∧ (1 ≤ k → 1 ≤ k / 10 ^ i) := by
  induction fuel generalizing k with
  | zero => omega
  | succ fuel ih =>
    have hp := Py.parse_natStrAux (fuel + 1) k hf
    have hall : w = Py.natStrAux (fuel + 1) k →
        ∃ i, Py.parseDigits 0 false w = some (k / 10 ^ i) ∧ (1 ≤ k → 1 ≤ k / 10 ^ i) := by
      rintro rfl
      exact ⟨0, by simpa using hp, by simp⟩
    by_cases h10 : k < 10
    · apply hall
      rw [Py.natStrAux, if_pos h10] at h ⊢
      rcases prefix_append_cases (a := [Py.digitCh k]) (b := []) (by simpa using h) with ⟨-, h2⟩ | ⟨p', rfl, h2⟩
      · simp at h2; exact absurd h2 hw
      · have : p' = [] := by simpa using h2
        simp [this]
    · have hs : Py.natStrAux (fuel + 1) k = Py.natStrAux fuel (k / 10) ++ [Py.digitCh (k % 10)] := by
        rw [Py.natStrAux, if_neg h10]
      have h' := h
      rw [hs] at h'
      rcases List.prefix_concat_iff.1 h' with h2 | h2
      · exact hall (h2.trans hs.symm)
      · obtain ⟨i, h3, h4⟩ := ih (k / 10) (by omega) h2
        refine ⟨i + 1, ?_, fun hk => ?_⟩
        · rw [h3, Nat.div_div_eq_div_mul, pow_succ, Nat.mul_comm]
        · have := h4 (by omega)
          rwa [Nat.div_div_eq_div_mul, Nat.mul_comm, ← pow_succ] at this

theorem int_prefix {k : Nat} {w : Str} (hw : w ≠ []) (h : w <+: Py.natStr k) :
    ∃ i, Py.int w = .ok ((k / 10 ^ i : Nat) : Int) ∧ (1 ≤ k → 1 ≤ k / 10 ^ i) := by
  obtain ⟨i, h1, h2⟩ := prefix_natStrAux (k + 1) k (by omega) hw h
  refine ⟨i, ?_, h2⟩
  have hd : ∀ ch ∈ w, Py.isDecimal ch = true := by
    intro ch hc
    obtain ⟨d, hd⟩ := Py.natStr_allDec k ch (h.subset hc)
    simp [Py.isDecimal, hd]
  have hws : ∀ ch ∈ w, Py.isWs ch = false := fun ch hc => (Py.natStr_facts k).1 ch (h.subset hc)
  unfold Py.int
  rw [Py.strip_of_noWs hws]
  have : Py.signed? w = (Py.parseDigits 0 false w).map Int.ofNat := by
    unfold Py.signed?
    split
    · exact absurd (hd '+' (by simp)) (by decide)
    · exact absurd (hd '-' (by simp)) (by decide)
    · rfl
  rw [this, h1]
  rfl

theorem splitWs_cons {a r : Str} (ha : a ≠ []) (hw : ∀ ch ∈ a, Py.isWs ch = false) : Py.splitWs (a ++ ' ' :: r) = a :: Py.splitWs r := by
  unfold Py.splitWs
  rw [Py.splitWsAux_word hw, Py.splitWsAux, if_pos (by decide), if_neg (by simpa using ha)]
  simp

theorem splitWs_word_le {a : Str} (hw : ∀ ch ∈ a, Py.isWs ch = false) : Py.splitWs a = if a = [] then [] else [a] := by
  have := Py.splitWsAux_word hw [] []
  unfold Py.splitWs
  simp only [List.append_nil, List.nil_append] at this
  rw [this, Py.splitWsAux]

/-- A connectivity line cut short that still has three numbers: only the last one can be different. -/
theorem connLine_short {a b : Int} {k : Nat} {q : Str} (hq : q <+: connLine [a, b, (k : Int)]) (hlen : q.length < (connLine [a, b, (k : Int)]).length)
    {l : List Int} (hl : parseInts q = .ok l) (h3 : l.length = 3) :
    ∃ i, l = [a, b, ((k / 10 ^ i : Nat) : Int)] ∧ (1 ≤ k → 1 ≤ k / 10 ^ i) := by
  have hn := mapM_length hl
  have ha := Py.intStr_facts a
  have hb := Py.intStr_facts b
  have hx : Py.intStr (k : Int) = Py.natStr k := rfl
  have e : connLine [a, b, (k : Int)] = Py.intStr a ++ ([' '] ++ (Py.intStr b ++ ([' '] ++ (Py.natStr k ++ ['\n'])))) := by
    simp [connLine, Py.join, hx]
  rw [e] at hq hlen
  have pre : ∀ {w s : Str}, w <+: s → (∀ ch ∈ s, Py.isWs ch = false) → ∀ ch ∈ w, Py.isWs ch = false :=
    fun h h1 ch hc => h1 ch (h.subset hc)
  have le1 : ∀ {w s : Str}, w <+: s → (∀ ch ∈ s, Py.isWs ch = false) → (Py.splitWs w).length ≤ 1 := by
    intro w s h h1
    rw [splitWs_word_le (pre h h1)]
    split <;> simp
  rcases prefix_append_cases hq with ⟨h1, -⟩ | ⟨q1, rfl, h1⟩
  · have := le1 h1 ha.2
    omega
  rcases prefix_append_cases h1 with ⟨-, h2⟩ | ⟨q2, rfl, h2⟩
  · have : q1 = [] := by simpa using h2
    subst this
    have := le1 (List.prefix_refl _) ha.2
    rw [List.append_nil] at hn
    omega
  have hs1 : Py.splitWs (Py.intStr a ++ ([' '] ++ q2)) = Py.intStr a :: Py.splitWs q2 := splitWs_cons ha.1 ha.2
  rcases prefix_append_cases h2 with ⟨h3', -⟩ | ⟨q3, rfl, h3'⟩
  · have := le1 h3' hb.2
    rw [hs1, List.length_cons] at hn
    omega
  rcases prefix_append_cases h3' with ⟨-, h4⟩ | ⟨q4, rfl, h4⟩
  · have : q3 = [] := by simpa using h4
    subst this
    have := le1 (List.prefix_refl _) hb.2
    rw [hs1, List.length_cons, List.append_nil] at hn
    omega
  have hs2 : Py.splitWs (Py.intStr b ++ ([' '] ++ q4)) = Py.intStr b :: Py.splitWs q4 := splitWs_cons hb.1 hb.2
  have h5 : q4 <+: Py.natStr k := by
    rcases prefix_append_cases h4 with ⟨h5, -⟩ | ⟨q5, rfl, h5⟩
    · exact h5
    · have : q5 = [] := by
        simp only [List.length_append, List.length_cons, List.length_nil] at hlen
        exact List.eq_nil_of_length_eq_zero (by omega)
      simp [this]
  have hne : q4 ≠ [] := by
    rintro rfl
    rw [hs1, hs2] at hn
    simp [Py.splitWs, Py.splitWsAux] at hn
    omega
  obtain ⟨i, h6, h7⟩ := int_prefix hne h5
  refine ⟨i, ?_, h7⟩
  have hs3 : Py.splitWs q4 = [q4] := by rw [splitWs_word_le (pre h5 (Py.natStr_facts k).1), if_neg hne]
  unfold parseInts at hl
  rw [hs1, hs2, hs3] at hl
  rw [mapM_of_forall₂ (l' := [a, b, ((k / 10 ^ i : Nat) : Int)]) (.cons (Py.int_intStr a) (.cons (Py.int_intStr b) (.cons h6 .nil)))] at hl
  exact (Except.ok.inj hl).symm

/-! ### Zones and files cut short -/

/-- The last number of the zone has lost some of its last digits. -/
def ShortText (t t' : ZoneText F) : Prop :=
  ∃ cs a b k i, t.conns = cs ++ [[a, b, ((k : Nat) : Int)]] ∧ t' = { t with conns := cs ++ [[a, b, ((k / 10 ^ i : Nat) : Int)]] } ∧
    (1 ≤ k → 1 ≤ k / 10 ^ i)

theorem not_contains_noEq {p q : Str} (hp : '=' ∈ p) (hq : '=' ∉ q) : Py.contains p q = false := by
  rw [Bool.eq_false_iff]
  intro h
  obtain ⟨a, b, rfl⟩ := (Py.contains_iff _ _).1 h
  exact hq (by simp [hp])

/-- The first line of a zone alone, complete or not, is refused. -/
theorem zone_first {c : Codec F} (n : Nat) (s : FileState F) (t : ZoneText F) (hn : PlainName t.name) {q : Str} (h0 : q ≠ [])
    (hq : q <+: "ZONE T=\"".toList ++ t.name ++ "\"\n".toList) : ∃ e, parseFile c (n + 1) s [q] = .error e := by
  have hh : q.head? ≠ some '#' := by
    rw [show "ZONE T=\"".toList ++ t.name ++ "\"\n".toList = 'Z' :: ("ONE T=\"".toList ++ t.name ++ "\"\n".toList) from rfl] at hq
    cases q with
    | nil => exact absurd rfl h0
    | cons x q =>
      rw [List.cons_prefix_cons] at hq
      rw [hq.1]
      simp
  have e : "ZONE T=\"".toList ++ t.name ++ "\"\n".toList = "ZONE T".toList ++ '=' :: ('"' :: t.name ++ "\"\n".toList) := by simp
  rw [e] at hq
  rw [parseFile, if_neg hh]
  have plain : '=' ∉ q → ∃ e, (if Py.contains "TITLE=".toList q then do
      let t ← Py.get (Py.splitCh '=' q) 1
      parseFile c n { s with name := Py.slice t (some 1) (some (-2)) } []
    else if Py.contains "VARIABLES=".toList q then do
      let v ← varsOf q
      parseFile c n { s with vars := v } []
    else if Py.contains "ZONE T=".toList q then do
      let r ← parseZone c s.vars q []
      parseFile c n { s with blocks := s.blocks ++ [r.1] } r.2
    else .error (.exc "Unexpected line")) = .error e := by
    intro h
    rw [not_contains_noEq (by decide) h, not_contains_noEq (by decide) h, not_contains_noEq (by decide) h]
    exact ⟨_, rfl⟩
  rcases prefix_append_cases hq with ⟨h1, -⟩ | ⟨q1, rfl, h1⟩
  · exact plain (fun h => absurd (h1.subset h) (by decide))
  · cases q1 with
    | nil => exact plain (by decide)
    | cons x q2 =>
      rw [List.cons_prefix_cons] at h1
      obtain ⟨rfl, h1⟩ := h1
      have hb : '=' ∉ q2 := by
        intro h
        have := h1.subset h
        have h3 := hn.1
        simp [h3] at this
      rw [if_neg, if_neg, if_pos]
      · obtain ⟨e, he⟩ := parseZone_head c s.vars ("ZONE T".toList ++ '=' :: q2) [] (by simp)
        exact ⟨e, by rw [he]; rfl⟩
      · rw [show "ZONE T".toList ++ '=' :: q2 = "ZONE T=".toList ++ q2 from by simp]
        exact Py.contains_prefix _ _
      · rw [show "VARIABLES=".toList = "VARIABLES".toList ++ ['='] from by decide,
          Py.not_contains_eq (by decide) hb (by decide) (by decide)]
        simp
      · rw [show "TITLE=".toList = "TITLE".toList ++ ['='] from by decide,
          Py.not_contains_eq (by decide) hb (by decide) (by decide)]
        simp

theorem parseFile_zoneLine {c : Codec F} (n : Nat) (s : FileState F) (t : ZoneText F) (hn : PlainName t.name) (L : List Str) :
    parseFile c (n + 1) s (("ZONE T=\"".toList ++ t.name ++ "\"\n".toList) :: L) = (do
      let r ← parseZone c s.vars ("ZONE T=\"".toList ++ t.name ++ "\"\n".toList) L
      parseFile c n { s with blocks := s.blocks ++ [r.1] } r.2) := by
  have hb : '=' ∉ '"' :: t.name ++ "\"\n".toList := by have := hn.1; simp [this]
  have e : "ZONE T=\"".toList ++ t.name ++ "\"\n".toList = "ZONE T".toList ++ '=' :: ('"' :: t.name ++ "\"\n".toList) := by simp
  rw [parseFile, if_neg (by simp), if_neg, if_neg, if_pos]
  · rw [e, show "ZONE T".toList ++ '=' :: ('"' :: t.name ++ "\"\n".toList) = "ZONE T=".toList ++ ('"' :: t.name ++ "\"\n".toList)
      from by simp]
    exact Py.contains_prefix _ _
  · rw [e, show "VARIABLES=".toList = "VARIABLES".toList ++ ['='] from by decide,
      Py.not_contains_eq (by decide) hb (by decide) (by decide)]
    simp
  · rw [e, show "TITLE=".toList = "TITLE".toList ++ ['='] from by decide,
      Py.not_contains_eq (by decide) hb (by decide) (by decide)]
    simp

theorem parseFile_nil (c : Codec F) (n : Nat) (s : FileState F) : parseFile c n s [] = .ok s := by cases n <;> rfl

/-- What the faces of a stored zone look like. -/
structure ThreeText (t : ZoneText F) : Prop where
  three : ∀ x ∈ t.conns, ∃ (a b : Int) (k : Nat), x = [a, b, (k : Int)]
  none : t.conns = [] → t.pts = []

theorem zone_cut {c : Codec F} (hc : c.Lawful) (n : Nat) (s : FileState F) (t : ZoneText F) (ht : t.Ok (s.vars.drop 3))
    (hv : (s.vars.drop 3).Nodup) (h3 : ThreeText t) {L : List Str} (hL : Cut (t.lines c s.vars.length) L)
    (hne : L ≠ t.lines c s.vars.length) (hn : L.length ≤ n) :
    L = [] ∨ (∃ e, parseFile c n s L = .error e) ∨ ∃ b, parseFile c n s L = .ok { s with blocks := s.blocks ++ [b] } ∧
      (b.Valid → ∃ t', (t' = t ∨ ShortText t t') ∧ b = t'.block (s.vars.drop 3)) := by
  rw [lines_parts] at hL hne
  cases hL with
  | nil => exact .inl rfl
  | part _ _ q h1 h2 h3 =>
    cases n with
    | zero => simp at hn
    | succ n => exact .inr (.inl (zone_first n s t ht.name h1 h2))
  | cons _ _ L hL =>
    right
    cases n with
    | zero => simp at hn
    | succ n =>
      have hne : L ≠ zoneHead s.vars.length t ++ zoneBody c t := fun h => hne (by rw [h])
      rw [parseFile_zoneLine n s t ht.name]
      have err : (∃ e, parseZone c s.vars ("ZONE T=\"".toList ++ t.name ++ "\"\n".toList) L = .error e) →
          ∃ e, (parseZone c s.vars ("ZONE T=\"".toList ++ t.name ++ "\"\n".toList) L >>= fun r =>
            parseFile c n { s with blocks := s.blocks ++ [r.1] } r.2) = .error e := by
        rintro ⟨e, he⟩
        exact ⟨e, by rw [he]; rfl⟩
      have good : ∀ b, parseZone c s.vars ("ZONE T=\"".toList ++ t.name ++ "\"\n".toList) L = .ok (b, []) →
          (parseZone c s.vars ("ZONE T=\"".toList ++ t.name ++ "\"\n".toList) L >>= fun r =>
            parseFile c n { s with blocks := s.blocks ++ [r.1] } r.2) = .ok { s with blocks := s.blocks ++ [b] } := by
        intro b hb
        rw [hb, res_bind_ok]
        exact parseFile_nil _ _ _
      rcases hL.split with ⟨h4, h5⟩ | ⟨L', rfl, h4⟩
      · left
        apply err
        apply parseZone_head
        rw [show zoneHead s.vars.length t = (zoneHead s.vars.length t).take 4 ++
          ["VARLOCATION=([4-".toList ++ Py.natStr s.vars.length ++ "]=CELLCENTERED)\n".toList] from rfl] at h4 h5
        rcases h4.last h5 with h6 | ⟨q, h6, -, -, h7⟩
        · have : L.length < 5 := by simpa [zoneHead] using h6
          rw [List.getD_eq_getElem?_getD, List.getElem?_eq_none (by omega)]
          simp
        · rw [h6, show ((zoneHead s.vars.length t).take 4 ++ [q]).getD 4 [] = q from rfl]
          simpa using h7
      · have hne' : L' ≠ zoneBody c t := fun h => hne (by rw [h])
        by_cases h0 : t.conns = []
        · right
          refine ⟨_, good _ (zone_empty c s.vars t ht.name h0 (h3.none h0) L' ?_ ?_), fun _ => ⟨t, .inl rfl, rfl⟩⟩
          · intro l hl
            obtain ⟨l', hl', hp⟩ := h4.mem hl
            have hw : ∀ ch ∈ l', Py.isWs ch = true := by
              have : l' = floatLine c [] := by
                simp only [zoneBody, h0, h3.none h0, List.map_nil, List.append_nil, List.mem_cons, List.mem_map] at hl'
                rcases hl' with h | h | h | ⟨r, hr, h⟩
                · exact h
                · exact h
                · exact h
                · rw [← h, List.eq_nil_of_length_eq_zero (by rw [ht.row r hr, h0]; rfl : r.length = 0)]
              rw [this]
              simp only [floatLine, List.map_nil, Py.join, List.nil_append]
              decide
            exact fun ch hch => hw ch (hp.subset hch)
          · have := h4.length_le
            simp only [zoneBody, h0, List.map_nil, List.append_nil, List.length_cons, List.length_map, ht.rows] at this
            omega
        · obtain ⟨cs, x, hx⟩ := List.eq_nil_or_concat t.conns |>.resolve_left h0
          rw [List.concat_eq_append] at hx
          have hb : zoneBody c t = (floatLine c (t.pts.map Vec.x) :: floatLine c (t.pts.map Vec.y) :: floatLine c (t.pts.map Vec.z) ::
              (t.rows.map (floatLine c) ++ cs.map connLine)) ++ [connLine x] := by
            simp [zoneBody, hx]
          rw [hb] at h4 hne'
          rcases h4.last hne' with h6 | ⟨q, h6, h7, h8, h9⟩
          · rcases zone_missing c s.vars t ht.name h0 L' (by
              simp only [List.length_cons, List.length_append, List.length_map, ht.rows, hx] at h6 ⊢
              simp only [List.length_nil]
              omega) with h | ⟨b, h1, h2⟩
            · exact .inl (err h)
            · exact .inr ⟨b, good b h1, fun h => absurd h h2⟩
          · obtain ⟨a, b, k, rfl⟩ := h3.three x (by rw [hx]; simp)
            rcases zone_partial hc s.vars t ht hv cs _ hx q with h | ⟨l, hl, h⟩
            · left
              apply err
              rw [h6]
              simpa using h
            · right
              refine ⟨_, good _ (by rw [h6]; simpa using h), fun hval => ?_⟩
              have hl3 : l.length = 3 := by
                have hm : ∃ d, (d, l) ∈ (({ t with conns := cs ++ [l] } : ZoneText F).block (s.vars.drop 3)).faces := by
                  simp only [ZoneText.block, List.length_append, List.length_cons, List.length_nil, Nat.zero_add, List.range_succ,
                    List.map_append, List.map_cons, List.map_nil]
                  rw [List.zip_append (by simp)]
                  exact ⟨_, List.mem_append_right _ (by simp; rfl)⟩
                obtain ⟨d, hd⟩ := hm
                exact (hval _ hd).1
              obtain ⟨i, rfl, hi⟩ := connLine_short h8 h9 hl hl3
              exact ⟨_, .inr ⟨cs, a, b, k, i, hx, rfl, hi⟩, rfl⟩

/-- The outcome of reading zones from a file that ends too early. -/
theorem zones_cut {c : Codec F} (hc : c.Lawful) (ts : List (ZoneText F)) (s : FileState F)
    (ht : ∀ t ∈ ts, t.Ok (s.vars.drop 3) ∧ ThreeText t) (hv : (s.vars.drop 3).Nodup) (n : Nat) {L : List Str}
    (hL : Cut (ts.flatMap (fun t => t.lines c s.vars.length)) L) (hn : L.length ≤ n) :
    (∃ e, parseFile c n s L = .error e) ∨
    (∃ j, parseFile c n s L = .ok { s with blocks := s.blocks ++ (ts.take j).map (fun t => t.block (s.vars.drop 3)) }) ∨
    ∃ j t b, ts[j]? = some t ∧
      parseFile c n s L = .ok { s with blocks := s.blocks ++ (ts.take j).map (fun t => t.block (s.vars.drop 3)) ++ [b] } ∧
      (b.Valid → ∃ t', (t' = t ∨ ShortText t t') ∧ b = t'.block (s.vars.drop 3)) := by
  induction ts generalizing n s L with
  | nil =>
    have : L = [] := by
      have := hL.length_le
      simpa using this
    subst this
    exact .inr (.inl ⟨0, by rw [parseFile_nil]; simp⟩)
  | cons t ts ih =>
    rw [List.flatMap_cons] at hL
    rcases hL.split with ⟨h1, h2⟩ | ⟨L', rfl, h1⟩
    · rcases zone_cut hc n s t (ht t (by simp)).1 hv (ht t (by simp)).2 h1 h2 hn with rfl | h | ⟨b, h3, h4⟩
      · exact .inr (.inl ⟨0, by rw [parseFile_nil]; simp⟩)
      · exact .inl h
      · exact .inr (.inr ⟨0, t, b, rfl, by simpa using h3, h4⟩)
    · cases n with
      | zero =>
        have := lines_length_pos c s.vars.length t
        rw [List.length_append] at hn
        omega
      | succ n =>
        rw [parseFile_zone hc n s t (ht t (by simp)).1 hv]
        have hn' : L'.length ≤ n := by
          have := lines_length_pos c s.vars.length t
          rw [List.length_append] at hn
          omega
        rcases ih { s with blocks := s.blocks ++ [t.block (s.vars.drop 3)] } (fun x hx => ht x (by simp [hx])) hv n h1 hn' with
          h | ⟨j, h⟩ | ⟨j, t', b, h2, h3, h4⟩
        · exact .inl h
        · exact .inr (.inl ⟨j + 1, by rw [h]; simp⟩)
        · exact .inr (.inr ⟨j + 1, t', b, by simpa using h2, by rw [h3]; simp, h4⟩)

/-- One last line never adds a zone. -/
theorem last_line (c : Codec F) (n : Nat) (s : FileState F) (q : Str) :
    (∃ e, parseFile c (n + 1) s [q] = .error e) ∨ ∃ s', parseFile c (n + 1) s [q] = .ok s' ∧ s'.blocks = s.blocks := by
  rw [parseFile]
  split
  · exact .inr ⟨s, parseFile_nil _ _ _, rfl⟩
  split
  · rcases res_cases (Py.get (Py.splitCh '=' q) 1) with ⟨e, he⟩ | ⟨t, he⟩
    · exact .inl ⟨e, by rw [he]; rfl⟩
    · exact .inr ⟨{ s with name := Py.slice t (some 1) (some (-2)) }, by rw [he, res_bind_ok, parseFile_nil], rfl⟩
  split
  · rcases res_cases (varsOf q) with ⟨e, he⟩ | ⟨t, he⟩
    · exact .inl ⟨e, by rw [he]; rfl⟩
    · exact .inr ⟨{ s with vars := t }, by rw [he, res_bind_ok, parseFile_nil], rfl⟩
  split
  · obtain ⟨e, he⟩ := parseZone_head c s.vars q [] (by simp)
    exact .inl ⟨e, by rw [he]; rfl⟩
  · exact .inl ⟨_, rfl⟩

theorem parseFile_comment (c : Codec F) (n : Nat) (s : FileState F) (ls : List Str) :
    parseFile c (n + 1) s ("# crys-gsu\n".toList :: ls) = parseFile c n s ls := by
  rw [parseFile, if_pos (by decide)]

/-- The outcome of reading a file that ends too early. -/
theorem file_cut {c : Codec F} (hc : c.Lawful) (nm0 name : Str) (hn : PlainName name) (fvars : List Str)
    (hf : ∀ v ∈ fvars, PlainVar v) (hv : fvars.Nodup) (ts : List (ZoneText F)) (ht : ∀ t ∈ ts, t.Ok fvars ∧ ThreeText t)
    {L : List Str} (hL : Cut (headLines name (xyz ++ fvars) ++ ts.flatMap (fun t => t.lines c (xyz ++ fvars).length)) L) :
    (∃ e, parseFile c L.length ⟨nm0, [], []⟩ L = .error e) ∨
    (∃ s, parseFile c L.length ⟨nm0, [], []⟩ L = .ok s ∧ s.blocks = []) ∨
    (∃ j, parseFile c L.length ⟨nm0, [], []⟩ L = .ok ⟨name, xyz ++ fvars, (ts.take j).map (fun t => t.block fvars)⟩) ∨
    ∃ j t b, ts[j]? = some t ∧
      parseFile c L.length ⟨nm0, [], []⟩ L = .ok ⟨name, xyz ++ fvars, (ts.take j).map (fun t => t.block fvars) ++ [b]⟩ ∧
      (b.Valid → ∃ t', (t' = t ∨ ShortText t t') ∧ b = t'.block fvars) := by
  have hp : ∀ v ∈ xyz ++ fvars, PlainVar v := by
    intro v h
    rcases List.mem_append.1 h with h | h
    · exact xyz_plain v h
    · exact hf v h
  have last := last_line c
  have fin : ∀ r : Res (FileState F), ((∃ e, r = .error e) ∨ ∃ s', r = .ok s' ∧ s'.blocks = []) →
    (∃ e, r = .error e) ∨ (∃ s, r = .ok s ∧ s.blocks = []) ∨
    (∃ j, r = .ok ⟨name, xyz ++ fvars, (ts.take j).map (fun t => t.block fvars)⟩) ∨
    ∃ j t b, ts[j]? = some t ∧ r = .ok ⟨name, xyz ++ fvars, (ts.take j).map (fun t => t.block fvars) ++ [b]⟩ ∧
      (b.Valid → ∃ t', (t' = t ∨ ShortText t t') ∧ b = t'.block fvars) := by
    rintro r (h | h)
    · exact .inl h
    · exact .inr (.inl h)
  unfold headLines at hL
  rw [List.cons_append, List.cons_append, List.cons_append, List.nil_append] at hL
  cases hL with
  | nil => exact fin _ (.inr ⟨_, rfl, rfl⟩)
  | part _ _ q h1 h2 h3 => exact fin _ (last 0 _ q)
  | cons _ _ L hL =>
  rw [List.length_cons, parseFile_comment]
  cases hL with
  | nil => exact fin _ (.inr ⟨_, rfl, rfl⟩)
  | part _ _ q h1 h2 h3 => exact fin _ (last 0 _ q)
  | cons _ _ L hL =>
  rw [List.length_cons, parseFile_title c _ _ hn]
  cases hL with
  | nil => exact fin _ (.inr ⟨_, rfl, rfl⟩)
  | part _ _ q h1 h2 h3 => exact fin _ (last 0 _ q)
  | cons _ _ L hL =>
  rw [List.length_cons, parseFile_vars c _ _ hp]
  have hd : (xyz ++ fvars).drop 3 = fvars := rfl
  rcases zones_cut hc ts ⟨name, xyz ++ fvars, []⟩ (by simpa only [hd] using ht) (by simpa only [hd] using hv) L.length hL (Nat.le_refl _) with
    h | ⟨j, h⟩ | ⟨j, t, b, h1, h2, h3⟩
  · exact .inl h
  · exact .inr (.inr (.inl ⟨j, by simpa [hd] using h⟩))
  · exact .inr (.inr (.inr ⟨j, t, b, h1, by simpa [hd] using h2, by simpa only [hd] using h3⟩))

end Verif
