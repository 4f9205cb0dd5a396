import Verif.Proofs.Tec2
import Mathlib.Tactic.Linarith

/-! Loading of nodes and elements. -/

namespace Verif
variable {F R : Type}

/-! ### The name of a zone -/

theorem splitStrAux_acc (sep : Str) (s : Str) : ∀ (k : Nat) (acc : Str), ∃ p ps, Py.splitStrAux sep k s acc = (acc ++ p) :: ps := by
  induction s with
  | nil => intro k acc; exact ⟨[], [], by simp [Py.splitStrAux]⟩
  | cons c s ih =>
    intro k acc
    cases k with
    | succ k => rw [Py.splitStrAux]; exact ih k acc
    | zero =>
      rw [Py.splitStrAux]
      split
      · exact ⟨[], _, by simp; rfl⟩
      · obtain ⟨p, ps, h⟩ := ih 0 (acc ++ [c])
        exact ⟨c :: p, ps, by rw [h]; simp⟩

theorem splitT_skip (a s acc : Str) (h : ¬ "T=".toList <:+: a) (hs : a.getLast? ≠ some 'T' ∨ s.head? ≠ some '=') :
    Py.splitStrAux "T=".toList 0 (a ++ s) acc = Py.splitStrAux "T=".toList 0 s (acc ++ a) := by
  induction a generalizing acc with
  | nil => simp
  | cons c a ih =>
    have h' : ¬ "T=".toList <:+: a := fun hh => h (hh.trans (List.suffix_cons c a).isInfix)
    have hs' : a.getLast? ≠ some 'T' ∨ s.head? ≠ some '=' := by
      rcases hs with hs | hs
      · left
        cases a with
        | nil => simp
        | cons d a => simpa [List.getLast?_cons_cons] using hs
      · exact .inr hs
    have hp : ¬ ("T=".toList.isPrefixOf (c :: (a ++ s)) = true) := by
      intro hp
      rw [List.isPrefixOf_iff_prefix] at hp
      obtain ⟨t, ht⟩ := hp
      cases a with
      | nil =>
        cases s with
        | nil => simp at ht
        | cons d s =>
          simp at ht hs
          obtain ⟨rfl, rfl, -⟩ := ht
          simp at hs
      | cons d a =>
        simp at ht
        obtain ⟨rfl, rfl, -⟩ := ht
        exact h ⟨[], a, by simp⟩
    rw [List.cons_append, Py.splitStrAux, if_neg hp, ih _ h' hs']
    simp

theorem zoneTitle_ok {head t : Str} (h : HasTitle head t) : Ansys.zoneTitle head = .ok t := by
  obtain ⟨pre, mid, post, rfl, hpre, hmid, ht, hT⟩ := h
  have hT' : ¬ "T=".toList <:+: mid ++ '"' :: t ++ ['"'] := by
    rintro ⟨u, v, huv⟩
    rcases List.eq_nil_or_concat v with rfl | ⟨w, x, rfl⟩
    · have := congrArg List.getLast? huv
      rw [List.getLast?_concat, List.append_nil, List.getLast?_append] at this
      simp at this
    · apply hT
      refine ⟨u, w, ?_⟩
      have := congrArg List.dropLast huv
      rw [List.concat_eq_append, ← List.append_assoc, List.dropLast_concat, List.dropLast_concat] at this
      exact this
  have hsplit : ∃ p ps, Py.splitStr "T=".toList (pre ++ "T=".toList ++ (mid ++ '"' :: t ++ '"' :: post)) =
      pre :: ((mid ++ '"' :: t ++ '"' :: p) :: ps) := by
    unfold Py.splitStr
    rw [List.append_assoc, splitT_skip pre _ [] hpre (.inr (by simp))]
    show ∃ p ps, Py.splitStrAux "T=".toList 0 ('T' :: '=' :: (mid ++ '"' :: t ++ '"' :: post)) _ = _
    rw [Py.splitStrAux, if_pos (by rfl)]
    show ∃ p ps, pre :: Py.splitStrAux "T=".toList 0 (mid ++ '"' :: t ++ '"' :: post) [] = _
    rw [show mid ++ '"' :: t ++ '"' :: post = (mid ++ '"' :: t ++ ['"']) ++ post from by simp,
      splitT_skip _ post [] hT' (.inl (by rw [List.getLast?_concat]; simp))]
    obtain ⟨p, ps, h⟩ := splitStrAux_acc "T=".toList post 0 ([] ++ (mid ++ '"' :: t ++ ['"']))
    exact ⟨p, ps, by rw [h]; simp⟩
  obtain ⟨p, ps, hs⟩ := hsplit
  unfold Ansys.zoneTitle
  rw [hs, show ∀ (a b : Str) (l : List Str), Py.get (a :: b :: l) 1 = .ok b from fun _ _ _ => rfl, res_bind_ok]
  rw [List.append_assoc, List.cons_append, Py.splitCh_cons _ hmid, Py.splitCh_cons _ ht]
  rfl

/-! ### Lines -/

variable [Field F]

theorem parseCoordinate_ok {c : Codec F} {s : Str} {v : F} (h : ReadsCoord c s v) : Ansys.parseCoordinate c s = v := by
  unfold Ansys.parseCoordinate
  rcases h with h | ⟨e, h, rfl⟩ <;> rw [h]

theorem addNode_ok {c : Codec F} {l : Str} {n : Ansys.CNode F} (h : NodeLine c l n) (z : Ansys.CZone F) :
    Ansys.addNode c l z = .ok { z with nodes := z.nodes ++ [n] } := by
  obtain ⟨x, y, w, h', b, tx, ty, tz, r, e, hx, hy, hz, hh, hb, htx, hty, htz, hr⟩ := h
  unfold Ansys.addNode
  rw [e]
  simp only [hh, hb, htx, hty, htz, hr, res_bind_ok, parseCoordinate_ok hx, parseCoordinate_ok hy, parseCoordinate_ok hz]

theorem position_ok {α : Type} (l : List α) {i : Nat} (h : i < l.length) : Ansys.position l ((i : Int) + 1 - 1) = .ok i := by
  unfold Ansys.position
  rw [show (i : Int) + 1 - 1 = (i : Int) from by omega, get_nat h, res_bind_ok, if_neg (by omega)]
  simp

theorem addElement_ok {l : Str} {q : Quad} (rev : Bool) (z : Ansys.CZone F) (h : ElemLine z.nodes.length l q) :
    Ansys.addElement rev l z = .ok { z with faces := z.faces ++ Ansys.quadFaces rev q.a q.b q.c q.d } := by
  obtain ⟨s1, s2, s3, s4, e, h1, h2, h3, h4, hk⟩ := h
  unfold Ansys.addElement
  rw [e]
  simp only [h1, h2, h3, h4, res_bind_ok]
  rw [position_ok _ (hk q.a (by simp [Quad.list])), res_bind_ok, position_ok _ (hk q.b (by simp [Quad.list])), res_bind_ok,
    position_ok _ (hk q.c (by simp [Quad.list])), res_bind_ok, position_ok _ (hk q.d (by simp [Quad.list])), res_bind_ok]

theorem eraseDups4 (a b c d : Nat) (h : 3 ≤ ([a, b, c, d].eraseDups).length) :
    (if a = b then [[a, c, d]] else if a = c then [[a, b, d]] else if a = d then [[a, b, c]] else if b = c then [[a, b, d]]
      else if b = d then [[a, b, c]] else if c = d then [[a, b, c]] else [[a, b, c], [a, c, d]]) =
    match [a, b, c, d].eraseDups with
      | [a, b, c, d] => [[a, b, c], [a, c, d]]
      | l => [l] := by
  by_cases hab : a = b
  · subst hab
    by_cases hac : a = c
    · subst hac
      by_cases had : a = d
      · subst had; simp [List.eraseDups_cons] at h
      · have had' : ¬ d = a := Ne.symm had
        simp [List.eraseDups_cons, had'] at h
    · have hac' : ¬ c = a := Ne.symm hac
      by_cases had : a = d
      · subst had; simp [List.eraseDups_cons, hac'] at h
      · have had' : ¬ d = a := Ne.symm had
        by_cases hcd : c = d
        · subst hcd; simp [List.eraseDups_cons, hac'] at h
        · have hcd' : ¬ d = c := Ne.symm hcd
          simp [List.eraseDups_cons, hac', had', hcd']
  · have hab' : ¬ b = a := Ne.symm hab
    by_cases hac : a = c
    · subst hac
      by_cases had : a = d
      · subst had; simp [List.eraseDups_cons, hab'] at h
      · have had' : ¬ d = a := Ne.symm had
        by_cases hbd : b = d
        · subst hbd; simp [List.eraseDups_cons, hab'] at h
        · have hbd' : ¬ d = b := Ne.symm hbd
          simp [List.eraseDups_cons, hab, hab', had', hbd']
    · have hac' : ¬ c = a := Ne.symm hac
      by_cases had : a = d
      · subst had
        by_cases hbc : b = c
        · subst hbc; simp [List.eraseDups_cons, hab'] at h
        · have hbc' : ¬ c = b := Ne.symm hbc
          simp [List.eraseDups_cons, hab, hab', hac, hac', hbc']
      · have had' : ¬ d = a := Ne.symm had
        by_cases hbc : b = c
        · subst hbc
          by_cases hbd : b = d
          · subst hbd; simp [List.eraseDups_cons, hab'] at h
          · have hbd' : ¬ d = b := Ne.symm hbd
            simp [List.eraseDups_cons, hab, hab', had, had', hbd']
        · have hbc' : ¬ c = b := Ne.symm hbc
          by_cases hbd : b = d
          · subst hbd
            simp [List.eraseDups_cons, hab, hab', hac, hac', hbc, hbc']
          · have hbd' : ¬ d = b := Ne.symm hbd
            by_cases hcd : c = d
            · subst hcd
              simp [List.eraseDups_cons, hab, hab', hac, hac', hbc, hbc']
            · have hcd' : ¬ d = c := Ne.symm hcd
              simp [List.eraseDups_cons, hab, hab', hac, hac', hbc, hbc', had, had', hbd, hbd', hcd, hcd']

theorem quadFaces_false (a b c d : Nat) : (Ansys.quadFaces false a b c d : List (Ansys.CFace F)) =
    if a = b then [Ansys.face a c d] else if a = c then [Ansys.face a b d] else if a = d then [Ansys.face a b c]
    else if b = c then [Ansys.face a b d] else if b = d then [Ansys.face a b c] else if c = d then [Ansys.face a b c]
    else [Ansys.face a b c, Ansys.face a c d] := rfl

theorem quadFaces_corners (rev : Bool) (q : Quad) (h : 3 ≤ (q.corners rev).length) :
    (Ansys.quadFaces rev q.a q.b q.c q.d : List (Ansys.CFace F)).map faceCorners = q.triangles rev := by
  have key : ∀ a b c d : Nat, 3 ≤ ([a, b, c, d].eraseDups).length →
      (Ansys.quadFaces false a b c d : List (Ansys.CFace F)).map faceCorners = match [a, b, c, d].eraseDups with
        | [a, b, c, d] => [[a, b, c], [a, c, d]]
        | l => [l] := by
    intro a b c d h
    rw [← eraseDups4 a b c d h, quadFaces_false]
    clear h
    split_ifs <;> rfl
  cases rev with
  | false => exact key q.a q.b q.c q.d h
  | true => exact key q.d q.c q.b q.a h

/-! ### Zones -/

theorem onLast_ok (zs : List (Ansys.CZone F)) (z z' : Ansys.CZone F) (f : Ansys.CZone F → Res (Ansys.CZone F)) (h : f z = .ok z') :
    Ansys.onLast (zs ++ [z]) f = .ok (zs ++ [z']) := by
  unfold Ansys.onLast
  simp [h]

theorem loadLine_plain {c : Codec F} (rev : Bool) {l : Str} (h : PlainLine l) (s : Ansys.Loader F) :
    Ansys.loadLine c rev s l =
      if s.nodes > 0 then do
        let zs ← Ansys.onLast s.zones (Ansys.addNode c l)
        .ok ⟨s.nodes - 1, s.elems, zs⟩
      else if s.elems > 0 then do
        let zs ← Ansys.onLast s.zones (Ansys.addElement rev l)
        .ok ⟨s.nodes, s.elems - 1, zs⟩
      else .ok s := by
  unfold Ansys.loadLine
  rw [(contains_false_iff _ _).mpr h.2.1, (contains_false_iff _ _).mpr h.2.2.1, (contains_false_iff _ _).mpr h.2.2.2]
  rfl

theorem load_nodes {c : Codec F} (rev : Bool) (e : Nat) (zs : List (Ansys.CZone F)) {ls : List Str} {ns : List (Ansys.CNode F)}
    (hr : List.Forall₂ (NodeLine c) ls ns) (hp : ∀ l ∈ ls, PlainLine l) (z : Ansys.CZone F) :
    ls.foldlM (Ansys.loadLine c rev) ⟨ls.length, e, zs ++ [z]⟩ = .ok ⟨0, e, zs ++ [{ z with nodes := z.nodes ++ ns }]⟩ := by
  induction hr generalizing z with
  | nil => simp
  | @cons l n ls ns hl _ ih =>
    rw [List.foldlM_cons, loadLine_plain rev (hp l (by simp)), if_pos (by simp), onLast_ok zs z _ _ (addNode_ok hl z),
      res_bind_ok, res_bind_ok]
    have := ih (fun x hx => hp x (by simp [hx])) { z with nodes := z.nodes ++ [n] }
    simp only [List.length_cons, Nat.add_sub_cancel]
    rw [this]
    simp

theorem load_elems {c : Codec F} (rev : Bool) (zs : List (Ansys.CZone F)) (k : Nat) {ls : List Str} {qs : List Quad}
    (hr : List.Forall₂ (ElemLine k) ls qs) (hp : ∀ l ∈ ls, PlainLine l) (z : Ansys.CZone F) (hk : z.nodes.length = k) :
    ls.foldlM (Ansys.loadLine c rev) ⟨0, ls.length, zs ++ [z]⟩ =
      .ok ⟨0, 0, zs ++ [{ z with faces := z.faces ++ qs.flatMap (fun q => Ansys.quadFaces rev q.a q.b q.c q.d) }]⟩ := by
  induction hr generalizing z with
  | nil => simp
  | @cons l q ls qs hl _ ih =>
    rw [List.foldlM_cons, loadLine_plain rev (hp l (by simp)), if_neg (by simp), if_pos (by simp),
      onLast_ok zs z _ _ (addElement_ok rev z (by rw [hk]; exact hl)), res_bind_ok, res_bind_ok]
    have := ih (fun x hx => hp x (by simp [hx])) { z with faces := z.faces ++ Ansys.quadFaces rev q.a q.b q.c q.d } hk
    simp only [List.length_cons, Nat.add_sub_cancel]
    rw [this]
    simp

/-- The zone without data that has the given corners. -/
theorem load_zone {c : Codec F} (rev : Bool) (zs : List (Ansys.CZone F)) {z : TecZone} (h : z.Ok) {cz : Ansys.CZone F}
    (hr : ZoneReads c rev z cz) :
    z.lines.foldlM (Ansys.loadLine c rev) ⟨0, 0, zs⟩ = .ok ⟨0, 0, zs ++ [cz]⟩ := by
  obtain ⟨qs, hq, h3, hf⟩ := hr.elems
  have hfaces : cz.faces = qs.flatMap (fun q => Ansys.quadFaces rev q.a q.b q.c q.d) := by
    have e1 : ∀ l : List (Ansys.CFace F), (∀ f ∈ l, f.htc = 0 ∧ f.beta = 0 ∧ f.tau = ⟨0, 0, 0⟩ ∧ f.rf = 0) →
        l = (l.map faceCorners).map (fun k => match k with | [a, b, c] => Ansys.face a b c | _ => Ansys.face 0 0 0) := by
      intro l hl
      induction l with
      | nil => rfl
      | cons f l ih =>
        obtain ⟨h1, h2, h3, h4⟩ := hl f (by simp)
        rw [List.map_cons, List.map_cons, ← ih (fun x hx => hl x (by simp [hx]))]
        cases f
        simp only at h1 h2 h3 h4
        subst h1 h2 h3 h4
        rfl
    have hd : ∀ f ∈ qs.flatMap (fun q => (Ansys.quadFaces rev q.a q.b q.c q.d : List (Ansys.CFace F))),
        f.htc = 0 ∧ f.beta = 0 ∧ f.tau = ⟨0, 0, 0⟩ ∧ f.rf = 0 := by
      intro f hf
      obtain ⟨q, -, hf⟩ := List.mem_flatMap.mp hf
      have : ∀ a b c d : Nat, ∀ f ∈ (Ansys.quadFaces false a b c d : List (Ansys.CFace F)),
          f.htc = 0 ∧ f.beta = 0 ∧ f.tau = ⟨0, 0, 0⟩ ∧ f.rf = 0 := by
        intro a b c d f hf
        have hh : ∃ a b c, f = Ansys.face a b c := by
          rw [quadFaces_false] at hf
          split_ifs at hf <;> simp only [List.mem_cons, List.not_mem_nil, or_false] at hf
          all_goals first | exact ⟨_, _, _, hf⟩ | (rcases hf with hf | hf <;> exact ⟨_, _, _, hf⟩)
        obtain ⟨a, b, c, rfl⟩ := hh
        exact ⟨rfl, rfl, rfl, rfl⟩
      cases rev with
      | false => exact this _ _ _ _ f hf
      | true => exact this q.d q.c q.b q.a f hf
    rw [e1 cz.faces hr.data, hf, e1 _ hd]
    congr 1
    rw [List.map_flatMap]
    apply List.flatMap_congr
    intro q hq
    rw [quadFaces_corners rev q (h3 q hq)]
  have hhead : Ansys.loadLine c rev ⟨0, 0, zs⟩ z.head = .ok ⟨z.nodes.length, z.elems.length, zs ++ [⟨cz.title, [], []⟩]⟩ := by
    unfold Ansys.loadLine
    rw [(contains_false_iff _ _).mpr h.title, (contains_false_iff _ _).mpr h.vars, (contains_iff_infix _ _).mpr h.zone]
    simp only [Bool.false_eq_true, if_false, if_true]
    rw [counts_ok h.counts, res_bind_ok, zoneTitle_ok hr.title, res_bind_ok]
  unfold TecZone.lines
  rw [List.foldlM_cons, hhead, res_bind_ok, List.foldlM_append, load_nodes rev _ zs hr.nodes h.nodes, res_bind_ok,
    load_elems rev zs _ hq h.elems _ (by simp)]
  rw [← hfaces]
  simp

theorem loadNodes_ok {c : Codec F} (rev : Bool) {f : TecFile} (hf : f.Ok) {zs : List (Ansys.CZone F)}
    (hr : List.Forall₂ (ZoneReads c rev) f.zones zs) : Ansys.loadNodes c rev f.text = .ok zs := by
  have key : ∀ (l : List TecZone) (l' acc : List (Ansys.CZone F)), (∀ z ∈ l, z.Ok) → List.Forall₂ (ZoneReads c rev) l l' →
      (l.flatMap TecZone.lines).foldlM (Ansys.loadLine c rev) ⟨0, 0, acc⟩ = .ok ⟨0, 0, acc ++ l'⟩ := by
    intro l l' acc hok hr
    induction hr generalizing acc with
    | nil => simp
    | @cons z cz l l' h1 _ ih =>
      rw [List.flatMap_cons, List.foldlM_append, load_zone rev acc (hok z (by simp)) h1, res_bind_ok,
        ih _ (fun x hx => hok x (by simp [hx]))]
      simp
  unfold Ansys.loadNodes
  rw [hf.readlines]
  unfold TecFile.lines
  have h1 : Ansys.loadLine c rev ⟨0, 0, []⟩ f.title = .ok ⟨0, 0, []⟩ := by
    unfold Ansys.loadLine
    rw [(contains_iff_infix _ _).mpr hf.title.2]; rfl
  have h2 : Ansys.loadLine c rev ⟨0, 0, []⟩ f.vars = .ok ⟨0, 0, []⟩ := by
    unfold Ansys.loadLine
    rw [(contains_false_iff _ _).mpr hf.vars.2.2, (contains_iff_infix _ _).mpr hf.vars.2.1]; rfl
  rw [List.foldlM_cons, h1, res_bind_ok, List.foldlM_cons, h2, res_bind_ok, key _ _ _ hf.zones hr, res_bind_ok]
  simp

end Verif
