import Verif.Spec.Cry
import Verif.Proofs.Import
import Verif.Proofs.Mpi

/-! Reading `.cry` files. -/

namespace Verif.Cry
open Grid
variable {F : Type}

/-- The lines of the file. -/
def lines (c : Codec F) (m : MpiFile F) : List Str :=
  ("TITLE=".toList ++ (['"'] ++ m.title ++ ['"']) ++ ['\n']) :: varLine :: ("MPI=".toList ++ Py.natStr m.mpi ++ ['\n']) ::
  ("NODES=".toList ++ Py.natStr m.nodesCount ++ ['\n']) :: ("EDGES=".toList ++ Py.natStr m.edgesCount ++ ['\n']) ::
  ("CROSS-EDGES=".toList ++ Py.natStr m.crossEdges ++ ['\n']) :: ("FACES=".toList ++ Py.natStr m.facesCount ++ ['\n']) ::
  "NODES COORDINATES:\n".toList :: (m.coords.map (floatLine c) ++ "FACES DATA:\n".toList ::
  (MpiFile.line Py.natStr m.gloIds ++ ['\n']) :: (m.data.map (floatLine c) ++ "FACE-NODE CONNECTIVITY LIST:\n".toList ::
  (m.faceNode.map connLine ++ "FACE-EDGE CONNECTIVITY LIST:\n".toList :: (m.faceEdge.map connLine ++
  "EDGE-NODE CONNECTIVITY LIST:\n".toList :: (m.edgeNode.map connLine ++
  ("MPI-BORDERS=".toList ++ Py.natStr m.mpiBorders ++ ['\n']) :: m.borders.map MpiFile.borderText)))))

theorem varLine_eq : varLine = "VARIABLES=".toList ++ Py.join ", ".toList (((["X".toList, "Y".toList, "Z".toList, "GloId".toList] ++
    Grid.mpiVars)).map (fun v => ['"'] ++ v ++ ['"'])) ++ ['\n'] := by decide +kernel

theorem render_lines (c : Codec F) (m : MpiFile F) : m.render c.fmt = (lines c m).flatten := by
  unfold MpiFile.render lines
  rw [varLine_eq]
  simp only [List.flatten_cons, List.flatten_append, List.flatMap_def, List.append_assoc]
  rfl

theorem isLine_join {α : Type} {str : α → Str} (h : ∀ x, ∀ ch ∈ str x, Py.isWs ch = false) (l : List α) (e : Str)
    (he : e = [] ∨ e = [' ']) : Py.IsLine (Py.join [' '] (l.map str) ++ (e ++ ['\n'])) := by
  have key : ∀ ch, (ch = '\n' ∨ ch = '\r') → ch ∉ Py.join [' '] (l.map str) ++ e := by
    intro ch hch hm
    rcases List.mem_append.1 hm with hm | hm
    · rcases Py.mem_join hm with h1 | ⟨t, h1, h2⟩
      · rw [List.mem_singleton] at h1; subst h1; rcases hch with h | h <;> exact absurd h (by decide)
      · obtain ⟨x, -, rfl⟩ := List.mem_map.1 h1
        have := h x ch h2
        rcases hch with rfl | rfl <;> revert this <;> decide
    · rcases he with rfl | rfl
      · cases hm
      · rw [List.mem_singleton] at hm; subst hm; rcases hch with h | h <;> exact absurd h (by decide)
  exact ⟨_, (List.append_assoc _ _ _).symm, key _ (Or.inl rfl), key _ (Or.inr rfl)⟩

theorem isLine_count {a : Str} (h1 : '\n' ∉ a) (h2 : '\r' ∉ a) (n : Nat) : Py.IsLine (a ++ Py.natStr n ++ ['\n']) :=
  ⟨_, rfl, by simp [h1, (Py.natStr_facts n).2.1], by simp [h2, (Py.natStr_facts n).2.2.1]⟩

theorem isLine_lit {a : Str} (h : a.getLast? = some '\n' ∧ '\n' ∉ a.dropLast ∧ '\r' ∉ a.dropLast) : Py.IsLine a := by
  refine ⟨a.dropLast, ?_, h.2.1, h.2.2⟩
  rw [List.dropLast_append_getLast? _ h.1]

theorem border_chars (b : Nat × List Int) : ∀ ch ∈ ['['] ++ Py.natStr b.1 ++ "] ".toList ++ b.2.flatMap (fun i => Py.intStr i ++ [' ']),
    ch = ' ' ∨ Py.isWs ch = false := by
  intro ch h
  simp only [List.mem_append, List.mem_flatMap] at h
  rcases h with ((h | h) | h) | ⟨i, -, h | h⟩
  · rw [List.mem_singleton] at h; subst h; right; decide
  · exact Or.inr ((Py.natStr_facts _).1 ch h)
  · have : ch = ']' ∨ ch = ' ' := by simpa using h
    rcases this with rfl | rfl
    · right; decide
    · left; rfl
  · exact Or.inr ((Py.intStr_facts _).2 ch h)
  · left; simpa using h

theorem isLine_all {c : Codec F} (hc : c.Lawful) {m : MpiFile F} (h1 : '\n' ∉ m.title) (h2 : '\r' ∉ m.title) :
    ∀ l ∈ lines c m, Py.IsLine l := by
  have hfl : ∀ l : List F, Py.IsLine (floatLine c l) := fun l => isLine_join hc.word l [' '] (Or.inr rfl)
  have hil : ∀ l : List Int, Py.IsLine (connLine l) := fun l => isLine_join (fun x => (Py.intStr_facts x).2) l [] (Or.inl rfl)
  have hm : ∀ {α : Type} (f : α → Str) (l : List α), (∀ x, Py.IsLine (f x)) → ∀ x ∈ l.map f, Py.IsLine x := by
    intro α f l h x hx
    obtain ⟨y, -, rfl⟩ := List.mem_map.1 hx
    exact h y
  intro l hl
  unfold lines at hl
  simp only [List.mem_cons, List.mem_append] at hl
  rcases hl with hl | hl | hl | hl | hl | hl | hl | hl | hl | hl | hl | hl | hl | hl | hl | hl | hl | hl | hl | hl
  · rw [hl]; refine ⟨_, rfl, ?_, ?_⟩
    · simp [h1]
    · simp [h2]
  · rw [hl]; exact isLine_lit (by decide +kernel)
  · rw [hl]; exact isLine_count (by decide) (by decide) _
  · rw [hl]; exact isLine_count (by decide) (by decide) _
  · rw [hl]; exact isLine_count (by decide) (by decide) _
  · rw [hl]; exact isLine_count (by decide) (by decide) _
  · rw [hl]; exact isLine_count (by decide) (by decide) _
  · rw [hl]; exact isLine_lit (by decide +kernel)
  · exact hm _ _ hfl l hl
  · rw [hl]; exact isLine_lit (by decide +kernel)
  · rw [hl]; exact isLine_join (fun x => (Py.natStr_facts x).1) m.gloIds [] (Or.inl rfl)
  · exact hm _ _ hfl l hl
  · rw [hl]; exact isLine_lit (by decide +kernel)
  · exact hm _ _ hil l hl
  · rw [hl]; exact isLine_lit (by decide +kernel)
  · exact hm _ _ hil l hl
  · rw [hl]; exact isLine_lit (by decide +kernel)
  · exact hm _ _ hil l hl
  · rw [hl]; exact isLine_count (by decide) (by decide) _
  · refine hm _ _ (fun b => ⟨_, rfl, ?_, ?_⟩) l hl
    · intro h; rcases border_chars b _ h with h | h <;> revert h <;> decide
    · intro h; rcases border_chars b _ h with h | h <;> revert h <;> decide

theorem guard_self {p : Prop} [Decidable p] (h : p) : (guard p : Option Unit) = some () := by
  simp [guard, h]

theorem field_ok (label w : Str) : field label (label ++ w ++ ['\n']) = some w := by
  unfold field
  rw [if_pos]
  · simp
  · simp

theorem count_ok (label : Str) (n : Nat) : count label (label ++ Py.natStr n ++ ['\n']) = some n := by
  unfold count
  rw [field_ok]
  simp only [Py.int_natStr]
  simp

theorem quoted_ok (label w : Str) : quoted label (label ++ (['"'] ++ w ++ ['"']) ++ ['\n']) = some w := by
  unfold quoted
  rw [field_ok]
  simp only
  rw [if_pos ⟨by simp, by simp, List.getLast?_concat⟩]
  simp

theorem row_floats {c : Codec F} (hc : c.Lawful) (l : List F) : row c.parse (floatLine c l) = some l := by
  have := parseFloats_line hc l
  unfold parseFloats at this
  unfold row
  rw [this]

theorem row_ints (l : List Int) : row Py.int (connLine l) = some l := by
  have := parseInts_line l
  unfold parseInts at this
  unfold row
  rw [this]

theorem natural_ok (n : Nat) : natural (Py.natStr n) = .ok n := by
  unfold natural
  rw [Py.int_natStr]
  simp

theorem row_nats (l : List Nat) : row natural (MpiFile.line Py.natStr l ++ ['\n']) = some l := by
  unfold row MpiFile.line
  rw [Py.splitWs_join]
  · rw [List.mapM_map]
    have := mapM_eq_ok (f := fun x => natural (Py.natStr x)) (h := id) (l := l) (fun a _ => natural_ok a)
    rw [List.map_id] at this
    have e : (natural ∘ Py.natStr) = fun x => natural (Py.natStr x) := rfl
    rw [e, this]
  · intro t ht
    obtain ⟨x, -, rfl⟩ := List.mem_map.mp ht
    exact Py.natStr_ne_nil x
  · intro t ht
    obtain ⟨x, -, rfl⟩ := List.mem_map.mp ht
    exact (Py.natStr_facts x).1
  · decide

theorem border_words (ws : List Int) : Py.splitWsAux (ws.flatMap (fun i => Py.intStr i ++ [' ']) ++ ['\n']) [] = ws.map Py.intStr := by
  induction ws with
  | nil => decide
  | cons i ws ih =>
    rw [List.flatMap_cons, List.append_assoc, List.append_assoc, Py.splitWsAux_word (Py.intStr_facts i).2, List.nil_append,
      List.cons_append, List.nil_append, Py.splitWsAux, if_pos (by decide), if_neg (Py.intStr_facts i).1, ih]
    rfl

theorem border_ok (b : Nat × List Int) : border (MpiFile.borderText b) = some b := by
  have hw : Py.splitWs (MpiFile.borderText b) = (['['] ++ Py.natStr b.1 ++ [']']) :: b.2.map Py.intStr := by
    unfold MpiFile.borderText Py.splitWs
    rw [show ['['] ++ Py.natStr b.1 ++ "] ".toList ++ b.2.flatMap (fun i => Py.intStr i ++ [' ']) ++ ['\n'] =
      (['['] ++ Py.natStr b.1 ++ [']']) ++ (' ' :: (b.2.flatMap (fun i => Py.intStr i ++ [' ']) ++ ['\n'])) by simp]
    rw [Py.splitWsAux_word, Py.splitWsAux, if_pos (by decide), if_neg (by simp), border_words]
    · rfl
    · intro ch h
      simp only [List.mem_append, List.mem_singleton] at h
      rcases h with (rfl | h) | rfl
      · decide
      · exact (Py.natStr_facts _).1 ch h
      · decide
  unfold border
  rw [hw]
  have h2 : (b.2.map Py.intStr).mapM Py.int = .ok b.2 := by
    rw [List.mapM_map]
    have := mapM_eq_ok (f := fun x => Py.int (Py.intStr x)) (h := id) (l := b.2) (fun a _ => Py.int_intStr a)
    rw [List.map_id] at this
    exact this
  simp only [h2]
  rw [if_pos ⟨by simp, by simp, List.getLast?_concat⟩]
  have : ((['['] ++ Py.natStr b.1 ++ [']']).drop 1).dropLast = Py.natStr b.1 := by simp
  rw [this, Py.int_natStr]
  simp

theorem mapM_some {α β : Type} {f : α → Str} {p : Str → Option β} {k : α → β} (h : ∀ a, p (f a) = some (k a)) (l : List α) :
    (l.map f).mapM p = some (l.map k) := by
  induction l with
  | nil => rfl
  | cons a l ih => rw [List.map_cons, List.mapM_cons, h, ih]; rfl

/-- The shape of the contents the reader relies on. -/
structure Shape (m : MpiFile F) : Prop where
  coords : m.coords.length = 3 ∧ ∀ r ∈ m.coords, r.length = m.nodesCount
  glo : m.gloIds.length = m.facesCount
  data : m.data.length = 11 ∧ ∀ r ∈ m.data, r.length = m.facesCount
  faceNode : m.faceNode.length = m.facesCount
  faceEdge : m.faceEdge.length = m.facesCount
  edgeNode : m.edgeNode.length = m.edgesCount
  borders : m.borders.length = m.mpiBorders

theorem lists_ok {m : MpiFile F} (h : Shape m) : lists m.facesCount m.edgesCount
    ("FACE-NODE CONNECTIVITY LIST:\n".toList :: (m.faceNode.map connLine ++ "FACE-EDGE CONNECTIVITY LIST:\n".toList ::
      (m.faceEdge.map connLine ++ "EDGE-NODE CONNECTIVITY LIST:\n".toList :: (m.edgeNode.map connLine ++
      ("MPI-BORDERS=".toList ++ Py.natStr m.mpiBorders ++ ['\n']) :: m.borders.map MpiFile.borderText)))) =
    some (m.faceNode, m.faceEdge, m.edgeNode, m.mpiBorders, m.borders) := by
  have t1 : ∀ rest, (m.faceNode.map connLine ++ rest).take m.facesCount = m.faceNode.map connLine ∧
      (m.faceNode.map connLine ++ rest).drop m.facesCount = rest := fun rest =>
    ⟨List.take_left' (by rw [List.length_map, h.faceNode]), List.drop_left' (by rw [List.length_map, h.faceNode])⟩
  have t2 : ∀ rest, (m.faceEdge.map connLine ++ rest).take m.facesCount = m.faceEdge.map connLine ∧
      (m.faceEdge.map connLine ++ rest).drop m.facesCount = rest := fun rest =>
    ⟨List.take_left' (by rw [List.length_map, h.faceEdge]), List.drop_left' (by rw [List.length_map, h.faceEdge])⟩
  have t3 : ∀ rest, (m.edgeNode.map connLine ++ rest).take m.edgesCount = m.edgeNode.map connLine ∧
      (m.edgeNode.map connLine ++ rest).drop m.edgesCount = rest := fun rest =>
    ⟨List.take_left' (by rw [List.length_map, h.edgeNode]), List.drop_left' (by rw [List.length_map, h.edgeNode])⟩
  have k : ∀ l : List (List Int), (l.map connLine).mapM (row Py.int) = some l := fun l => by
    rw [mapM_some (k := id) row_ints, List.map_id]
  have kb : (m.borders.map MpiFile.borderText).mapM border = some m.borders := by
    rw [mapM_some (k := id) border_ok, List.map_id]
  unfold lists
  simp only [(t1 _).1, (t1 _).2, (t2 _).1, (t2 _).2, (t3 _).1, (t3 _).2, k, kb, count_ok, List.length_map, h.borders,
    guard_true, Option.pure_def, Option.bind_eq_bind, Option.bind_some]

theorem read_ok {c : Codec F} (hc : c.Lawful) {m : MpiFile F} (h1 : '\n' ∉ m.title) (h2 : '\r' ∉ m.title) (h : Shape m) :
    read c (m.render c.fmt) = some m := by
  unfold read
  rw [render_lines, Py.readlines_flatten (isLine_all hc h1 h2)]
  obtain ⟨x, y, z, hxyz⟩ := List.length_eq_three.1 h.coords.1
  have hd : ∀ rest, (m.data.map (floatLine c) ++ rest).take 11 = m.data.map (floatLine c) ∧
      (m.data.map (floatLine c) ++ rest).drop 11 = rest := fun rest =>
    ⟨List.take_left' (by rw [List.length_map, h.data.1]), List.drop_left' (by rw [List.length_map, h.data.1])⟩
  have k : ∀ l : List (List F), (l.map (floatLine c)).mapM (row c.parse) = some l := fun l => by
    rw [mapM_some (k := id) (row_floats hc), List.map_id]
  have hcs := h.coords.2
  have kc := k m.coords
  unfold lines
  rw [hxyz] at kc hcs ⊢
  simp only [List.map_cons, List.map_nil, List.cons_append, List.nil_append] at kc ⊢
  rw [show ("TITLE=".toList ++ '"' :: (m.title ++ ['"']) ++ ['\n']) = "TITLE=".toList ++ (['"'] ++ m.title ++ ['"']) ++ ['\n'] by simp]
  rw [quoted_ok, count_ok, count_ok, count_ok, count_ok, count_ok, row_nats, kc, (hd _).1, (hd _).2, k]
  simp only [Option.bind_eq_bind, Option.bind_some]
  rw [lists_ok h, guard_self hcs, guard_self h.glo, guard_self h.data.2, ← hxyz, guard_self True.intro]
  rfl

end Verif.Cry
