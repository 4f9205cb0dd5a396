import Verif.Proofs.Again

/-! The effect of `placeNode`, in the same form for a new place and for an existing node. -/

namespace Verif
namespace Grid
variable {F R : Type}

/-- `g'` is `g` with the nodes `nn` added, also to zone `z`. -/
structure Placed (rc : Vec F → R) (z : Nat) (nn : List Nat) (g g' : Grid F R) : Prop where
  name : g'.name = g.name
  nodes : g'.nodes = g.nodes ++ nn
  edges : g'.edges = g.edges
  faces : g'.faces = g.faces
  zones : g'.zones = g.zones
  borderCnt : g'.borderCnt = g.borderCnt
  eGlo : g'.eGlo = g.eGlo
  eNodes : g'.eNodes = g.eNodes
  eFaces : g'.eFaces = g.eFaces
  fGlo : g'.fGlo = g.fGlo
  fData : g'.fData = g.fData
  fNodes : g'.fNodes = g.fNodes
  fEdges : g'.fEdges = g.fEdges
  fZone : g'.fZone = g.fZone
  zId : g'.zId = g.zId
  zName : g'.zName = g.zName
  zEdges : g'.zEdges = g.zEdges
  zFaces : g'.zFaces = g.zFaces
  zFixed : g'.zFixed = g.zFixed
  eNext : g'.eNext = g.eNext
  fNext : g'.fNext = g.fNext
  zNext : g'.zNext = g.zNext
  nNext : g.nNext + nn.length ≤ g'.nNext
  zNodes : ∀ w, g'.zNodes w = g.zNodes w ++ if w = z then nn else []
  nGlo : ∀ n < g.nNext, g'.nGlo n = g.nGlo n
  nP : ∀ n < g.nNext, g'.nP n = g.nP n
  nKey : ∀ n < g.nNext, g'.nKey n = g.nKey n
  nEdges : ∀ n < g.nNext, g'.nEdges n = g.nEdges n
  nFaces : ∀ n < g.nNext, g'.nFaces n = g.nFaces n
  nBorder : ∀ n < g.nNext, g'.nBorder n = g.nBorder n
  nEdges_new : ∀ n ∈ nn, g'.nEdges n = []
  nFaces_new : ∀ n ∈ nn, g'.nFaces n = []
  fresh : nn.Nodup ∧ ∀ n ∈ nn, g.nNext ≤ n ∧ n < g'.nNext
  key_new : ∀ n ∈ nn, g'.nKey n = rc (g'.nP n)
  key_inj : ∀ n ∈ nn, ∀ m ∈ nn, g'.nKey n = g'.nKey m → n = m
  key_fresh : ∀ n ∈ nn, g'.nKey n ∉ g.bag
  bag : ∀ k, k ∈ g'.bag ↔ k ∈ g.bag ∨ ∃ n ∈ nn, g'.nKey n = k
  glo : nn.map g'.nGlo = List.range' g.nodes.length nn.length

/-- One call: a new node at a new place, otherwise the node which is there. -/
theorem placeNode_placed [DecidableEq R] {rc : Vec F → R} {g : Grid F R} (m : Merged rc g) (al : ∀ n ∈ g.nodes, n < g.nNext) (z : Nat)
    (p : Vec F) : ∃ g' q nn, g.placeNode rc z p = .ok (g', q) ∧ Placed rc z nn g g' ∧ q ∈ g'.nodes ∧ rc (g'.nP q) = rc p ∧
      ((NewPlace rc g p ∧ q = g.nNext ∧ nn = [g.nNext] ∧ g'.nP q = p) ∨ (q ∈ g.nodes ∧ nn = [])) := by
  by_cases hb : rc p ∈ g.bag
  · obtain ⟨q, hq, hk⟩ := (m.bag _).1 hb
    have hu : ∀ n ∈ g.nodes, g.nKey n = rc p → n = q := fun n hn h => m.inj n hn q hq (h.trans hk.symm)
    have hlt := al q hq
    have hP : upd g.nP g.nNext p q = g.nP q := upd_ne _ _ (Nat.ne_of_lt hlt)
    refine ⟨_, q, [], placeNode_again rc g z p hb al hq hk hu, ?_, hq, ?_, Or.inr ⟨hq, rfl⟩⟩
    · have lt : ∀ {α : Type} (f : Nat → α) (v : α) (n : Nat), n < g.nNext → upd f g.nNext v n = f n :=
        fun f v n hn => upd_ne _ _ (Nat.ne_of_lt hn)
      constructor
      all_goals try rfl
      all_goals try (intro n hn; exact lt _ _ n hn)
      all_goals try (intro n hn; cases hn)
      · exact (List.append_nil _).symm
      · exact Nat.le_succ _
      · intro w; simp
      · exact ⟨List.nodup_nil, by simp⟩
      · intro k; simp
    · show rc (upd g.nP g.nNext p q) = rc p
      rw [hP, ← m.key q hq, hk]
  · have new : NewPlace rc g p := by
      intro n hn h
      exact hb ((m.bag _).2 ⟨n, hn, by rw [m.key n hn, h]⟩)
    refine ⟨_, g.nNext, [g.nNext], placeNode_ok rc g z p hb, ?_, ?_, ?_, Or.inl ⟨new, rfl, rfl, upd_self _ _ _⟩⟩
    · have lt : ∀ {α : Type} (f : Nat → α) (v : α) (n : Nat), n < g.nNext → upd f g.nNext v n = f n :=
        fun f v n hn => upd_ne _ _ (Nat.ne_of_lt hn)
      constructor
      all_goals try rfl
      all_goals try (intro n hn; exact lt _ _ n hn)
      case nNext => exact Nat.le_refl _
      case zNodes => intro w; by_cases hw : w = z <;> simp [upd, hw]
      case nEdges_new => simp
      case nFaces_new => simp
      case fresh => simp
      case key_new => simp
      case key_inj => simp
      case key_fresh => simpa using hb
      case bag => intro k; simp [eq_comm]
      case glo => simp
    · simp
    · show rc (upd g.nP g.nNext p g.nNext) = rc p
      rw [upd_self]

theorem Placed.merged {rc : Vec F → R} {z : Nat} {nn : List Nat} {g g' : Grid F R} (h : Placed rc z nn g g') (m : Merged rc g)
    (al : ∀ n ∈ g.nodes, n < g.nNext) : Merged rc g' ∧ ∀ n ∈ g'.nodes, n < g'.nNext := by
  have cross : ∀ n ∈ g.nodes, ∀ k ∈ nn, g'.nKey n ≠ g'.nKey k := by
    intro n hn k hk e
    refine h.key_fresh k hk ?_
    rw [← e, h.nKey n (al n hn)]
    exact (m.bag _).2 ⟨n, hn, rfl⟩
  refine ⟨⟨?_, ?_, ?_⟩, ?_⟩
  · intro n hn
    rw [h.nodes, List.mem_append] at hn
    rcases hn with hn | hn
    · rw [h.nKey n (al n hn), h.nP n (al n hn)]; exact m.key n hn
    · exact h.key_new n hn
  · intro n hn k hk e
    rw [h.nodes, List.mem_append] at hn hk
    rcases hn with hn | hn <;> rcases hk with hk | hk
    · rw [h.nKey n (al n hn), h.nKey k (al k hk)] at e; exact m.inj n hn k hk e
    · exact absurd e (cross n hn k hk)
    · exact absurd e.symm (cross k hk n hn)
    · exact h.key_inj n hn k hk e
  · intro k
    rw [h.bag, m.bag]
    constructor
    · rintro (⟨n, hn, e⟩ | ⟨n, hn, e⟩)
      · exact ⟨n, by rw [h.nodes]; exact List.mem_append_left _ hn, by rw [h.nKey n (al n hn), e]⟩
      · exact ⟨n, by rw [h.nodes]; exact List.mem_append_right _ hn, e⟩
    · rintro ⟨n, hn, e⟩
      rw [h.nodes, List.mem_append] at hn
      rcases hn with hn | hn
      · exact Or.inl ⟨n, hn, by rw [← h.nKey n (al n hn), e]⟩
      · exact Or.inr ⟨n, hn, e⟩
  · intro n hn
    rw [h.nodes, List.mem_append] at hn
    rcases hn with hn | hn
    · have := al n hn; have := h.nNext; omega
    · exact (h.fresh.2 n hn).2

theorem Placed.trans {rc : Vec F → R} {z : Nat} {nn nn' : List Nat} {g g' g'' : Grid F R} (h : Placed rc z nn g g')
    (k : Placed rc z nn' g' g'') : Placed rc z (nn ++ nn') g g'' := by
  have le : g.nNext ≤ g'.nNext := by have := h.nNext; omega
  have old : ∀ n ∈ nn, n < g'.nNext := fun n hn => (h.fresh.2 n hn).2
  have key : ∀ n ∈ nn, g''.nKey n = g'.nKey n := fun n hn => k.nKey n (old n hn)
  have new : ∀ n ∈ nn', g''.nKey n ∉ g.bag ∧ ∀ m ∈ nn, g''.nKey n ≠ g'.nKey m := by
    intro n hn
    have := k.key_fresh n hn
    rw [h.bag, not_or] at this
    exact ⟨this.1, fun m hm e => this.2 ⟨m, hm, e.symm⟩⟩
  refine { name := by rw [k.name, h.name], nodes := by rw [k.nodes, h.nodes, List.append_assoc], edges := by rw [k.edges, h.edges],
           faces := by rw [k.faces, h.faces], zones := by rw [k.zones, h.zones], borderCnt := by rw [k.borderCnt, h.borderCnt],
           eGlo := by rw [k.eGlo, h.eGlo], eNodes := by rw [k.eNodes, h.eNodes], eFaces := by rw [k.eFaces, h.eFaces],
           fGlo := by rw [k.fGlo, h.fGlo], fData := by rw [k.fData, h.fData], fNodes := by rw [k.fNodes, h.fNodes],
           fEdges := by rw [k.fEdges, h.fEdges], fZone := by rw [k.fZone, h.fZone], zId := by rw [k.zId, h.zId],
           zName := by rw [k.zName, h.zName], zEdges := by rw [k.zEdges, h.zEdges], zFaces := by rw [k.zFaces, h.zFaces],
           zFixed := by rw [k.zFixed, h.zFixed], eNext := by rw [k.eNext, h.eNext], fNext := by rw [k.fNext, h.fNext],
           zNext := by rw [k.zNext, h.zNext], nNext := ?_, zNodes := ?_,
           nGlo := fun n hn => by rw [k.nGlo n (by omega), h.nGlo n hn], nP := fun n hn => by rw [k.nP n (by omega), h.nP n hn],
           nKey := fun n hn => by rw [k.nKey n (by omega), h.nKey n hn], nEdges := fun n hn => by rw [k.nEdges n (by omega), h.nEdges n hn],
           nFaces := fun n hn => by rw [k.nFaces n (by omega), h.nFaces n hn],
           nBorder := fun n hn => by rw [k.nBorder n (by omega), h.nBorder n hn], nEdges_new := ?_, nFaces_new := ?_, fresh := ⟨?_, ?_⟩,
           key_new := ?_, key_inj := ?_, key_fresh := ?_, bag := ?_, glo := ?_ }
  · have := h.nNext; have := k.nNext; rw [List.length_append]; omega
  · intro w; rw [k.zNodes, h.zNodes]; by_cases hw : w = z <;> simp [hw]
  · intro n hn
    rcases List.mem_append.1 hn with hn | hn
    · rw [k.nEdges n (old n hn), h.nEdges_new n hn]
    · exact k.nEdges_new n hn
  · intro n hn
    rcases List.mem_append.1 hn with hn | hn
    · rw [k.nFaces n (old n hn), h.nFaces_new n hn]
    · exact k.nFaces_new n hn
  · refine List.nodup_append.2 ⟨h.fresh.1, k.fresh.1, ?_⟩
    rintro a ha b hb rfl
    have := (h.fresh.2 a ha).2; have := (k.fresh.2 a hb).1; omega
  · intro n hn
    rcases List.mem_append.1 hn with hn | hn
    · have := h.fresh.2 n hn; have := k.nNext; omega
    · have := k.fresh.2 n hn; omega
  · intro n hn
    rcases List.mem_append.1 hn with hn | hn
    · rw [key n hn, k.nP n (old n hn)]; exact h.key_new n hn
    · exact k.key_new n hn
  · intro n hn m hm e
    rcases List.mem_append.1 hn with hn | hn <;> rcases List.mem_append.1 hm with hm | hm
    · rw [key n hn, key m hm] at e; exact h.key_inj n hn m hm e
    · rw [key n hn] at e; exact absurd e.symm ((new m hm).2 n hn)
    · rw [key m hm] at e; exact absurd e ((new n hn).2 m hm)
    · exact k.key_inj n hn m hm e
  · intro n hn
    rcases List.mem_append.1 hn with hn | hn
    · rw [key n hn]; exact h.key_fresh n hn
    · exact (new n hn).1
  · intro x
    rw [k.bag, h.bag]
    constructor
    · rintro ((hx | ⟨n, hn, e⟩) | ⟨n, hn, e⟩)
      · exact Or.inl hx
      · exact Or.inr ⟨n, List.mem_append_left _ hn, by rw [key n hn, e]⟩
      · exact Or.inr ⟨n, List.mem_append_right _ hn, e⟩
    · rintro (hx | ⟨n, hn, e⟩)
      · exact Or.inl (Or.inl hx)
      · rcases List.mem_append.1 hn with hn | hn
        · exact Or.inl (Or.inr ⟨n, hn, by rw [← key n hn, e]⟩)
        · exact Or.inr ⟨n, hn, e⟩
  · rw [List.map_append, k.glo, h.nodes, List.length_append, List.length_append, ← List.range'_append_1, ← h.glo]
    congr 1
    exact List.map_congr_left (fun n hn => k.nGlo n (old n hn))

end Grid
end Verif
