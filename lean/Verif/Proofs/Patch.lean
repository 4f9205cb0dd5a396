import Verif.Spec.Transform
import Verif.Proofs.Basic
import Mathlib.Data.List.Nodup
import Mathlib.Tactic.Tauto

/-! Replacing some faces and edges of a mesh by new ones: when the result is a mesh again. -/

namespace Verif
variable {F R : Type}

/-- Second components of the pairs with a given first component. -/
def sndOf (l : List (Nat × Nat)) (a : Nat) : List Nat := (l.filter (fun p => decide (p.1 = a))).map (·.2)
/-- First components of the pairs with a given second component. -/
def fstOf (l : List (Nat × Nat)) (b : Nat) : List Nat := (l.filter (fun p => decide (p.2 = b))).map (·.1)

theorem mem_sndOf {l : List (Nat × Nat)} {a b : Nat} : b ∈ sndOf l a ↔ (a, b) ∈ l := by
  simp [sndOf]

theorem mem_fstOf {l : List (Nat × Nat)} {a b : Nat} : a ∈ fstOf l b ↔ (a, b) ∈ l := by
  simp [fstOf]

theorem nodup_sndOf {l : List (Nat × Nat)} (h : l.Nodup) (a : Nat) : (sndOf l a).Nodup := by
  refine List.Nodup.map_on ?_ (h.filter _)
  intro x hx y hy e
  simp at hx hy
  exact Prod.ext (hx.2.trans hy.2.symm) e

theorem nodup_fstOf {l : List (Nat × Nat)} (h : l.Nodup) (a : Nat) : (fstOf l a).Nodup := by
  refine List.Nodup.map_on ?_ (h.filter _)
  intro x hx y hy e
  simp at hx hy
  exact Prod.ext e (hx.2.trans hy.2.symm)

/-- Elements of `l` outside `d`. -/
def without (l d : List Nat) : List Nat := l.filter (fun x => decide (x ∉ d))

theorem mem_without {l d : List Nat} {x : Nat} : x ∈ without l d ↔ x ∈ l ∧ x ∉ d := by simp [without]

/-- What is replaced by what. -/
structure Patch where
  df : List Nat
  de : List Nat
  nn : List Nat
  en : List Nat
  fn : List Nat
  ne : List (Nat × Nat)
  nf : List (Nat × Nat)
  ef : List (Nat × Nat)

/-- `g'` is `g` with faces `df` and edges `de` removed and nodes `nn`, edges `en` and faces `fn` added and linked
as listed in `ne`, `nf`, `ef`. -/
structure Patched (P : Patch) (g g' : Grid F R) : Prop where
  nodes : g'.nodes = g.nodes ++ P.nn
  edges : g'.edges = without g.edges P.de ++ P.en
  faces : g'.faces = without g.faces P.df ++ P.fn
  nEdges : ∀ n ∈ g.nodes, g'.nEdges n = without (g.nEdges n) P.de ++ sndOf P.ne n
  nEdges_new : ∀ n ∈ P.nn, g'.nEdges n = sndOf P.ne n
  nFaces : ∀ n ∈ g.nodes, g'.nFaces n = without (g.nFaces n) P.df ++ sndOf P.nf n
  nFaces_new : ∀ n ∈ P.nn, g'.nFaces n = sndOf P.nf n
  eNodes : ∀ e ∈ g.edges, e ∉ P.de → g'.eNodes e = g.eNodes e
  eNodes_new : ∀ e ∈ P.en, g'.eNodes e = fstOf P.ne e
  eFaces : ∀ e ∈ g.edges, e ∉ P.de → g'.eFaces e = without (g.eFaces e) P.df ++ sndOf P.ef e
  eFaces_new : ∀ e ∈ P.en, g'.eFaces e = sndOf P.ef e
  fNodes : ∀ f ∈ g.faces, f ∉ P.df → g'.fNodes f = g.fNodes f
  fNodes_new : ∀ f ∈ P.fn, g'.fNodes f = fstOf P.nf f
  fEdges : ∀ f ∈ g.faces, f ∉ P.df → g'.fEdges f = g.fEdges f
  fEdges_new : ∀ f ∈ P.fn, g'.fEdges f = fstOf P.ef f

/-- Conditions under which the result is a mesh. -/
structure PatchOk (P : Patch) (g g' : Grid F R) : Prop where
  de : ∀ e ∈ P.de, ∀ f ∈ g.faces, e ∈ g.fEdges f → f ∈ P.df
  nn : (∀ n ∈ P.nn, n ∉ g.nodes) ∧ P.nn.Nodup
  en : (∀ e ∈ P.en, e ∉ g.edges) ∧ P.en.Nodup
  fn : (∀ f ∈ P.fn, f ∉ g.faces) ∧ P.fn.Nodup
  ne : (∀ p ∈ P.ne, p.1 ∈ g'.nodes ∧ p.2 ∈ P.en) ∧ P.ne.Nodup
  nf : (∀ p ∈ P.nf, p.1 ∈ g'.nodes ∧ p.2 ∈ P.fn) ∧ P.nf.Nodup
  ef : (∀ p ∈ P.ef, p.1 ∈ g'.edges ∧ p.2 ∈ P.fn) ∧ P.ef.Nodup
  edge2 : ∀ e ∈ P.en, (fstOf P.ne e).length = 2
  face3 : ∀ f ∈ P.fn, (fstOf P.nf f).length = 3 ∧ (fstOf P.ef f).length = 3
  old_edge : ∀ e ∈ g.edges, e ∉ P.de → ((g.eFaces e).filter (fun f => decide (f ∈ P.df))).length = (sndOf P.ef e).length
  new_edge : ∀ e ∈ P.en, (sndOf P.ef e).length = 1 ∨ (sndOf P.ef e).length = 2
  sides : ∀ f ∈ P.fn, ∀ a ∈ fstOf P.nf f, ∀ b ∈ fstOf P.nf f, a ≠ b → ∃ e ∈ fstOf P.ef f, a ∈ g'.eNodes e ∧ b ∈ g'.eNodes e
  inface : ∀ f ∈ P.fn, ∀ e ∈ fstOf P.ef f, ∀ n ∈ g'.eNodes e, n ∈ fstOf P.nf f
  uniq : ∀ e ∈ P.en, ∀ e' ∈ g'.edges, (∀ n, n ∈ g'.eNodes e ↔ n ∈ g'.eNodes e') → e = e'

theorem length_without (l d : List Nat) :
    (without l d).length + (l.filter (fun f => decide (f ∈ d))).length = l.length := by
  induction l with
  | nil => rfl
  | cons a l ih => unfold without at *; by_cases h : a ∈ d <;> simp [h] at * <;> omega

variable {P : Patch} {g g' : Grid F R}

theorem Patched.mem_edges (h : Patched P g g') {e : Nat} : e ∈ g'.edges ↔ (e ∈ g.edges ∧ e ∉ P.de) ∨ e ∈ P.en := by
  rw [h.edges, List.mem_append, mem_without]

theorem Patched.mem_faces (h : Patched P g g') {f : Nat} : f ∈ g'.faces ↔ (f ∈ g.faces ∧ f ∉ P.df) ∨ f ∈ P.fn := by
  rw [h.faces, List.mem_append, mem_without]

theorem Patched.mem_nodes (h : Patched P g g') {n : Nat} : n ∈ g'.nodes ↔ n ∈ g.nodes ∨ n ∈ P.nn := by
  rw [h.nodes, List.mem_append]

theorem nodup_patch {l d x : List Nat} (hl : l.Nodup) (hx : x.Nodup) (hd : ∀ a ∈ x, a ∉ l) : (without l d ++ x).Nodup := by
  rw [List.nodup_append]
  refine ⟨hl.filter _, hx, ?_⟩
  rintro a ha b hb rfl
  exact hd a hb (mem_without.1 ha).1

theorem Patched.mesh (h : Patched P g g') (m : Mesh g) (k : PatchOk P g g') : Mesh g' where
  nodes_nodup := by
    rw [h.nodes, List.nodup_append]
    exact ⟨m.nodes_nodup, k.nn.2, by rintro a ha b hb rfl; exact k.nn.1 a hb ha⟩
  edges_nodup := by rw [h.edges]; exact nodup_patch m.edges_nodup k.en.2 k.en.1
  faces_nodup := by rw [h.faces]; exact nodup_patch m.faces_nodup k.fn.2 k.fn.1
  face_nodes := by
    intro f hf
    rcases h.mem_faces.1 hf with ⟨h1, h2⟩ | h1
    · rw [h.fNodes f h1 h2]
      obtain ⟨a, b, c⟩ := m.face_nodes f h1
      exact ⟨a, b, fun n hn => h.mem_nodes.2 (Or.inl (c n hn))⟩
    · rw [h.fNodes_new f h1]
      exact ⟨(k.face3 f h1).1, nodup_fstOf k.nf.2 f, fun n hn => (k.nf.1 _ (mem_fstOf.1 hn)).1⟩
  face_edges := by
    intro f hf
    rcases h.mem_faces.1 hf with ⟨h1, h2⟩ | h1
    · rw [h.fEdges f h1 h2]
      obtain ⟨a, b, c⟩ := m.face_edges f h1
      exact ⟨a, b, fun n hn => h.mem_edges.2 (Or.inl ⟨c n hn, fun hd => h2 (k.de n hd f h1 hn)⟩)⟩
    · rw [h.fEdges_new f h1]
      exact ⟨(k.face3 f h1).2, nodup_fstOf k.ef.2 f, fun n hn => (k.ef.1 _ (mem_fstOf.1 hn)).1⟩
  edge_nodes := by
    intro e he
    rcases h.mem_edges.1 he with ⟨h1, h2⟩ | h1
    · rw [h.eNodes e h1 h2]
      obtain ⟨a, b, c⟩ := m.edge_nodes e h1
      exact ⟨a, b, fun n hn => h.mem_nodes.2 (Or.inl (c n hn))⟩
    · rw [h.eNodes_new e h1]
      exact ⟨k.edge2 e h1, nodup_fstOf k.ne.2 e, fun n hn => (k.ne.1 _ (mem_fstOf.1 hn)).1⟩
  edge_faces := by
    intro e he
    rcases h.mem_edges.1 he with ⟨h1, h2⟩ | h1
    · rw [h.eFaces e h1 h2]
      obtain ⟨a, b⟩ := m.edge_faces e h1
      have := length_without (g.eFaces e) P.df
      have := k.old_edge e h1 h2
      refine ⟨by rw [List.length_append]; omega, ?_⟩
      refine List.nodup_append.2 ⟨b.filter _, nodup_sndOf k.ef.2 e, ?_⟩
      rintro x hx y hy rfl
      exact k.fn.1 x (k.ef.1 _ (mem_sndOf.1 hy)).2 ((m.edge_face e h1 x).1 (mem_without.1 hx).1).1
    · rw [h.eFaces_new e h1]
      exact ⟨k.new_edge e h1, nodup_sndOf k.ef.2 e⟩
  node_faces_nodup := by
    intro n hn
    rcases h.mem_nodes.1 hn with h1 | h1
    · rw [h.nFaces n h1]
      refine List.nodup_append.2 ⟨(m.node_faces_nodup n h1).filter _, nodup_sndOf k.nf.2 n, ?_⟩
      rintro x hx y hy rfl
      exact k.fn.1 x (k.nf.1 _ (mem_sndOf.1 hy)).2 ((m.node_face n h1 x).1 (mem_without.1 hx).1).1
    · rw [h.nFaces_new n h1]; exact nodup_sndOf k.nf.2 n
  node_edges_nodup := by
    intro n hn
    rcases h.mem_nodes.1 hn with h1 | h1
    · rw [h.nEdges n h1]
      refine List.nodup_append.2 ⟨(m.node_edges_nodup n h1).filter _, nodup_sndOf k.ne.2 n, ?_⟩
      rintro x hx y hy rfl
      exact k.en.1 x (k.ne.1 _ (mem_sndOf.1 hy)).2 ((m.node_edge n h1 x).1 (mem_without.1 hx).1).1
    · rw [h.nEdges_new n h1]; exact nodup_sndOf k.ne.2 n
  node_face := by
    intro n hn f
    rw [h.mem_faces]
    have new : f ∈ P.fn → (n ∈ g'.fNodes f ↔ (n, f) ∈ P.nf) := fun hf => by rw [h.fNodes_new f hf, mem_fstOf]
    have nf : (n, f) ∈ P.nf → f ∈ P.fn := fun hp => (k.nf.1 _ hp).2
    have old : f ∈ g.faces → f ∉ P.df → g'.fNodes f = g.fNodes f := h.fNodes f
    have d := k.fn.1 f
    rcases h.mem_nodes.1 hn with h1 | h1
    · rw [h.nFaces n h1, List.mem_append, mem_without, mem_sndOf, m.node_face n h1]
      constructor
      · rintro (⟨⟨a, b⟩, c⟩ | a)
        · exact ⟨Or.inl ⟨a, c⟩, by rw [old a c]; exact b⟩
        · exact ⟨Or.inr (nf a), (new (nf a)).2 a⟩
      · rintro ⟨⟨a, c⟩ | a, b⟩
        · rw [old a c] at b; exact Or.inl ⟨⟨a, b⟩, c⟩
        · exact Or.inr ((new a).1 b)
    · rw [h.nFaces_new n h1, mem_sndOf]
      constructor
      · intro a; exact ⟨Or.inr (nf a), (new (nf a)).2 a⟩
      · rintro ⟨⟨a, c⟩ | a, b⟩
        · rw [old a c] at b; exact absurd ((m.face_nodes f a).2.2 n b) (k.nn.1 n h1)
        · exact (new a).1 b
  node_edge := by
    intro n hn f
    rw [h.mem_edges]
    have new : f ∈ P.en → (n ∈ g'.eNodes f ↔ (n, f) ∈ P.ne) := fun hf => by rw [h.eNodes_new f hf, mem_fstOf]
    have nf : (n, f) ∈ P.ne → f ∈ P.en := fun hp => (k.ne.1 _ hp).2
    have old : f ∈ g.edges → f ∉ P.de → g'.eNodes f = g.eNodes f := h.eNodes f
    rcases h.mem_nodes.1 hn with h1 | h1
    · rw [h.nEdges n h1, List.mem_append, mem_without, mem_sndOf, m.node_edge n h1]
      constructor
      · rintro (⟨⟨a, b⟩, c⟩ | a)
        · exact ⟨Or.inl ⟨a, c⟩, by rw [old a c]; exact b⟩
        · exact ⟨Or.inr (nf a), (new (nf a)).2 a⟩
      · rintro ⟨⟨a, c⟩ | a, b⟩
        · rw [old a c] at b; exact Or.inl ⟨⟨a, b⟩, c⟩
        · exact Or.inr ((new a).1 b)
    · rw [h.nEdges_new n h1, mem_sndOf]
      constructor
      · intro a; exact ⟨Or.inr (nf a), (new (nf a)).2 a⟩
      · rintro ⟨⟨a, c⟩ | a, b⟩
        · rw [old a c] at b; exact absurd ((m.edge_nodes f a).2.2 n b) (k.nn.1 n h1)
        · exact (new a).1 b
  edge_face := by
    intro n hn f
    rw [h.mem_faces]
    have new : f ∈ P.fn → (n ∈ g'.fEdges f ↔ (n, f) ∈ P.ef) := fun hf => by rw [h.fEdges_new f hf, mem_fstOf]
    have nf : (n, f) ∈ P.ef → f ∈ P.fn := fun hp => (k.ef.1 _ hp).2
    have old : f ∈ g.faces → f ∉ P.df → g'.fEdges f = g.fEdges f := h.fEdges f
    rcases h.mem_edges.1 hn with ⟨h1, h2⟩ | h1
    · rw [h.eFaces n h1 h2, List.mem_append, mem_without, mem_sndOf, m.edge_face n h1]
      constructor
      · rintro (⟨⟨a, b⟩, c⟩ | a)
        · exact ⟨Or.inl ⟨a, c⟩, by rw [old a c]; exact b⟩
        · exact ⟨Or.inr (nf a), (new (nf a)).2 a⟩
      · rintro ⟨⟨a, c⟩ | a, b⟩
        · rw [old a c] at b; exact Or.inl ⟨⟨a, b⟩, c⟩
        · exact Or.inr ((new a).1 b)
    · rw [h.eFaces_new n h1, mem_sndOf]
      constructor
      · intro a; exact ⟨Or.inr (nf a), (new (nf a)).2 a⟩
      · rintro ⟨⟨a, c⟩ | a, b⟩
        · rw [old a c] at b; exact absurd ((m.face_edges f a).2.2 n b) (k.en.1 n h1)
        · exact (new a).1 b
  sides := by
    intro f hf
    rcases h.mem_faces.1 hf with ⟨h1, h2⟩ | h1
    · rw [h.fNodes f h1 h2, h.fEdges f h1 h2]
      intro a ha b hb hab
      obtain ⟨e, he, h3, h4⟩ := m.sides f h1 a ha b hb hab
      have : g'.eNodes e = g.eNodes e :=
        h.eNodes e ((m.face_edges f h1).2.2 e he) (fun hd => h2 (k.de e hd f h1 he))
      exact ⟨e, he, by rw [this]; exact ⟨h3, h4⟩⟩
    · rw [h.fNodes_new f h1, h.fEdges_new f h1]; exact k.sides f h1
  edge_in_face := by
    intro f hf
    rcases h.mem_faces.1 hf with ⟨h1, h2⟩ | h1
    · rw [h.fNodes f h1 h2, h.fEdges f h1 h2]
      intro e he
      have : g'.eNodes e = g.eNodes e :=
        h.eNodes e ((m.face_edges f h1).2.2 e he) (fun hd => h2 (k.de e hd f h1 he))
      rw [this]; exact m.edge_in_face f h1 e he
    · rw [h.fNodes_new f h1, h.fEdges_new f h1]; exact k.inface f h1
  edge_unique := by
    intro e he e' he' hs
    rcases h.mem_edges.1 he with ⟨h1, h2⟩ | h1
    · rcases h.mem_edges.1 he' with ⟨h3, h4⟩ | h3
      · rw [h.eNodes e h1 h2, h.eNodes e' h3 h4] at hs
        exact m.edge_unique e h1 e' h3 hs
      · exact (k.uniq e' h3 e he (fun n => (hs n).symm)).symm
    · exact k.uniq e h1 e' he' hs

end Verif
