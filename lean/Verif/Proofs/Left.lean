import Verif.Spec.Left
import Verif.Proofs.Decomp

/-! The two models of decompositions agree; what is kept by a call whatever its outcome. -/

namespace Verif
open Grid
variable {F R : Type}

@[simp] theorem left_bind_ok {α β : Type} (a : α) (f : α → Left F R β) : ((Except.ok a : Left F R α) >>= f) = f a := rfl
@[simp] theorem left_bind_error {α β : Type} (e : Err × Grid F R) (f : α → Left F R β) :
    ((Except.error e : Left F R α) >>= f) = .error e := rfl
@[simp] theorem left_pure {α : Type} (a : α) : (pure a : Left F R α) = .ok a := rfl

@[simp] theorem plain_ok {α : Type} (a : α) : Left.plain (.ok a : Left F R α) = .ok a := rfl
@[simp] theorem plain_error {α : Type} (e : Err) (g : Grid F R) : Left.plain (.error (e, g) : Left F R α) = .error e := rfl

theorem plain_bind {α β : Type} (x : Left F R α) (f : α → Left F R β) :
    (x >>= f).plain = (x.plain >>= fun a => (f a).plain) := by
  cases x with
  | ok a => rfl
  | error e => rfl

@[simp] theorem plain_here {α : Type} (g : Grid F R) (r : Res α) : (g.here r).plain = r := by
  cases r <;> rfl

theorem plain_foldlM {α β : Type} (f : β → α → Left F R β) (f' : β → α → Res β) (h : ∀ s a, (f s a).plain = f' s a)
    (l : List α) (s : β) : (l.foldlM f s).plain = l.foldlM f' s := by
  induction l generalizing s with
  | nil => rfl
  | cons a l ih =>
    rw [List.foldlM_cons, List.foldlM_cons, plain_bind, h]
    congr 1
    funext b
    exact ih b

theorem plain_ite {α : Type} (c : Prop) [Decidable c] (x y : Left F R α) :
    (if c then x else y).plain = if c then x.plain else y.plain := by split <;> rfl

theorem unlink_plain (g : Grid F R) : g.unlinkFacesFromZonesX.plain = g.unlinkFacesFromZones :=
  plain_foldlM _ _ (fun s a => plain_here s _) _ _

theorem linkNode_plain (g : Grid F R) (n : Nat) : (g.linkNodeToZonesX n).plain = g.linkNodeToZones n := by
  unfold linkNodeToZonesX linkNodeToZones
  rw [plain_bind, plain_here]
  congr 1
  funext ids
  refine plain_foldlM _ _ (fun s a => ?_) _ _
  rw [plain_bind, plain_here]; rfl

theorem linkEdge_plain (g : Grid F R) (n : Nat) : (g.linkEdgeToZonesX n).plain = g.linkEdgeToZones n := by
  unfold linkEdgeToZonesX linkEdgeToZones
  rw [plain_bind, plain_here]
  congr 1
  funext ids
  refine plain_foldlM _ _ (fun s a => ?_) _ _
  rw [plain_bind, plain_here]; rfl

theorem post_plain (g : Grid F R) : g.postDecomposeX.plain = g.postDecompose := by
  unfold postDecomposeX postDecompose linkNodesAndEdgesToZonesX linkNodesAndEdgesToZones
  simp only [plain_bind, plain_here, plain_foldlM _ _ linkNode_plain, plain_foldlM _ _ linkEdge_plain, left_pure, plain_ok]
  rfl

theorem mono_plain (g : Grid F R) (nm : Option Str) : (g.decomposeMonoX nm).plain = g.decomposeMono nm := by
  unfold decomposeMonoX decomposeMono
  simp only [plain_bind, unlink_plain, post_plain, plain_foldlM _ _ (fun s a => plain_here s _)]

theorem random_plain (g : Grid F R) (rand : Nat → Nat) (count : Nat) (nm : Option Str) :
    (g.decomposeRandomX rand count nm).plain = g.decomposeRandom rand count nm := by
  unfold decomposeRandomX decomposeRandom
  simp only [plain_bind, unlink_plain, post_plain]
  congr 1
  funext g1
  congr 1
  refine plain_foldlM _ _ (fun s a => ?_) _ _
  rw [plain_ite, plain_bind]
  simp only [plain_error, plain_here]

theorem linearStep_plain (a b : Nat) (s : Grid F R × Nat) (p : Nat × Nat) : (linearStepX a b s p).plain = linearStep a b s p := by
  unfold linearStepX linearStep
  rw [plain_bind]
  congr 1
  refine plain_foldlM _ _ (fun s a => ?_) _ _
  rw [plain_bind]
  simp only [plain_here]

theorem linear_plain (g : Grid F R) (count : Int) (nm : Option Str) :
    (g.decomposeLinearX count nm).plain = g.decomposeLinear count nm := by
  unfold decomposeLinearX decomposeLinear
  simp only [plain_ite, plain_error, plain_bind, unlink_plain, plain_foldlM _ _ (linearStep_plain _ _)]
  congr 1
  congr 1
  funext g1
  congr 1
  funext ⟨g2, cur⟩
  simp only [plain_ite, post_plain, plain_error]

theorem farhatStep_plain (s : Grid F R × Nat) (p : Nat × Nat) : (farhatStepX s p).plain = farhatStep s p := by
  unfold farhatStepX farhatStep
  rw [plain_bind, plain_here]
  congr 1
  funext ⟨g1, path⟩
  simp only [plain_bind]
  congr 1
  refine plain_foldlM _ _ (fun s a => ?_) _ _
  rw [plain_bind]
  simp only [plain_here]

theorem farhat_plain (g : Grid F R) (count : Nat) (nm : Option Str) (names : List Str) :
    (g.decomposeFarhatX count nm names).plain = g.decomposeFarhat count nm names := by
  unfold decomposeFarhatX decomposeFarhat
  simp only [plain_bind, unlink_plain, plain_here, plain_foldlM _ _ farhatStep_plain]
  congr 1
  funext g1
  congr 1
  funext st
  congr 1
  funext ⟨g2, _⟩
  exact post_plain g2

section
variable {S : Type} [LT S] [LE S] [DecidableLT S] [DecidableLE S]

theorem splitMetrics_plain (zone zl zr : Nat) (fns : List (Nat → S)) (g : Grid F R) :
    (splitMetricsX zone zl zr fns g).plain = splitMetrics zone zl zr fns g := by
  induction fns generalizing g with
  | nil => rfl
  | cons fn fns ih =>
    unfold splitMetricsX splitMetrics
    rw [plain_bind, plain_here]
    congr 1
    funext ⟨g1, m⟩
    simp only [plain_bind, ih]
    congr 1

theorem splitZone_plain (g : Grid F R) (zone : Nat) (fns : List (Nat → S)) :
    (g.splitZoneX zone fns).plain = g.splitZone zone fns := by
  unfold splitZoneX splitZone
  simp only [plain_ite, plain_bind, plain_here, left_pure, plain_ok, splitMetrics_plain]
  congr 2
  congr 1
  funext l
  congr 1
  funext ⟨g1, ms⟩
  simp only [plain_ite, plain_error]
  congr 1
  cases bestMetric ms 0 with
  | none => simp only [plain_bind, plain_here]; rfl
  | some p =>
    obtain ⟨m, i⟩ := p
    simp only
    cases fns[i]? with
    | none => rfl
    | some fn =>
      simp only [plain_bind, plain_here, plain_foldlM _ _ (fun s a => plain_here s _)]

theorem splitLevel_plain (fns : List (Nat → S)) (c : Nat) (g : Grid F R) :
    (splitLevelX fns c g).plain = splitLevel fns c g := by
  induction c generalizing g with
  | zero => rfl
  | succ c ih =>
    unfold splitLevelX splitLevel
    simp only [plain_bind, plain_here, splitZone_plain, ih]

theorem splitLevels_plain (fns : List (Nat → S)) (c : Nat) (g : Grid F R) :
    (splitLevelsX fns c g).plain = splitLevels fns c g := by
  induction c generalizing g with
  | zero => rfl
  | succ c ih =>
    unfold splitLevelsX splitLevels
    simp only [plain_bind, splitLevel_plain, ih]

theorem hier_plain (g : Grid F R) (fns : List (Nat → S)) (levels : Nat) (nm : Option Str) (names : List Str) :
    (g.decomposeHierarchicalX fns levels nm names).plain = g.decomposeHierarchical fns levels nm names := by
  unfold decomposeHierarchicalX decomposeHierarchical
  simp only [plain_bind, unlink_plain, plain_ite, plain_error, splitLevels_plain, post_plain]
  congr 1
  funext g1
  congr 1
  congr 1
  refine plain_foldlM _ _ (fun s a => ?_) _ _
  rw [plain_ite, plain_here]; rfl

/-- The model which keeps the grid agrees with the one which does not. -/
theorem call_plain (c : DecompCall S) (g : Grid F R) : (c.runX g).plain = c.run g := by
  cases c with
  | mono nm => exact mono_plain g nm
  | random rand count nm => exact random_plain g rand count nm
  | linear count nm => exact linear_plain g count nm
  | farhat count nm fixed => exact farhat_plain g count nm fixed
  | hierarchical fns levels nm fixed => exact hier_plain g fns levels nm fixed
end

end Verif
