import Verif.Model.Stream
import Verif.Proofs.Left

/-! Reading and building line by line gives the same grid as reading first and building afterwards. -/

namespace Verif
open Grid
variable {F R : Type}

/-- The value, if there is one. -/
def opt {α : Type} (x : Res α) : Option α := match x with | .ok a => some a | .error _ => none

@[simp] theorem opt_ok {α : Type} (a : α) : opt (.ok a : Res α) = some a := rfl
@[simp] theorem opt_pure {α : Type} (a : α) : opt (pure a : Res α) = some a := rfl
@[simp] theorem opt_error {α : Type} (e : Err) : opt (.error e : Res α) = none := rfl

theorem opt_bind {α β : Type} (x : Res α) (f : α → Res β) : opt (x >>= f) = (opt x).bind (fun a => opt (f a)) := by
  cases x <;> rfl

theorem opt_map {α β : Type} (x : Res α) (f : α → β) : opt (x.map f) = (opt x).map f := by
  cases x <;> rfl

theorem opt_eq_some {α : Type} {x : Res α} {a : α} : opt x = some a ↔ x = .ok a := by
  cases x with
  | ok b => simp [opt]
  | error e => simp [opt]

/-- The value of a result with state, if there is one. -/
def lopt {α : Type} (x : Left F R α) : Option α := opt x.plain

@[simp] theorem lopt_ok {α : Type} (a : α) : lopt (.ok a : Left F R α) = some a := rfl
@[simp] theorem lopt_pure {α : Type} (a : α) : lopt (pure a : Left F R α) = some a := rfl
@[simp] theorem lopt_error {α : Type} (e : Err × Grid F R) : lopt (.error e : Left F R α) = none := rfl
@[simp] theorem lopt_here {α : Type} (g : Grid F R) (r : Res α) : lopt (g.here r) = opt r := by
  unfold lopt; rw [plain_here]

theorem lopt_bind {α β : Type} (x : Left F R α) (f : α → Left F R β) : lopt (x >>= f) = (lopt x).bind (fun a => lopt (f a)) := by
  cases x <;> rfl

theorem bind_fun_none {α β : Type} (x : Option α) : x.bind (fun _ => (none : Option β)) = none := by cases x <;> rfl

theorem opt_foldlM_cons {α β : Type} (f : β → α → Res β) (a : α) (l : List α) (s : β) :
    opt ((a :: l).foldlM f s) = (opt (f s a)).bind (fun s' => opt (l.foldlM f s')) := by
  rw [List.foldlM_cons, opt_bind]

theorem lopt_foldlM_cons {α β : Type} (f : β → α → Left F R β) (a : α) (l : List α) (s : β) :
    lopt ((a :: l).foldlM f s) = (lopt (f s a)).bind (fun s' => lopt (l.foldlM f s')) := by
  rw [List.foldlM_cons, lopt_bind]

theorem opt_mapM_cons {α β : Type} (f : α → Res β) (a : α) (l : List α) :
    opt ((a :: l).mapM f) = (opt (f a)).bind (fun b => (opt (l.mapM f)).bind (fun bs => some (b :: bs))) := by
  rw [List.mapM_cons, opt_bind]
  congr 1
  funext b
  rw [opt_bind]
  rfl

theorem opt_mapM_length {α β : Type} {f : α → Res β} {l : List α} {bs : List β} (h : opt (l.mapM f) = some bs) : bs.length = l.length := by
  induction l generalizing bs with
  | nil => rw [List.mapM_nil] at h; cases h; rfl
  | cons a l ih =>
    rw [opt_mapM_cons] at h
    cases hb : opt (f a) with
    | none => rw [hb] at h; cases h
    | some b =>
      rw [hb] at h
      cases hl : opt (l.mapM f) with
      | none => rw [hl] at h; cases h
      | some cs => rw [hl] at h; cases h; simp [ih hl]

/-- Reading all items and then using them, or using each when it is read. -/
theorem fold_read {α β γ : Type} (f : α → Res γ) (step : β → γ → Res β) (both : β → α → Left F R β)
    (h : ∀ s a, lopt (both s a) = (opt (f a)).bind (fun p => opt (step s p))) (l : List α) (s : β) :
    lopt (l.foldlM both s) = (opt (l.mapM f)).bind (fun ps => opt (ps.foldlM step s)) := by
  induction l generalizing s with
  | nil => rfl
  | cons a l ih =>
    rw [lopt_foldlM_cons, opt_mapM_cons, h]
    cases opt (f a) with
    | none => rfl
    | some p =>
      simp only [Option.bind_some]
      cases hl : opt (l.mapM f) with
      | none =>
        simp only [ih, hl, Option.bind_none]
        exact bind_fun_none _
      | some ps =>
        simp only [ih, hl, Option.bind_some, opt_foldlM_cons]

theorem mapM_two {α β γ : Type} (f : α → Res β) (h : β → Res γ) (l : List α) :
    opt (l.mapM (fun a => do let b ← f a; h b)) = (opt (l.mapM f)).bind (fun bs => opt (bs.mapM h)) := by
  induction l with
  | nil => rfl
  | cons a l ih =>
    rw [opt_mapM_cons, opt_mapM_cons, opt_bind, ih]
    cases opt (f a) with
    | none => rfl
    | some b =>
      simp only [Option.bind_some]
      cases opt (l.mapM f) with
      | none => simp only [Option.bind_none]; exact bind_fun_none _
      | some bs => simp only [Option.bind_some, opt_mapM_cons]

theorem conn_one (z : Nat) (g : Grid F R) (ls : List Str) (i : Nat) :
    lopt (streamConn z (g, ls) i) = (opt (parseInts (readline ls).1)).bind (fun is => (opt (g.blockConn z (is, i))).bind
      (fun g' => some (g', (readline ls).2))) := by
  unfold streamConn blockConn parseInts
  simp only [lopt_bind, lopt_here, opt_bind, mapM_two]
  cases opt ((Py.splitWs (readline ls).1).mapM Py.int) with
  | none => simp only [Option.bind_none]; exact bind_fun_none _
  | some is =>
    simp only [Option.bind_some]
    cases opt (Py.get (g.zFaces z) (i : Int)) with
    | none => rfl
    | some f =>
      simp only [Option.bind_some]
      cases opt (is.mapM (fun s => Py.get (g.zNodes z) (s - 1))) with
      | none => rfl
      | some ns =>
        simp only [Option.bind_some]
        match ns with
        | [] => rfl
        | [_] => rfl
        | [_, _] => rfl
        | [_, _, _] => rfl
        | _ :: _ :: _ :: _ :: _ => rfl

theorem conn_all (z : Nat) (n k : Nat) (g : Grid F R) (ls : List Str) :
    lopt ((List.range' k n).foldlM (streamConn z) (g, ls)) = (opt ((readlines n ls).1.mapM parseInts)).bind (fun cs =>
      (opt ((cs.zipIdx k).foldlM (blockConn z) g)).bind (fun g' => some (g', (readlines n ls).2))) := by
  induction n generalizing k g ls with
  | zero => rfl
  | succ n ih =>
    rw [List.range'_succ, lopt_foldlM_cons, conn_one]
    show _ = (opt (((readline ls).1 :: (readlines n (readline ls).2).1).mapM parseInts)).bind _
    rw [opt_mapM_cons]
    cases opt (parseInts (readline ls).1) with
    | none => rfl
    | some is =>
      simp only [Option.bind_some]
      cases hc : opt ((readlines n (readline ls).2).1.mapM parseInts) with
      | none =>
        simp only [Option.bind_none]
        cases opt (g.blockConn z (is, k)) with
        | none => rfl
        | some g' => simp only [Option.bind_some, ih, hc, Option.bind_none]
      | some cs =>
        simp only [Option.bind_some, List.zipIdx_cons, opt_foldlM_cons]
        cases opt (g.blockConn z (is, k)) with
        | none => rfl
        | some g' =>
          simp only [Option.bind_some, ih, hc]
          rfl

variable [DecidableEq R]

theorem zone_both (rc : Vec F → R) (c : Codec F) (merge : Bool) (vars : List Str) (line : Str) (ls : List Str) (g : Grid F R) :
    lopt (streamZone rc c merge vars line ls g) = (opt (parseZone c vars line ls)).bind (fun r =>
      (opt (addBlock rc merge g r.1)).bind (fun g' => some (g', r.2))) := by
  unfold streamZone parseZone
  simp only [lopt_bind, lopt_here, opt_bind]
  cases opt (lastField line) with
  | none => rfl
  | some zl =>
  simp only [Option.bind_some]
  obtain ⟨nodesLine, facesLine, packing, ztype, varloc, hd⟩ : ∃ a b c d e, (readlines 5 ls).1 = [a, b, c, d, e] :=
    ⟨_, _, _, _, _, rfl⟩
  rw [hd]
  simp only [lopt_bind, lopt_here, opt_bind]
  cases opt (checkHead vars.length nodesLine facesLine packing ztype varloc) with
  | none => rfl
  | some _ =>
  simp only [Option.bind_some]
  cases opt (countOf nodesLine) with
  | none => rfl
  | some nn =>
  simp only [Option.bind_some]
  cases opt (countOf facesLine) with
  | none => rfl
  | some nf =>
  simp only [Option.bind_some]
  cases hcs : opt ((readlines 3 (readlines 5 ls).2).1.mapM (parseFloats c)) with
  | none => rfl
  | some cs =>
  simp only [Option.bind_some]
  have hl := opt_mapM_length hcs
  match cs, hl with
  | [cx, cy, cz], _ =>
    simp only [lopt_bind, lopt_here, opt_bind]
    rw [fold_read (pointAt cx cy cz) (blockNode rc merge g.zNext) (streamNode rc merge g.zNext cx cy cz)
      (by intro s a; unfold streamNode; simp only [lopt_bind, lopt_here])]
    cases opt ((List.range nn.toNat).mapM (pointAt cx cy cz)) with
    | none => rfl
    | some pts =>
    simp only [Option.bind_some]
    cases hd : opt ((readlines (vars.drop 3).length (readlines 3 (readlines 5 ls).2).2).1.mapM (parseFloats c)) with
    | none => simp only [Option.bind_none]; exact bind_fun_none _
    | some d =>
    simp only [Option.bind_some]
    have hfr : ∀ (l : List Nat) (s : Grid F R), lopt (l.foldlM (streamFace (vars.drop 3) d g.zNext) s) =
        (opt (l.mapM (dataAt (vars.drop 3) d))).bind (fun ps => opt (ps.foldlM (blockFace g.zNext) s)) :=
      fold_read _ _ _ (by intro s a; unfold streamFace; simp only [lopt_bind, lopt_here])
    simp only [hfr]
    cases hda : opt ((List.range nf.toNat).mapM (dataAt (vars.drop 3) d)) with
    | none => simp only [Option.bind_none]; exact bind_fun_none _
    | some datas =>
    simp only [Option.bind_some]
    simp only [List.range_eq_range', conn_all]
    cases hcn : opt ((readlines nf.toNat (readlines (vars.drop 3).length (readlines 3 (readlines 5 ls).2).2).2).1.mapM parseInts) with
    | none =>
      simp only [Option.bind_none]
      rw [show (fun a => (opt (List.foldlM (blockFace g.zNext) a datas)).bind (fun _ => (none : Option (Grid F R × List Str)))) = fun _ => none from
        funext fun a => bind_fun_none _]
      exact bind_fun_none _
    | some conns =>
    have l1 := opt_mapM_length hda
    have l2 := opt_mapM_length hcn
    have hrl : ∀ n (ls : List Str), (readlines n ls).1.length = n := by
      intro n
      induction n with
      | zero => intro ls; rfl
      | succ n ih => intro ls; show ((readline ls).1 :: (readlines n (readline ls).2).1).length = _; simp [ih]
    rw [hrl] at l2
    rw [List.length_range] at l1
    simp only [Option.bind_some, opt_pure]
    unfold addBlock
    simp only [opt_bind]
    rw [List.map_fst_zip (by omega), List.map_snd_zip (by omega)]
    simp only [Option.bind_assoc]
  | [], h => simp [readlines] at h
  | [_], h => simp [readlines] at h
  | [_, _], h => simp [readlines] at h
  | _ :: _ :: _ :: _ :: _, h => simp [readlines] at h

/-- Another name. -/
def named (n : Str) (g : Grid F R) : Grid F R := { g with name := n }

omit [DecidableEq R] in
theorem foldlM_named {α : Type} (n : Str) (f : Grid F R → α → Res (Grid F R)) (h : ∀ s a, f (named n s) a = (f s a).map (named n))
    (l : List α) (s : Grid F R) : l.foldlM f (named n s) = (l.foldlM f s).map (named n) := by
  induction l generalizing s with
  | nil => rfl
  | cons a l ih =>
    rw [List.foldlM_cons, List.foldlM_cons, h]
    cases f s a with
    | error e => rfl
    | ok s' => exact ih s'

theorem blockNode_named (n : Str) (rc : Vec F → R) (merge : Bool) (z : Nat) (g : Grid F R) (p : Vec F) :
    blockNode rc merge z (named n g) p = (blockNode rc merge z g p).map (named n) := by
  have hf : ∀ x, ((named n g).newNode rc p).findNearNode x = (g.newNode rc p).findNearNode x := fun _ => rfl
  unfold blockNode addNode
  show (Except.bind (Except.bind (((named n g).newNode rc p).findNearNode g.nNext) _) _) = Except.map _ (Except.bind (Except.bind _ _) _)
  rw [hf]
  cases (g.newNode rc p).findNearNode g.nNext with
  | error e => rfl
  | ok o =>
    cases o with
    | none => rfl
    | some m => cases merge <;> rfl

omit [DecidableEq R] in
theorem blockFace_named (n : Str) (z : Nat) (g : Grid F R) (d : List (Str × F)) :
    blockFace z (named n g) d = (blockFace z g d).map (named n) := by
  unfold blockFace zoneAddFace unlinkFromZone
  have h1 : (((named n g).newFace d).addFace (named n g).fNext).fZone (named n g).fNext = none := by
    show upd _ _ _ _ = none
    unfold upd; rw [if_pos rfl]
  have h2 : ((g.newFace d).addFace g.fNext).fZone g.fNext = none := by
    show upd _ _ _ _ = none
    unfold upd; rw [if_pos rfl]
  rw [if_neg (by rw [h1]; simp), if_neg (by rw [h2]; simp)]
  rfl

omit [DecidableEq R] in
theorem blockConn_named (n : Str) (z : Nat) (g : Grid F R) (p : List Int × Nat) :
    blockConn z (named n g) p = (blockConn z g p).map (named n) := by
  unfold blockConn
  rw [show (named n g).zFaces = g.zFaces from rfl, show (named n g).zNodes = g.zNodes from rfl]
  cases Py.get (g.zFaces z) (p.2 : Int) with
  | error e => rfl
  | ok f =>
    simp only [res_bind_ok]
    cases p.1.mapM (fun s => Py.get (g.zNodes z) (s - 1)) with
    | error e => rfl
    | ok ns =>
      simp only [res_bind_ok]
      match ns with
      | [] => rfl
      | [_] => rfl
      | [_, _] => rfl
      | [_, _, _] => rfl
      | _ :: _ :: _ :: _ :: _ => rfl

theorem addBlock_named (n : Str) (rc : Vec F → R) (merge : Bool) (g : Grid F R) (b : ZoneBlock F) :
    addBlock rc merge (named n g) b = (addBlock rc merge g b).map (named n) := by
  unfold addBlock
  have hp : (named n g).pushZone b.name = named n (g.pushZone b.name) := rfl
  simp only
  rw [hp, show (named n g).zNext = g.zNext from rfl, foldlM_named n _ (fun s a => blockNode_named n rc merge g.zNext s a)]
  cases b.pts.foldlM (blockNode rc merge g.zNext) (g.pushZone b.name) with
  | error e => rfl
  | ok g1 =>
    show ((b.faces.map (·.1)).foldlM (blockFace g.zNext) (named n g1) >>= _) = Except.map _ ((b.faces.map (·.1)).foldlM (blockFace g.zNext) g1 >>= _)
    rw [foldlM_named n _ (fun s a => blockFace_named n g.zNext s a)]
    cases (b.faces.map (·.1)).foldlM (blockFace g.zNext) g1 with
    | error e => rfl
    | ok g2 => exact foldlM_named n _ (fun s a => blockConn_named n g.zNext s a) _ g2

theorem stream_both (rc : Vec F → R) (c : Codec F) (merge : Bool) (n : Nat) (vars : List Str) (nm : Str) (bs : List (ZoneBlock F))
    (g0 : Grid F R) (ls : List Str) :
    (opt (parseFile c n ⟨nm, vars, bs⟩ ls)).bind (fun s => opt (s.blocks.foldlM (addBlock rc merge) (named s.name g0))) =
      (opt (bs.foldlM (addBlock rc merge) (named nm g0))).bind (fun g => lopt (stream rc c merge n vars g ls)) := by
  induction n generalizing vars nm bs ls with
  | zero => show opt _ = _; cases opt (bs.foldlM (addBlock rc merge) (named nm g0)) <;> rfl
  | succ n ih =>
    cases ls with
    | nil => show opt _ = _; cases opt (bs.foldlM (addBlock rc merge) (named nm g0)) <;> rfl
    | cons line ls =>
      unfold parseFile stream
      split
      · exact ih vars nm bs ls
      split
      · simp only [opt_bind, lopt_bind, lopt_here]
        cases opt (Py.get (Py.splitCh '=' line) 1) with
        | none => simp only [Option.bind_none]; exact (bind_fun_none _).symm
        | some t =>
          simp only [Option.bind_some]
          rw [ih]
          have := foldlM_named (Py.slice t (some 1) (some (-2))) (addBlock rc merge) (fun s a => addBlock_named _ rc merge s a) bs (named nm g0)
          rw [show named (Py.slice t (some 1) (some (-2))) (named nm g0) = named (Py.slice t (some 1) (some (-2))) g0 from rfl] at this
          rw [this, opt_map]
          cases opt (bs.foldlM (addBlock rc merge) (named nm g0)) <;> rfl
      split
      · simp only [opt_bind, lopt_bind, lopt_here]
        cases opt (varsOf line) with
        | none => simp only [Option.bind_none]; exact (bind_fun_none _).symm
        | some v =>
          simp only [Option.bind_some]
          exact ih v nm bs ls
      split
      · simp only [opt_bind, lopt_bind, zone_both]
        cases opt (parseZone c vars line ls) with
        | none => simp only [Option.bind_none]; exact (bind_fun_none _).symm
        | some r =>
          simp only [Option.bind_some]
          rw [ih, List.foldlM_append, opt_bind]
          cases opt (bs.foldlM (addBlock rc merge) (named nm g0)) with
          | none => rfl
          | some g =>
            simp only [Option.bind_some]
            rw [opt_foldlM_cons]
            cases opt (addBlock rc merge g r.1) <;> rfl
      · show none = _
        exact (bind_fun_none _).symm

theorem linkFace_plain (g : Grid F R) (f : Nat) : (g.linkFaceX f).plain = g.linkFace f := by
  unfold linkFaceX linkFace
  simp only [plain_bind, plain_here]

omit [DecidableEq R] in
theorem links_plain (g : Grid F R) : g.linkNodesAndEdgesToZonesX.plain = g.linkNodesAndEdgesToZones := by
  unfold linkNodesAndEdgesToZonesX linkNodesAndEdgesToZones
  simp only [plain_bind, plain_foldlM _ _ linkNode_plain, plain_foldlM _ _ linkEdge_plain, left_pure, plain_ok]
  rfl

/-- Both models of `load` give the same grid whenever one of them gives a grid. -/
theorem load_both (rc : Vec F → R) (c : Codec F) (merge : Bool) (g : Grid F R) (text : Str) :
    lopt (loadX rc c merge g (some text)) = opt (loadText rc c merge g text) := by
  have h := stream_both rc c merge (Py.readlines text).length [] g.name [] g.clear (Py.readlines text)
  unfold loadX loadText loadBlocks
  simp only [lopt_bind, opt_bind]
  rw [show opt ([].foldlM (addBlock rc merge) (named g.name g.clear)) = some g.clear from rfl] at h
  simp only [Option.bind_some] at h
  rw [← h, Option.bind_assoc]
  congr 1
  funext s
  show _ = (opt (s.blocks.foldlM (addBlock rc merge) (named s.name g.clear))).bind _
  congr 1
  funext g1
  unfold lopt
  rw [plain_foldlM _ _ linkFace_plain]
  congr 1
  funext g2
  rw [links_plain]

end Verif
