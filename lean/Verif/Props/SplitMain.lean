import Verif.Spec.SplitMain
import Verif.Model.SplitMain
import Verif.Props.Split
import Verif.Props.Text
import Verif.Props.Calc
import Verif.Proofs.Utils

/-! Property C82: the options of the splitting program. -/

namespace Verif.Props
open Verif Grid
variable {F R : Type}

theorem has_item {j v : Json F} {k : Str} (h : j.Has k v) : j.item k = .ok v := by
  obtain ⟨l, rfl, h⟩ := h
  show (match Py.dictGet? l k with | some v => Except.ok v | none => Except.error Err.key) = _
  rw [h]

theorem lacks_item {j : Json F} {k : Str} (h : j.Lacks k) : j.item k = .error .key := by
  obtain ⟨l, rfl, h⟩ := h
  show (match Py.dictGet? l k with | some v => Except.ok v | none => Except.error Err.key) = _
  rw [(Utils.dictGet?_none_iff l k).2 (by
    intro hm
    obtain ⟨⟨a, b⟩, hp, rfl⟩ := List.mem_map.1 hm
    exact h b hp)]

theorem orKey_ok {α : Type} (a d : α) : Json.orKey (.ok a) d = .ok a := rfl

theorem orKey_key {α : Type} (d : α) : Json.orKey (.error .key) d = .ok d := rfl

theorem extractFixed_heating {data : Json F} {names : List Str} (h : HeatingZones data names) :
    ∃ fz, extractFixedZones data = .ok fz ∧ fz.mapM Json.asStr = .ok names := by
  unfold extractFixedZones
  rcases h with ⟨h | ⟨hs, h1, h2⟩, rfl⟩ | ⟨es, ⟨hs, h1, h2⟩, h3⟩
  · exact ⟨[], by rw [lacks_item h]; rfl, rfl⟩
  · refine ⟨[], ?_, rfl⟩
    rw [has_item h1, res_bind_ok, lacks_item h2]
    rfl
  · refine ⟨names.map .str, ?_, ?_⟩
    · rw [has_item h1, res_bind_ok, has_item h2, res_bind_ok]
      have : es.mapM (fun e => e.item "zone".toList) = .ok (names.map .str) := by
        clear h2
        induction h3 with
        | nil => rfl
        | cons h _ ih => rw [List.mapM_cons, has_item h, res_bind_ok, ih]; rfl
      show Json.orKey (es.mapM _) [] = _
      rw [this, orKey_ok]
    · clear h3
      induction names with
      | nil => rfl
      | cons n ns ih => rw [List.map_cons, List.mapM_cons]; show (Except.ok n >>= _) = _; rw [res_bind_ok, ih]; rfl

theorem splitMain_eq {S : Type} [LinearOrder S] [DecidableEq R] [One F] [IntCast F] (rc : Vec F → R) (c : Codec F)
    (dflt : F) (new : Grid F R) (fns : Grid F R → List (Nat → S)) (stem sf gridText : Str) (cryDir : Option Str) {cmd : Option Str}
    {json : Option (Json F)} {s : Str} {names : List Str} {r : F} (hs : ChosenStrategy cmd json s)
    (hz : ∀ data, json = some data → ∃ fz, extractFixedZones data = .ok fz ∧ fz.mapM Json.asStr = .ok names)
    (h0 : json = none → names = []) (hr : ChosenFactor json r) :
    splitMain rc c dflt new fns stem sf gridText cryDir cmd json =
      split rc c dflt new fns stem sf gridText cryDir cryDir.isNone s names r := by
  have e1 : chooseStrategy cmd json = .ok (.str s) := by
    rcases hs with rfl | ⟨rfl, ⟨data, rfl, h | ⟨h, rfl⟩⟩ | ⟨rfl, rfl⟩⟩
    · rfl
    · show Json.orKey _ _ = _
      rw [has_item h, orKey_ok]
    · show Json.orKey _ _ = _
      rw [lacks_item h, orKey_key]
    · rfl
  have e2 : ∃ fz, chooseFixed json = .ok fz ∧ fz.mapM Json.asStr = .ok names := by
    cases json with
    | none => rw [h0 rfl]; exact ⟨[], rfl, rfl⟩
    | some data => exact hz data rfl
  have e3 : ∃ rf, chooseFactor json = .ok rf ∧ rf.asNum = .ok r := by
    rcases hr with ⟨data, rfl, h | ⟨i, h, rfl⟩ | ⟨h, rfl⟩⟩ | ⟨rfl, rfl⟩
    · refine ⟨.num r, ?_, rfl⟩
      show Json.orKey _ _ = _
      rw [has_item h, orKey_ok]
    · refine ⟨.int i, ?_, rfl⟩
      show Json.orKey _ _ = _
      rw [has_item h, orKey_ok]
    · refine ⟨.num 1, ?_, rfl⟩
      show Json.orKey _ _ = _
      rw [lacks_item h, orKey_key]
    · exact ⟨.num 1, rfl, rfl⟩
  obtain ⟨fz, e2, e2'⟩ := e2
  obtain ⟨rf, e3, e3'⟩ := e3
  unfold splitMain
  rw [e1, res_bind_ok, e2, res_bind_ok, e3, res_bind_ok]
  show (Except.ok s >>= _) = _
  rw [res_bind_ok, e2', res_bind_ok, e3', res_bind_ok]

/-- The options of the program: the strategy of the command line comes before that of the JSON file, which comes before `n1`; the
zones of the heating elements are fixed; the recovery factor is that of the JSON file or 1. -/
theorem C82_options {S : Type} [LinearOrder S] [DecidableEq R] [One F] [IntCast F] (rc : Vec F → R) (c : Codec F)
    (dflt : F) (new : Grid F R) (fns : Grid F R → List (Nat → S)) (stem sf gridText : Str) (cryDir : Option Str) {cmd : Option Str}
    {json : Option (Json F)} {s : Str} {names : List Str} {r : F} (hs : ChosenStrategy cmd json s)
    (hz : ∀ data, json = some data → HeatingZones data names) (h0 : json = none → names = []) (hr : ChosenFactor json r) :
    splitMain rc c dflt new fns stem sf gridText cryDir cmd json =
      split rc c dflt new fns stem sf gridText cryDir cryDir.isNone s names r :=
  splitMain_eq rc c dflt new fns stem sf gridText cryDir hs (fun data h => extractFixed_heating (hz data h)) h0 hr

/-- Fixed zones survive every strategy. -/
theorem splitGrid_kept {S : Type} [LinearOrder S] {g g' : Grid F R} (hw : Wf g) (hne : g.faces ≠ []) {fns : List (Nat → S)}
    {strategy : Str} {fixed : List Str} (h : splitGrid g fns strategy fixed = .ok g') :
    ∀ z ∈ g.zones, g.zName z ∈ fixed → z ∈ g'.zones ∧ g'.zFaces z = g.zFaces z ∧ g'.zName z = g.zName z := by
  intro z hz hn
  have hf : fixed ≠ [] := by rintro rfl; cases hn
  unfold splitGrid at h
  split at h
  · cases h
  · split at h
    · simp only [res_bind_eq_ok] at h
      obtain ⟨k, -, h⟩ := h
      rw [if_neg (fun h => hf h.2)] at h
      exact (C13_hierarchical g g' hw fns _ none fixed h).2.1 z hz hn
    · split at h
      · simp only [res_bind_eq_ok] at h
        obtain ⟨k, -, h⟩ := h
        rw [if_neg (fun h => hf h.2)] at h
        split at h
        · cases h
        · split at h
          · cases h
          · obtain ⟨g2, new, q1, -, q3, -, q5, -⟩ := C11_farhat g hw (k - fixed.length).toNat (by omega) hne none fixed
            rw [h] at q1
            obtain rfl := Except.ok.inj q1
            refine ⟨?_, q5 z hz hn⟩
            rw [q3]
            exact List.mem_append_left _ (List.mem_filter.2 ⟨hz, by simpa using hn⟩)
      · cases h

/-- Whenever the program ends without an exception, every heating element has its zone in the result: with the same name and the
same faces as in the given grid, and every zone of this name is kept. -/
theorem C82_heating_partial {S : Type} [LinearOrder S] [DecidableEq R] [One F] [IntCast F] (rc : Vec F → R) (c : Codec F)
    (dflt : F) (new : Grid F R) (fns : Grid F R → List (Nat → S)) (stem sf gridText title : Str) (blocks : List (ZoneBlock F))
    (hfile : GridFile c gridText title blocks) (hd : NonDegenerate rc true blocks) (cryDir : Option Str) {cmd : Option Str}
    {data : Json F} {s : Str} {names : List Str} {r : F} (hs : ChosenStrategy cmd (some data) s) (hz : HeatingZones data names)
    (hr : ChosenFactor (some data) r) {g' : Grid F R} {out : SplitOut F}
    (h : splitMain rc c dflt new fns stem sf gridText cryDir cmd (some data) = .ok (g', out)) :
    ∃ g, loadText rc c true new gridText = .ok g ∧ g'.faces = g.faces ∧ (g.faces ≠ [] → ∀ n ∈ names, (∃ z ∈ g'.zones, g'.zName z = n) ∧
      ∀ z ∈ g.zones, g.zName z = n → z ∈ g'.zones ∧ g'.zFaces z = g.zFaces z ∧ g'.zName z = n) := by
  rw [C82_options rc c dflt new fns stem sf gridText cryDir hs (by rintro d ⟨⟩; exact hz) (by intro h; cases h) hr] at h
  obtain ⟨g, h1, h2, h3⟩ := split_ok h
  have h1' := h1
  rw [hfile.load] at h1'
  have L := loaded_of hd h1'
  have hw : Wf (fillFactor g r) := Wf.withData ⟨L.mesh, L.zones, L.alloc⟩ _
  refine ⟨g, h1, by rw [(splitGrid_ok hw h3).same.faces]; rfl, fun hne n hn => ?_⟩
  have hk := splitGrid_kept hw hne h3
  have hall : ∀ z ∈ g.zones, g.zName z = n → z ∈ g'.zones ∧ g'.zFaces z = g.zFaces z ∧ g'.zName z = n := by
    intro z hz e
    obtain ⟨a, b, d⟩ := hk z hz (by show g.zName z ∈ names; rw [e]; exact hn)
    exact ⟨a, b, d.trans e⟩
  refine ⟨?_, hall⟩
  obtain ⟨z, hz, e⟩ := (C30_unknown_zone g names).1 h2 n hn
  exact ⟨z, (hall z hz e).1, (hall z hz e).2.2⟩

/-- Missing in `C82_heating_partial`: heating systems in which an element has no zone. Then no zone at all is fixed, as if there were
no heating system. -/
theorem C82_incomplete {S : Type} [LinearOrder S] [DecidableEq R] [One F] [IntCast F] (rc : Vec F → R) (c : Codec F)
    (dflt : F) (new : Grid F R) (fns : Grid F R → List (Nat → S)) (stem sf gridText : Str) (cryDir : Option Str) {cmd : Option Str}
    {data : Json F} {s : Str} {es : List (Json F)} {r : F} (hs : ChosenStrategy cmd (some data) s) (he : Heaters data es)
    (hobj : ∀ e ∈ es, e.Lacks "zone".toList ∨ ∃ v, e.Has "zone".toList v) (hl : ∃ e ∈ es, e.Lacks "zone".toList)
    (hr : ChosenFactor (some data) r) :
    splitMain rc c dflt new fns stem sf gridText cryDir cmd (some data) =
      split rc c dflt new fns stem sf gridText cryDir cryDir.isNone s [] r := by
  have e2 : extractFixedZones data = .ok [] := by
    obtain ⟨h, h1, h2⟩ := he
    unfold extractFixedZones
    rw [has_item h1, res_bind_ok, has_item h2, res_bind_ok]
    have : es.mapM (fun e => e.item "zone".toList) = .error .key := by
      clear h2
      induction es with
      | nil => obtain ⟨e, he, -⟩ := hl; cases he
      | cons e es ih =>
        rw [List.mapM_cons]
        rcases hobj e (by simp) with h | ⟨v, h⟩
        · rw [lacks_item h]; rfl
        · rw [has_item h, res_bind_ok, ih (fun e he => hobj e (by simp [he]))]
          · rfl
          · obtain ⟨e', he', hl'⟩ := hl
            rcases List.mem_cons.1 he' with rfl | he'
            · obtain ⟨l, rfl, hl'⟩ := hl'
              obtain ⟨l2, e, h⟩ := h
              cases e
              rw [(Utils.dictGet?_none_iff l "zone".toList).2 (by
                intro hm
                obtain ⟨⟨a, b⟩, hp, rfl⟩ := List.mem_map.1 hm
                exact hl' b hp)] at h
              cases h
            · exact ⟨e', he', hl'⟩
    show Json.orKey (es.mapM _) [] = _
    rw [this, orKey_key]
  exact splitMain_eq rc c dflt new fns stem sf gridText cryDir hs (by rintro d ⟨⟩; exact ⟨[], e2, rfl⟩) (by intro h; cases h) hr

/-- A JSON file that is no object is refused with `TypeError`. -/
theorem C82_no_object {S : Type} [LinearOrder S] [DecidableEq R] [One F] [IntCast F] (rc : Vec F → R) (c : Codec F)
    (dflt : F) (new : Grid F R) (fns : Grid F R → List (Nat → S)) (stem sf gridText : Str) (cryDir : Option Str) (cmd : Option Str)
    {data : Json F} (hd : ∀ l, data ≠ .obj l) :
    splitMain rc c dflt new fns stem sf gridText cryDir cmd (some data) = .error .type := by
  have h : ∀ k, data.item k = .error .type := by
    intro k
    cases data with
    | obj l => exact absurd rfl (hd l)
    | _ => rfl
  have h2 : extractFixedZones data = .error .type := by
    unfold extractFixedZones
    rw [h]
    rfl
  unfold splitMain
  cases cmd with
  | none =>
    show (extractStrategy data >>= _) = _
    unfold extractStrategy
    rw [h]
    rfl
  | some s =>
    show (Except.ok (Json.str s) >>= _) = _
    rw [res_bind_ok]
    show (extractFixedZones data >>= _) = _
    rw [h2]
    rfl

/-! ### Samples -/

/-- A heating element in the zone `b` of the sample file. -/
def heatJson : Json Int := .obj [("recovery_factor".toList, .int 7), ("heating_system".toList, .obj [("elements".toList,
  .arr [.obj [("power".toList, .int 3), ("zone".toList, .str "b".toList)]])])]

/-- The second heating element has no zone. -/
def brokenJson : Json Int := .obj [("heating_system".toList, .obj [("elements".toList,
  .arr [.obj [("zone".toList, .str "b".toList)], .obj [("power".toList, .int 3)]])])]

theorem heat_zones : HeatingZones heatJson ["b".toList] :=
  Or.inr ⟨_, ⟨_, ⟨_, rfl, rfl⟩, ⟨_, rfl, rfl⟩⟩, .cons ⟨_, rfl, rfl⟩ .nil⟩

theorem heat_strategy : ChosenStrategy none (some heatJson) "n1".toList :=
  Or.inr ⟨rfl, Or.inl ⟨_, rfl, Or.inr ⟨⟨_, rfl, by
    intro v hv
    simp at hv⟩, rfl⟩⟩⟩

theorem heat_factor : ChosenFactor (some heatJson) (7 : Int) := Or.inl ⟨_, rfl, Or.inr (Or.inl ⟨7, ⟨_, rfl, rfl⟩, rfl⟩)⟩

/-- The stored sample grid is a file as `C82_heating_partial` needs it, and the program ends when it is to make three zones. -/
example : ∃ text blocks, Sample.grid.storeText intCodec 0 = .ok text ∧ GridFile intCodec text Sample.grid.name blocks ∧
    NonDegenerate Sample.rc true blocks ∧
    ∃ g' out, splitMain Sample.rc intCodec 0 Sample.new (fun _ => [fun f : Nat => f]) "bunny".toList ".dat".toList text none
      (some "n3".toList) (some heatJson) = .ok (g', out) := by
  obtain ⟨text, blocks, h1, h2, -⟩ := C25_stored_is_file intCodec intCodec_lawful 0 Sample.grid sample_storable
  refine ⟨text, blocks, h1, h2, ?_, ?_⟩
  · have h : (match Sample.grid.storeText intCodec 0 with
      | .error _ => false
      | .ok t => match parseFile intCodec (Py.readlines t).length ⟨[], [], []⟩ (Py.readlines t) with
        | .error _ => false
        | .ok s => decide (∀ t ∈ fileFaces Sample.rc true s.blocks, t.Nodup)) = true := by decide +kernel
    obtain ⟨vs, h3⟩ := h2 []
    rw [h1] at h
    dsimp only at h
    rw [h3] at h
    exact of_decide_eq_true h
  · have h : (match Sample.grid.storeText intCodec 0 with
      | .error _ => false
      | .ok t => match splitMain Sample.rc intCodec 0 Sample.new (fun _ => [fun f : Nat => f]) "bunny".toList ".dat".toList t none
          (some "n3".toList) (some heatJson) with
        | .error _ => false
        | .ok _ => true) = true := by decide +kernel
    rw [h1] at h
    dsimp only at h
    split at h
    · cases h
    · next r hr => exact ⟨r.1, r.2, hr⟩

/-- A heating element without a zone makes the zones of all the others disappear, without any message: the first element is in
zone `b`, which the grid has and the result does not have. -/
theorem C82_incomplete_violation : ∃ (text : Str) (g g' : Grid Int (Int × Int × Int)) (out : SplitOut Int) (es : List (Json Int)),
    Heaters brokenJson es ∧ (∃ e ∈ es, e.Has "zone".toList (.str "b".toList)) ∧
    loadText Sample.rc intCodec true Sample.new text = .ok g ∧ "b".toList ∈ g.zones.map g.zName ∧
    splitMain Sample.rc intCodec 0 Sample.new (fun _ => [fun f : Nat => f]) "bunny".toList ".dat".toList text none none
      (some brokenJson) = .ok (g', out) ∧ "b".toList ∉ g'.zones.map g'.zName := by
  have h : (match Sample.grid.storeText intCodec 0 with
      | .error _ => false
      | .ok t => match loadText Sample.rc intCodec true Sample.new t, splitMain Sample.rc intCodec 0 Sample.new (fun _ => [fun f : Nat => f]) "bunny".toList ".dat".toList t none
          none (some brokenJson) with
        | .ok g, .ok r => decide ("b".toList ∈ g.zones.map g.zName ∧ "b".toList ∉ r.1.zones.map r.1.zName)
        | _, _ => false) = true := by decide +kernel
  split at h
  · cases h
  rename_i t ht
  split at h
  case h_2 => cases h
  rename_i g r hg hr
  obtain ⟨a, b⟩ := of_decide_eq_true h
  exact ⟨t, g, r.1, r.2, _, ⟨_, ⟨_, rfl, rfl⟩, ⟨_, rfl, rfl⟩⟩, ⟨_, List.mem_cons_self, ⟨_, rfl, rfl⟩⟩, hg, a, hr, b⟩

/-- The hypotheses of `C82_incomplete`. -/
example : ∃ es, Heaters brokenJson es ∧ (∀ e ∈ es, e.Lacks "zone".toList ∨ ∃ v, e.Has "zone".toList v) ∧ ∃ e ∈ es, e.Lacks "zone".toList := by
  have hl : (Json.obj [("power".toList, .int 3)] : Json Int).Lacks "zone".toList := ⟨_, rfl, by intro v hv; simp at hv⟩
  refine ⟨_, ⟨_, ⟨_, rfl, rfl⟩, ⟨_, rfl, rfl⟩⟩, ?_, ⟨_, List.mem_cons_of_mem _ List.mem_cons_self, hl⟩⟩
  intro e he
  simp only [List.mem_cons, List.not_mem_nil, or_false] at he
  rcases he with rfl | rfl
  · exact Or.inr ⟨_, _, rfl, rfl⟩
  · exact Or.inl hl

end Verif.Props
