import Verif.Model.Text
import Mathlib.Algebra.Field.Basic

/-! The conversion of ANSYS files: `convert/ansys_to_crystal.py` and the part of `convert/gsu_converter.py` it uses.

Files are given by their texts. Not modelled: messages, the names of files and the check that they exist, `PrintInfo` and
`Node.Copy`. The other parts of `gsu_converter.py` that nothing calls are in `Model/Import`. The floats are read by `Codec.parse`; `Codec.fmt` is `str`. -/

namespace Verif
variable {F R : Type}

namespace Py

/-- `s.split(sep)` for a string `sep`; `k` characters of a separator are still to be skipped, `acc` is the current piece. -/
def splitStrAux (sep : Str) : Nat → Str → Str → List Str
  | _, [], acc => [acc]
  | k + 1, _ :: cs, acc => splitStrAux sep k cs acc
  | 0, c :: cs, acc =>
    if sep.isPrefixOf (c :: cs) then acc :: splitStrAux sep (sep.length - 1) cs [] else splitStrAux sep 0 cs (acc ++ [c])

/-- `s.split(sep)` for a string `sep` that is not empty. -/
def splitStr (sep s : Str) : List Str := splitStrAux sep 0 s []

/-- `re.findall('(\d+)', s)`: the maximal runs of digits; `acc` is the current run. -/
def digitRunsAux : Str → Str → List Str
  | [], acc => if acc = [] then [] else [acc]
  | c :: cs, acc =>
    if isDecimal c then digitRunsAux cs (acc ++ [c])
    else if acc = [] then digitRunsAux cs [] else acc :: digitRunsAux cs []

/-- `re.findall('(\d+)', s)`. -/
def digitRuns (s : Str) : List Str := digitRunsAux s []

/-- `l[i] = x`. -/
def set {α : Type} (l : List α) (i : Int) (x : α) : Res (List α) :=
  let j : Int := if i < 0 then i + l.length else i
  if j < 0 ∨ (l.length : Int) ≤ j then .error .index else .ok (l.set j.toNat x)

end Py

namespace Ansys

/-- `is_str_title`, ansys_to_crystal.py 52-64. -/
def isTitle (s : Str) : Bool := Py.contains "TITLE".toList s

/-- `is_str_variables`, ansys_to_crystal.py 69-81. -/
def isVariables (s : Str) : Bool := Py.contains "VARIABLES".toList s

/-- `is_str_zone`, ansys_to_crystal.py 86-98. -/
def isZone (s : Str) : Bool := Py.contains "ZONE".toList s

/-- `is_str_meta`, ansys_to_crystal.py 103-115. -/
def isMeta (s : Str) : Bool := isTitle s || isVariables s || isZone s

/-- `is_str_zone_to_extract`, ansys_to_crystal.py 120-140; `zs` is `zones_to_extract`. -/
def isZoneToExtract (zs : List Str) (s : Str) : Bool :=
  isZone s && zs.any (fun z => Py.contains ("T=\"".toList ++ z ++ ['"']) s)

/-- `get_zone_nodes_and_elements_count`, ansys_to_crystal.py 145-159. The numbers are runs of digits, so they are not negative. -/
def counts (s : Str) : Res (Nat × Nat) := do
  let p ← Py.get (Py.splitStr "N=".toList s) 1
  let nums := Py.digitRuns p
  let a ← Py.get nums 0
  let n ← Py.int a
  let b ← Py.get nums 1
  let e ← Py.int b
  .ok (n.toNat, e.toNat)

/-- The numbers of lines still to be read and the lines written. -/
structure Reader where
  nodes : Nat
  elems : Nat
  out : List Str

/-- The exception raised when a zone is not finished. -/
def unfinished : Err := .exc "внутренная ошибка при чтении сетки"

/-- Body of the loop of `filter_zones`, ansys_to_crystal.py 252-270. -/
def filterZonesLine (zs : List Str) (s : Reader) (l : Str) : Res Reader :=
  if isMeta l then
    if s.nodes > 0 ∨ s.elems > 0 then .error unfinished
    else if isTitle l then .ok { s with out := s.out ++ [l] }
    else if isVariables l then .ok { s with out := s.out ++ [l] }
    else do
      let c ← counts l
      if isZoneToExtract zs l then .ok ⟨c.1, c.2, s.out ++ [l]⟩ else .ok s
  else if s.nodes > 0 then .ok ⟨s.nodes - 1, s.elems, s.out ++ [l]⟩
  else if s.elems > 0 then .ok ⟨s.nodes, s.elems - 1, s.out ++ [l]⟩
  else .ok s

/-- `filter_zones`, ansys_to_crystal.py 233-275: the text written. -/
def filterZones (zs : List Str) (text : Str) : Res Str := do
  let s ← (Py.readlines text).foldlM (filterZonesLine zs) ⟨0, 0, []⟩
  .ok s.out.flatten

/-- `is_variable_names_match`, ansys_to_crystal.py 164-180. -/
def nameMatch (fn sn : Str) : Bool := if sn.length = 1 then sn == fn else Py.contains sn fn

/-- `variables_names_and_mask`, ansys_to_crystal.py 185-208: every name is replaced by the last of the wanted names that matches it. -/
def namesAndMask (fnames snames : List Str) : List (Str × Bool) :=
  fnames.map (fun fn =>
    match (snames.filter (nameMatch fn)).getLast? with
    | some sn => (sn, true)
    | none => (fn, false))

/-- `filter_with_mask`, ansys_to_crystal.py 213-228. -/
def filterMask {α : Type} (a : List α) (m : List Bool) : List α := ((a.zip m).filter (·.2)).map Prod.fst

/-- The reader of `filter_variables`: `mask` is not defined before the line with variables. -/
structure VarReader where
  nodes : Nat
  elems : Nat
  mask : Option (List Bool)
  out : List Str

/-- The line with the chosen variables, ansys_to_crystal.py 309-310. -/
def varsLine (names : List Str) : Str :=
  "VARIABLES=".toList ++ Py.join ", ".toList (names.map (fun v => ['"'] ++ v ++ ['"'])) ++ ['\n']

/-- Body of the loop of `filter_variables`, ansys_to_crystal.py 300-323. A node line before the line with variables raises
`UnboundLocalError`. -/
def filterVarsLine (wanted : List Str) (s : VarReader) (l : Str) : Res VarReader :=
  if isMeta l then
    if s.nodes > 0 ∨ s.elems > 0 then .error unfinished
    else if isTitle l then .ok { s with out := s.out ++ [l] }
    else if isVariables l then do
      let p ← Py.get (Py.splitCh '=' l) 1
      let fnames := Py.splitCh ',' (Py.delCh '"' p)
      let nm := namesAndMask fnames wanted
      let mask := nm.map Prod.snd
      .ok { s with mask := some mask, out := s.out ++ [varsLine (filterMask (nm.map Prod.fst) mask)] }
    else do
      let c ← counts l
      .ok ⟨c.1, c.2, s.mask, s.out ++ [l]⟩
  else if s.nodes > 0 then
    match s.mask with
    | none => .error .name
    | some m => .ok ⟨s.nodes - 1, s.elems, s.mask, s.out ++ [Py.join [' '] (filterMask (Py.splitWs l) m) ++ ['\n']]⟩
  else if s.elems > 0 then .ok ⟨s.nodes, s.elems - 1, s.mask, s.out ++ [l]⟩
  else .ok s

/-- `filter_variables`, ansys_to_crystal.py 280-328: the text written. -/
def filterVars (wanted : List Str) (text : Str) : Res Str := do
  let s ← (Py.readlines text).foldlM (filterVarsLine wanted) ⟨0, 0, none, []⟩
  .ok s.out.flatten

/-- The variables that are taken from the three files, ansys_to_crystal.py 27, 30, 33. -/
def fensapVars : List Str :=
  ["X".toList, "Y".toList, "Z".toList, "Static temperature".toList, "SF1".toList, "SF2".toList, "SF3".toList,
    "Classical heat flux".toList]
def drop3dVars : List Str := ["X".toList, "Y".toList, "Z".toList, "Collection efficiency-Droplet".toList]
def adiabaticVars : List Str := ["X".toList, "Y".toList, "Z".toList, "Static temperature".toList]

/-- The fields of a merged node line, ansys_to_crystal.py 372-373. -/
def mergedFields (ff df af : List Str) : Res (List Str) := do
  let f0 ← Py.get ff 0
  let f1 ← Py.get ff 1
  let f2 ← Py.get ff 2
  let f7 ← Py.get ff 7
  let d3 ← Py.get df 3
  let f4 ← Py.get ff 4
  let f5 ← Py.get ff 5
  let f6 ← Py.get ff 6
  let f3 ← Py.get ff 3
  let a3 ← Py.get af 3
  .ok [f0, f1, f2, f7, d3, f4, f5, f6, f3, a3]

/-- Body of the loop of `merge_fensap_drop3d_adiabatic`, ansys_to_crystal.py 356-378. -/
def mergeLine (s : Reader) (fl dl al : Str) : Res Reader :=
  if isMeta fl then
    if s.nodes > 0 ∨ s.elems > 0 then .error unfinished
    else if isTitle fl then .ok { s with out := s.out ++ [fl] }
    else if isVariables fl then .ok { s with out := s.out ++
      ["VARIABLES = \"X\", \"Y\", \"Z\", \"Flux\", \"Beta\", \"TauX\", \"TauY\", \"TauZ\", \"Ts\", \"StatT\"\n".toList] }
    else do
      let c ← counts fl
      .ok ⟨c.1, c.2, s.out ++ [fl]⟩
  else if s.nodes > 0 then do
    let fs ← mergedFields (Py.splitWs fl) (Py.splitWs dl) (Py.splitWs al)
    .ok ⟨s.nodes - 1, s.elems, s.out ++ [Py.join [' '] fs ++ ['\n']]⟩
  else if s.elems > 0 then .ok ⟨s.nodes, s.elems - 1, s.out ++ [fl]⟩
  else .ok s

/-- The loop of `merge_fensap_drop3d_adiabatic`; at the end of a file `readline` returns the empty string. -/
def mergeLoop : Reader → List Str → List Str → List Str → Res Reader
  | s, [], _, _ => .ok s
  | s, fl :: fls, dls, als => do
    let s ← mergeLine s fl (dls.headD []) (als.headD [])
    mergeLoop s fls dls.tail als.tail

/-- `merge_fensap_drop3d_adiabatic`, ansys_to_crystal.py 333-385: the text written. -/
def mergeFiles (ftext dtext atext : Str) : Res Str := do
  let s ← mergeLoop ⟨0, 0, []⟩ (Py.readlines ftext) (Py.readlines dtext) (Py.readlines atext)
  .ok s.out.flatten

variable [Field F] [DecidableEq F]

/-- The changed fields of a node line, ansys_to_crystal.py 427-443. -/
def htcFields (c : Codec F) (airT airV cp : F) (fields : List Str) : Res (List Str) := do
  let q ← Py.get fields 3
  let q ← c.parse q
  let flux := -q
  let ts ← Py.get fields 8
  let ts ← c.parse ts
  let st ← Py.get fields 9
  let st ← c.parse st
  if airV * airV = 0 then .error .zeroDiv
  else
    let k := 2 * cp / (airV * airV)
    let rf := (st - airT) * k
    if k = 0 then .error .zeroDiv
    else
      let d := ts - (airT + rf / k)
      if d = 0 then .error .zeroDiv
      else do
        let fields ← Py.set fields 3 (c.fmt (flux / d))
        let fields := Py.slice fields none (some (-1))
        Py.set fields (-1) (c.fmt rf)

/-- Body of the loop of `calculate_htc_recovery_factor`, ansys_to_crystal.py 412-449. -/
def htcLine (c : Codec F) (airT airV cp : F) (s : Reader) (l : Str) : Res Reader :=
  if isMeta l then
    if s.nodes > 0 ∨ s.elems > 0 then .error unfinished
    else if isTitle l then .ok { s with out := s.out ++ [l] }
    else if isVariables l then .ok { s with out := s.out ++
      ["VARIABLES = \"X\", \"Y\", \"Z\", \"HTC\", \"Beta\", \"TauX\", \"TauY\", \"TauZ\", \"RecoveryFactor\"\n".toList] }
    else do
      let n ← counts l
      .ok ⟨n.1, n.2, s.out ++ [l]⟩
  else if s.nodes > 0 then do
    let fs ← htcFields c airT airV cp (Py.splitWs l)
    .ok ⟨s.nodes - 1, s.elems, s.out ++ [Py.join [' '] fs ++ ['\n']]⟩
  else if s.elems > 0 then .ok ⟨s.nodes, s.elems - 1, s.out ++ [l]⟩
  else .ok s

/-- `calculate_htc_recovery_factor`, ansys_to_crystal.py 390-454: the text written. -/
def calcHtc (c : Codec F) (airT airV cp : F) (text : Str) : Res Str := do
  let s ← (Py.readlines text).foldlM (htcLine c airT airV cp) ⟨0, 0, []⟩
  .ok s.out.flatten

/-! ### `gsu_converter.Grid` -/

/-- `gsu_converter.Node`, gsu_converter.py 31-59. The attribute `Id` is the position in the list of nodes of the zone (232). -/
structure CNode (F : Type) where
  p : Vec F
  htc : F
  beta : F
  tau : Vec F
  rf : F

/-- `gsu_converter.Face`, gsu_converter.py 84-110; nodes are given by their positions in the list of nodes of the zone. Nodes are
compared by identity, that is by position. -/
structure CFace (F : Type) where
  n1 : Nat
  n2 : Nat
  n3 : Nat
  htc : F
  beta : F
  tau : Vec F
  rf : F

/-- `gsu_converter.Zone`, gsu_converter.py 114-128. -/
structure CZone (F : Type) where
  title : Str
  nodes : List (CNode F)
  faces : List (CFace F)

/-- `Face(n1, n2, n3)` with the default data, gsu_converter.py 88-90. -/
def face (n1 n2 n3 : Nat) : CFace F := ⟨n1, n2, n3, 0, 0, ⟨0, 0, 0⟩, 0⟩

/-- The faces made from a quadrangle, gsu_converter.py 253-275. -/
def quadFaces (rev : Bool) (m1 m2 m3 m4 : Nat) : List (CFace F) :=
  let (n1, n2, n3, n4) := if rev then (m4, m3, m2, m1) else (m1, m2, m3, m4)
  if n1 = n2 then [face n1 n3 n4]
  else if n1 = n3 then [face n1 n2 n4]
  else if n1 = n4 then [face n1 n2 n3]
  else if n2 = n3 then [face n1 n2 n4]
  else if n2 = n4 then [face n1 n2 n3]
  else if n3 = n4 then [face n1 n2 n3]
  else [face n1 n2 n3, face n1 n3 n4]

/-- The position that `zone.Nodes[i]` refers to. -/
def position {α : Type} (l : List α) (i : Int) : Res Nat := do
  let _ ← Py.get l i
  .ok (if i < 0 then i + l.length else i).toNat

/-- `parse_coordinate`, gsu_converter.py 187-193. `float` raises nothing but `ValueError` on a string. -/
def parseCoordinate (c : Codec F) (s : Str) : F :=
  match c.parse s with
  | .ok x => x
  | .error _ => 0

/-- The numbers of lines still to be read and `self.Zones`. -/
structure Loader (F : Type) where
  nodes : Nat
  elems : Nat
  zones : List (CZone F)

/-- Change of `self.Zones[-1]`. -/
def onLast (zs : List (CZone F)) (f : CZone F → Res (CZone F)) : Res (List (CZone F)) :=
  match zs.reverse with
  | [] => .error .index
  | z :: t => do
    let z ← f z
    .ok (t.reverse ++ [z])

/-- A line of a node, gsu_converter.py 223-236. Unpacking a list of another length raises `ValueError`. -/
def addNode (c : Codec F) (l : Str) (z : CZone F) : Res (CZone F) :=
  match Py.splitWs l with
  | [x, y, w, htc, beta, taux, tauy, tauz, rf] => do
    let p := ⟨parseCoordinate c x, parseCoordinate c y, parseCoordinate c w⟩
    let htc ← c.parse htc
    let beta ← c.parse beta
    let tx ← c.parse taux
    let ty ← c.parse tauy
    let tz ← c.parse tauz
    let rf ← c.parse rf
    .ok { z with nodes := z.nodes ++ [⟨p, htc, beta, ⟨tx, ty, tz⟩, rf⟩] }
  | _ => .error .value

/-- A line of an element, gsu_converter.py 239-275. -/
def addElement (rev : Bool) (l : Str) (z : CZone F) : Res (CZone F) :=
  match Py.splitWs l with
  | [s1, s2, s3, s4] => do
    let i1 ← Py.int s1
    let n1 ← position z.nodes (i1 - 1)
    let i2 ← Py.int s2
    let n2 ← position z.nodes (i2 - 1)
    let i3 ← Py.int s3
    let n3 ← position z.nodes (i3 - 1)
    let i4 ← Py.int s4
    let n4 ← position z.nodes (i4 - 1)
    .ok { z with faces := z.faces ++ quadFaces rev n1 n2 n3 n4 }
  | _ => .error .value

/-- `l.split('T=')[1].split('"')[1]`, gsu_converter.py 220. -/
def zoneTitle (l : Str) : Res Str := do
  let p ← Py.get (Py.splitStr "T=".toList l) 1
  Py.get (Py.splitCh '"' p) 1

/-- Body of the loop of `LoadNodesData`, gsu_converter.py 213-277. -/
def loadLine (c : Codec F) (rev : Bool) (s : Loader F) (l : Str) : Res (Loader F) :=
  if Py.contains "TITLE".toList l then .ok s
  else if Py.contains "VARIABLES".toList l then .ok s
  else if Py.contains "ZONE".toList l then do
    let n ← counts l
    let t ← zoneTitle l
    .ok ⟨n.1, n.2, s.zones ++ [⟨t, [], []⟩]⟩
  else if s.nodes > 0 then do
    let zs ← onLast s.zones (addNode c l)
    .ok ⟨s.nodes - 1, s.elems, zs⟩
  else if s.elems > 0 then do
    let zs ← onLast s.zones (addElement rev l)
    .ok ⟨s.nodes, s.elems - 1, zs⟩
  else .ok s

/-- `LoadNodesData`, gsu_converter.py 197-281, into an empty grid. -/
def loadNodes (c : Codec F) (rev : Bool) (text : Str) : Res (List (CZone F)) := do
  let s ← (Py.readlines text).foldlM (loadLine c rev) ⟨0, 0, []⟩
  .ok s.zones

/-- The node at a position of the zone. The positions kept in faces are those of nodes, so the default is not used. -/
def CZone.node (z : CZone F) (n : Nat) : CNode F := z.nodes.getD n ⟨⟨0, 0, 0⟩, 0, 0, ⟨0, 0, 0⟩, 0⟩

/-- `(a + b + c) / 3.0`. -/
def mean3 (a b c : F) : F := (a + b + c) / 3

/-- `ConvertDataFromNodesToFaces`, gsu_converter.py 295-308, for one zone. -/
def CZone.convert (z : CZone F) : CZone F :=
  { z with faces := z.faces.map (fun f =>
    let a := z.node f.n1
    let b := z.node f.n2
    let c := z.node f.n3
    { f with
      htc := mean3 a.htc b.htc c.htc
      beta := mean3 a.beta b.beta c.beta
      tau := ⟨mean3 a.tau.x b.tau.x c.tau.x, mean3 a.tau.y b.tau.y c.tau.y, mean3 a.tau.z b.tau.z c.tau.z⟩
      rf := mean3 a.rf b.rf c.rf }) }

/-- A line of numbers, each followed by a blank, gsu_converter.py 417-443; `fmt` is `'%f'`. -/
def exportFloats (fmt : F → Str) (l : List F) : Str := (l.map (fun x => fmt x ++ [' '])).flatten ++ ['\n']

/-- The part of `Export` for one zone, gsu_converter.py 411-447. -/
def exportZone (fmt : F → Str) (z : CZone F) : List Str :=
  ["ZONE T=\"".toList ++ z.title ++ "\"\n".toList,
   "NODES=".toList ++ Py.natStr z.nodes.length ++ ['\n'],
   "ELEMENTS=".toList ++ Py.natStr z.faces.length ++ ['\n'],
   "DATAPACKING=BLOCK\n".toList,
   "ZONETYPE=FETRIANGLE\n".toList,
   "VARLOCATION=([4-9]=CELLCENTERED)\n".toList,
   exportFloats fmt (z.nodes.map (·.p.x)), exportFloats fmt (z.nodes.map (·.p.y)), exportFloats fmt (z.nodes.map (·.p.z)),
   exportFloats fmt (z.faces.map (·.htc)), exportFloats fmt (z.faces.map (·.beta)),
   exportFloats fmt (z.faces.map (·.tau.x)), exportFloats fmt (z.faces.map (·.tau.y)), exportFloats fmt (z.faces.map (·.tau.z)),
   exportFloats fmt (z.faces.map (·.rf))] ++
  z.faces.map (fun f => Py.natStr (f.n1 + 1) ++ [' '] ++ Py.natStr (f.n2 + 1) ++ [' '] ++ Py.natStr (f.n3 + 1) ++ ['\n'])

/-- `Export`, gsu_converter.py 399-449: the text written. -/
def exportText (fmt : F → Str) (zs : List (CZone F)) : Str :=
  ("VARIABLES=\"X\", \"Y\", \"Z\", \"HTC\", \"Beta\", \"TauX\", \"TauY\", \"TauZ\", \"RecoveryFactor\"\n".toList ::
    zs.flatMap (exportZone fmt)).flatten

/-- `data_from_nodes_to_faces`, ansys_to_crystal.py 459-477: the text written. `out` formats floats with `{0:.18e}`, `fmt` with `%f`. -/
def nodesToFaces [DecidableEq R] [Inhabited F] [Inhabited R] (rc : Vec F → R) (c out : Codec F) (fmt : F → Str) (rev : Bool) (text : Str) : Res Str := do
  let zs ← loadNodes c rev text
  let g ← Grid.loadText rc c true (Grid.empty : Grid F R) (exportText fmt (zs.map CZone.convert))
  g.storeText out 0

/-- The script, ansys_to_crystal.py 545-573: the text of the result from the texts of the three files. -/
def toCrystal [DecidableEq R] [Inhabited F] [Inhabited R] (rc : Vec F → R) (c out : Codec F) (fmt : F → Str) (zones : List Str) (airT airV cp : F)
    (rev : Bool) (ftext dtext atext : Str) : Res Str := do
  let f1 ← filterZones zones ftext
  let d1 ← filterZones zones dtext
  let a1 ← filterZones zones atext
  let f2 ← filterVars fensapVars f1
  let d2 ← filterVars drop3dVars d1
  let a2 ← filterVars adiabaticVars a1
  let m ← mergeFiles f2 d2 a2
  let h ← calcHtc c airT airV cp m
  nodesToFaces rc c out fmt rev h

end Ansys
end Verif
