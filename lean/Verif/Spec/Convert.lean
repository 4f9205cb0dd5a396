import Verif.Spec.Text
import Verif.Model.Ansys
import Verif.Model.Grid
import Verif.Proofs.Strings
import Mathlib.Order.Basic
import Mathlib.Algebra.Field.Basic

/-! How the files that the converters read are laid out. -/

namespace Verif
variable {F : Type}

/-- A zone of an ANSYS file: its head line, the lines of its nodes and the lines of its elements. -/
structure TecZone where
  head : Str
  nodes : List Str
  elems : List Str

/-- An ANSYS file: a line with the title, a line with the names of variables and the zones. -/
structure TecFile where
  title : Str
  vars : Str
  zones : List TecZone

def TecZone.lines (z : TecZone) : List Str := z.head :: (z.nodes ++ z.elems)

def TecFile.lines (f : TecFile) : List Str := f.title :: f.vars :: f.zones.flatMap TecZone.lines

/-- The text of the file. -/
def TecFile.text (f : TecFile) : Str := f.lines.flatten

/-- A line that is neither a title nor a line of variables nor the head of a zone. -/
def PlainLine (l : Str) : Prop :=
  Py.IsLine l ∧ ¬ "TITLE".toList <:+: l ∧ ¬ "VARIABLES".toList <:+: l ∧ ¬ "ZONE".toList <:+: l

/-- The head of a zone tells that it has `n` nodes and `e` elements: the first two numbers after the first `N=` are `n` and `e`. -/
def HasCounts (head : Str) (n e : Nat) : Prop :=
  ∃ pre mid post, head = pre ++ "N=".toList ++ (Py.natStr n ++ mid ++ Py.natStr e ++ post) ∧ ¬ "N=".toList <:+: pre ∧
    mid ≠ [] ∧ (∀ c ∈ mid, Py.isDecimal c = false ∧ c ≠ 'N') ∧ ∀ c ∈ post.head?, Py.isDecimal c = false ∧ c ≠ '='

structure TecZone.Ok (z : TecZone) : Prop where
  line : Py.IsLine z.head
  zone : "ZONE".toList <:+: z.head
  title : ¬ "TITLE".toList <:+: z.head
  vars : ¬ "VARIABLES".toList <:+: z.head
  counts : HasCounts z.head z.nodes.length z.elems.length
  nodes : ∀ l ∈ z.nodes, PlainLine l
  elems : ∀ l ∈ z.elems, PlainLine l

structure TecFile.Ok (f : TecFile) : Prop where
  title : Py.IsLine f.title ∧ "TITLE".toList <:+: f.title
  vars : Py.IsLine f.vars ∧ "VARIABLES".toList <:+: f.vars ∧ ¬ "TITLE".toList <:+: f.vars
  zones : ∀ z ∈ f.zones, z.Ok

/-- The zone is one of the wanted: `T="name"` is in its head. -/
def TecZone.Named (names : List Str) (z : TecZone) : Prop := ∃ n ∈ names, "T=\"".toList ++ n ++ "\"".toList <:+: z.head

/-- The names in a line of variables: what is between the commas after `=`, without quotes. (So the end of the line belongs to the
last of the names.) -/
def HasNames (line : Str) (names : List Str) : Prop :=
  ∃ pre quoted, line = pre ++ '=' :: Py.join [','] quoted ∧ '=' ∉ pre ∧ quoted ≠ [] ∧ (∀ q ∈ quoted, '=' ∉ q ∧ ',' ∉ q) ∧
    names = quoted.map (fun q => q.filter (· ≠ '"'))

/-- A variable of a file fits a wanted name: a name of one letter is the whole name, a longer one is a part of it. -/
def Fits (name wanted : Str) : Prop := (wanted.length = 1 → name = wanted) ∧ (wanted.length ≠ 1 → wanted <:+: name)

/-- The wanted name that a variable of a file is taken for: the last one that fits. -/
def TakenFor (wanted : List Str) (name w : Str) : Prop := ∃ a b, wanted = a ++ w :: b ∧ Fits name w ∧ ∀ v ∈ b, ¬ Fits name v

/-- `cols` are the wanted columns of a file, in the order of the file, with the names they are taken for. -/
structure WantedColumns (wanted names : List Str) (cols : List (Nat × Str)) : Prop where
  sorted : (cols.map Prod.fst).Pairwise (· < ·)
  mem : ∀ i w, (i, w) ∈ cols ↔ ∃ name, names[i]? = some name ∧ TakenFor wanted name w

/-- The numbers of some columns of a line. -/
def pick (is : List Nat) (l : Str) : List Str := is.filterMap (fun i => (Py.splitWs l)[i]?)

/-- A line of words. -/
def wordsLine (ws : List Str) : Str := Py.join [' '] ws ++ ['\n']

/-- The same zone with other lines of nodes. -/
def TecZone.mapNodes (g : Str → Str) (z : TecZone) : TecZone := { z with nodes := z.nodes.map g }

/-- A node of the merged file: the point and the flux from the first file, the collection efficiency from the second, the friction
and the surface temperature from the first, the temperature from the third. The columns are those of filtered files. -/
def mergedNode (fl dl al : Str) : Str := wordsLine (pick [0, 1, 2, 7] fl ++ pick [3] dl ++ pick [4, 5, 6, 3] fl ++ pick [3] al)

/-- Three zones merged. -/
def mergedZone (zs : TecZone × TecZone × TecZone) : TecZone :=
  { head := zs.1.head
    nodes := (zs.1.nodes.zip (zs.2.1.nodes.zip zs.2.2.nodes)).map (fun p => mergedNode p.1 p.2.1 p.2.2)
    elems := zs.1.elems }

/-- Three zones with the same numbers of nodes and elements and enough columns. -/
structure Mergeable (zs : TecZone × TecZone × TecZone) : Prop where
  nodes1 : zs.2.1.nodes.length = zs.1.nodes.length
  nodes2 : zs.2.2.nodes.length = zs.1.nodes.length
  elems1 : zs.2.1.elems.length = zs.1.elems.length
  elems2 : zs.2.2.elems.length = zs.1.elems.length
  cols : ∀ l ∈ zs.1.nodes, 8 ≤ (Py.splitWs l).length
  cols1 : ∀ l ∈ zs.2.1.nodes, 4 ≤ (Py.splitWs l).length
  cols2 : ∀ l ∈ zs.2.2.nodes, 4 ≤ (Py.splitWs l).length

/-- A node line `l` with the heat flux, the surface temperature and the adiabatic temperature becomes a node line `l'` with the heat
transfer coefficient and the recovery factor. -/
def HtcNode [Field F] (c : Codec F) (airT airV cp : F) (l l' : Str) : Prop :=
  ∃ x y z q b tx ty tz ts st : Str, ∃ Q Ts Ta : F, Py.splitWs l = [x, y, z, q, b, tx, ty, tz, ts, st] ∧
    c.parse q = .ok Q ∧ c.parse ts = .ok Ts ∧ c.parse st = .ok Ta ∧ Ts ≠ Ta ∧
    l' = wordsLine [x, y, z, c.fmt (-Q / (Ts - Ta)), b, tx, ty, tz, c.fmt ((Ta - airT) * (2 * cp / (airV * airV)))]

/-- Zones with the same heads and elements and with related nodes. -/
structure ZoneRel (r : Str → Str → Prop) (z z' : TecZone) : Prop where
  head : z'.head = z.head
  nodes : List.Forall₂ r z.nodes z'.nodes
  elems : z'.elems = z.elems

/-! ### Nodes and elements -/

/-- A coordinate: what is not a number is read as zero. -/
def ReadsCoord [OfNat F 0] (c : Codec F) (s : Str) (v : F) : Prop := c.parse s = .ok v ∨ ∃ e, c.parse s = .error e ∧ v = 0

/-- A line of a node. -/
def NodeLine [OfNat F 0] (c : Codec F) (l : Str) (n : Ansys.CNode F) : Prop :=
  ∃ x y z h b tx ty tz r, Py.splitWs l = [x, y, z, h, b, tx, ty, tz, r] ∧ ReadsCoord c x n.p.x ∧ ReadsCoord c y n.p.y ∧
    ReadsCoord c z n.p.z ∧ c.parse h = .ok n.htc ∧ c.parse b = .ok n.beta ∧ c.parse tx = .ok n.tau.x ∧ c.parse ty = .ok n.tau.y ∧
    c.parse tz = .ok n.tau.z ∧ c.parse r = .ok n.rf

/-- A quadrangle: positions of four nodes. -/
structure Quad where
  a : Nat
  b : Nat
  c : Nat
  d : Nat

def Quad.list (q : Quad) : List Nat := [q.a, q.b, q.c, q.d]

/-- A line of an element of a zone with `k` nodes; nodes are numbered from 1 in the line. -/
def ElemLine (k : Nat) (l : Str) (q : Quad) : Prop :=
  ∃ s1 s2 s3 s4, Py.splitWs l = [s1, s2, s3, s4] ∧ Py.int s1 = .ok (q.a + 1 : Int) ∧ Py.int s2 = .ok (q.b + 1 : Int) ∧
    Py.int s3 = .ok (q.c + 1 : Int) ∧ Py.int s4 = .ok (q.d + 1 : Int) ∧ ∀ n ∈ q.list, n < k

/-- The corners in the order they are used: reversed on demand, every corner once. -/
def Quad.corners (rev : Bool) (q : Quad) : List Nat := (if rev then q.list.reverse else q.list).eraseDups

/-- The triangles of a quadrangle with four or three different corners. -/
def Quad.triangles (rev : Bool) (q : Quad) : List (List Nat) :=
  match q.corners rev with
  | [a, b, c, d] => [[a, b, c], [a, c, d]]
  | l => [l]

/-- `u × v`. -/
def vecProd [Field F] (u v : Vec F) : Vec F := ⟨u.y * v.z - u.z * v.y, u.z * v.x - u.x * v.z, u.x * v.y - u.y * v.x⟩

def sumVec [Field F] (l : List (Vec F)) : Vec F := ⟨(l.map Vec.x).sum, (l.map Vec.y).sum, (l.map Vec.z).sum⟩

def vecScale [Field F] (k : F) (u : Vec F) : Vec F := ⟨k * u.x, k * u.y, k * u.z⟩

/-- The vector area of a polygon: half the sum of the products of successive corners. -/
def polyArea [Field F] (ps : List (Vec F)) : Vec F := vecScale (1 / 2) (sumVec ((ps.zip (ps.rotate 1)).map (fun p => vecProd p.1 p.2)))

/-- The points of some nodes of a zone. -/
def nodePoints (z : Ansys.CZone F) (l : List Nat) : List (Vec F) := l.filterMap (fun n => (z.nodes[n]?).map (·.p))

def faceCorners (f : Ansys.CFace F) : List Nat := [f.n1, f.n2, f.n3]

/-- The name of a zone: what is in the first quotes after the first `T=`. -/
def HasTitle (head t : Str) : Prop :=
  ∃ pre mid post, head = pre ++ "T=".toList ++ (mid ++ '"' :: t ++ '"' :: post) ∧ ¬ "T=".toList <:+: pre ∧ '"' ∉ mid ∧ '"' ∉ t ∧
    ¬ "T=".toList <:+: mid ++ '"' :: t

/-- What is read from a zone. -/
structure ZoneReads [OfNat F 0] (c : Codec F) (rev : Bool) (z : TecZone) (cz : Ansys.CZone F) : Prop where
  title : HasTitle z.head cz.title
  nodes : List.Forall₂ (NodeLine c) z.nodes cz.nodes
  elems : ∃ qs, List.Forall₂ (ElemLine cz.nodes.length) z.elems qs ∧ (∀ q ∈ qs, 3 ≤ (q.corners rev).length) ∧
    cz.faces.map faceCorners = qs.flatMap (Quad.triangles rev)
  data : ∀ f ∈ cz.faces, f.htc = 0 ∧ f.beta = 0 ∧ f.tau = ⟨0, 0, 0⟩ ∧ f.rf = 0

/-! ### From three files with the data of nodes to zones -/

/-- The text of a number is not taken for a title, a line of variables or a zone. -/
def PlainWord (s : Str) : Prop := ¬ "TITLE".toList <:+: s ∧ ¬ "VARIABLES".toList <:+: s ∧ ¬ "ZONE".toList <:+: s

/-- The word in the column of a line that is taken for the wanted name. -/
def column (cols : List (Nat × Str)) (w : Str) (l : Str) : Option Str :=
  (cols.find? (fun p => p.2 = w)).bind (fun p => (Py.splitWs l)[p.1]?)

/-- A node made from three lines: the line of the flow file, the line of the droplet file and the line of the file for the adiabatic
wall. The heat transfer coefficient is the heat flux (taken from the surface to the flow) over the difference of the temperature of
the surface and the temperature of the adiabatic wall. -/
def SurfaceNode [Field F] (c : Codec F) (fc dc ac : List (Nat × Str)) (airT airV cp : F) (fl dl al : Str) (n : Ansys.CNode F) : Prop :=
  ∃ x y z ts s1 s2 s3 q b ta : Str, ∃ Q Ts Ta : F,
    column fc "X".toList fl = some x ∧ column fc "Y".toList fl = some y ∧ column fc "Z".toList fl = some z ∧
    column fc "Static temperature".toList fl = some ts ∧ column fc "SF1".toList fl = some s1 ∧ column fc "SF2".toList fl = some s2 ∧
    column fc "SF3".toList fl = some s3 ∧ column fc "Classical heat flux".toList fl = some q ∧
    column dc "Collection efficiency-Droplet".toList dl = some b ∧ column ac "Static temperature".toList al = some ta ∧
    ReadsCoord c x n.p.x ∧ ReadsCoord c y n.p.y ∧ ReadsCoord c z n.p.z ∧ c.parse ts = .ok Ts ∧ c.parse s1 = .ok n.tau.x ∧
    c.parse s2 = .ok n.tau.y ∧ c.parse s3 = .ok n.tau.z ∧ c.parse q = .ok Q ∧ c.parse b = .ok n.beta ∧ c.parse ta = .ok Ta ∧
    Ts ≠ Ta ∧ n.htc = -Q / (Ts - Ta) ∧ n.rf = (Ta - airT) * (2 * cp / (airV * airV))

/-- A zone made from the zones of three files. -/
structure SurfaceZone [Field F] (c : Codec F) (rev : Bool) (fc dc ac : List (Nat × Str)) (airT airV cp : F)
    (zs : TecZone × TecZone × TecZone) (cz : Ansys.CZone F) : Prop where
  title : HasTitle zs.1.head cz.title
  plain : PlainName cz.title
  counts : zs.2.1.nodes.length = zs.1.nodes.length ∧ zs.2.2.nodes.length = zs.1.nodes.length ∧
    zs.2.1.elems.length = zs.1.elems.length ∧ zs.2.2.elems.length = zs.1.elems.length
  fcols : ∀ l ∈ zs.1.nodes, ∀ p ∈ fc, p.1 < (Py.splitWs l).length
  dcols : ∀ l ∈ zs.2.1.nodes, ∀ p ∈ dc, p.1 < (Py.splitWs l).length
  acols : ∀ l ∈ zs.2.2.nodes, ∀ p ∈ ac, p.1 < (Py.splitWs l).length
  nodes : List.Forall₂ (fun p n => SurfaceNode c fc dc ac airT airV cp p.1 p.2.1 p.2.2 n)
    (zs.1.nodes.zip (zs.2.1.nodes.zip zs.2.2.nodes)) cz.nodes
  elems : ∃ qs, List.Forall₂ (ElemLine cz.nodes.length) zs.1.elems qs ∧ (∀ q ∈ qs, 3 ≤ (q.corners rev).length) ∧
    cz.faces.map faceCorners = qs.flatMap (Quad.triangles rev)
  data : ∀ f ∈ cz.faces, f.htc = 0 ∧ f.beta = 0 ∧ f.tau = ⟨0, 0, 0⟩ ∧ f.rf = 0

/-! ### What the grid reader gets from the files written by the converters -/

/-- The words of a line of numbers and the numbers. -/
def ReadsAs (c : Codec F) (ws : List Str) (vs : List F) : Prop := List.Forall₂ (fun w v => c.parse w = .ok v) ws vs

/-- The grid reader finds in the text the title and the blocks. -/
def ReadsBlocks (c : Codec F) (text name : Str) (blocks : List (ZoneBlock F)) : Prop :=
  ∀ nm, ∃ vars, Grid.parseFile c (Py.readlines text).length ⟨nm, [], []⟩ (Py.readlines text) = .ok ⟨name, vars, blocks⟩

/-- The names of the data written by the ANSYS converter. -/
def ansysVars : List Str :=
  ["HTC".toList, "Beta".toList, "TauX".toList, "TauY".toList, "TauZ".toList, "RecoveryFactor".toList]

/-- What is in the file for a zone of the ANSYS converter when every number `x` is read back as `rd x`. -/
def ansysBlock (rd : F → F) (z : Ansys.CZone F) : ZoneBlock F :=
  { name := z.title
    pts := z.nodes.map (fun n => ⟨rd n.p.x, rd n.p.y, rd n.p.z⟩)
    faces := z.faces.map (fun f =>
      (ansysVars.zip [rd f.htc, rd f.beta, rd f.tau.x, rd f.tau.y, rd f.tau.z, rd f.rf],
       [(f.n1 + 1 : Int), (f.n2 + 1 : Int), (f.n3 + 1 : Int)])) }

/-- The mean values of the data of three nodes, read back from a file. -/
def meanData [Field F] (rd : F → F) (a b c : Ansys.CNode F) : List (Str × F) :=
  ansysVars.zip [rd ((a.htc + b.htc + c.htc) / 3), rd ((a.beta + b.beta + c.beta) / 3), rd ((a.tau.x + b.tau.x + c.tau.x) / 3),
    rd ((a.tau.y + b.tau.y + c.tau.y) / 3), rd ((a.tau.z + b.tau.z + c.tau.z) / 3), rd ((a.rf + b.rf + c.rf) / 3)]

/-- A zone with the data of nodes and the block of a grid file with the data of faces. -/
structure FaceBlock [Field F] (rd : F → F) (z : Ansys.CZone F) (blk : ZoneBlock F) : Prop where
  name : blk.name = z.title
  pts : blk.pts = z.nodes.map (fun n => ⟨rd n.p.x, rd n.p.y, rd n.p.z⟩)
  faces : List.Forall₂ (fun f face => ∃ a b c, z.nodes[f.n1]? = some a ∧ z.nodes[f.n2]? = some b ∧ z.nodes[f.n3]? = some c ∧
    face = (meanData rd a b c, [(f.n1 + 1 : Int), (f.n2 + 1 : Int), (f.n3 + 1 : Int)])) z.faces blk.faces

/-- The names of the data written by the LAZURIT converter. -/
def lazuritVars : List Str :=
  ["T".toList, "Hw".toList, "Hi".toList, "HTC".toList, "Beta".toList, "TauX".toList, "TauY".toList, "TauZ".toList]

/-- A LAZURIT block: `I` by `J` points, the first index fastest, and eight variables of its cells, the first index fastest too. -/
structure LazBlock (F : Type) where
  I : Nat
  J : Nat
  pts : List (Vec F)
  /-- the values of one variable in all cells -/
  rows : List (List F)

structure LazBlock.Ok (b : LazBlock F) : Prop where
  i : 1 ≤ b.I
  j : 1 ≤ b.J
  pts : b.pts.length = b.I * b.J
  rows : b.rows.length = 8
  row : ∀ r ∈ b.rows, r.length = (b.I - 1) * (b.J - 1)

/-- The grid file and the solution file of a block: the sizes are in the fourth line of the grid file, the numbers begin in the seventh
lines of both files. -/
structure LazFiles (c : Codec F) (b : LazBlock F) (grid solution : List Str) : Prop where
  sizes : ∃ l w0 w2 w4 rest, grid[3]? = some l ∧ Py.splitWs l = w0 :: Py.natStr b.I :: w2 :: Py.natStr b.J :: w4 :: "1".toList :: rest
  grid : ∃ ws more, (grid.drop 6).flatMap Py.splitWs = ws ++ more ∧ ReadsAs c ws (b.pts.map Vec.x ++ b.pts.map Vec.y ++ b.pts.map Vec.z)
  solution : ∃ ws more, (solution.drop 6).flatMap Py.splitWs = ws ++ more ∧ ReadsAs c ws b.rows.flatten

/-- The number of a point in the file. -/
def LazBlock.node (b : LazBlock F) (i j : Nat) : Int := i + j * b.I + 1

/-- The two triangles of a cell: they share the diagonal from `(i, j)` to `(i + 1, j + 1)`. -/
def LazBlock.cell (b : LazBlock F) (i j : Nat) : List (List Int) :=
  [[b.node i j, b.node i (j + 1), b.node (i + 1) (j + 1)], [b.node i j, b.node (i + 1) (j + 1), b.node (i + 1) j]]

/-- The data of a face made from the `k`-th numbers of a block: the stresses change their signs. -/
def LazBlock.values [Neg F] (b : LazBlock F) (k : Nat) (data : List (Str × F)) : Prop :=
  ∃ t hw hi htc beta tx ty tz, b.rows.map (fun r => r[k]?) = [some t, some hw, some hi, some htc, some beta, some tx, some ty, some tz] ∧
    data = lazuritVars.zip [t, hw, hi, htc, beta, -tx, -ty, -tz]

/-- What is written for a block: the points in the same order and two faces for every cell, cell after cell, the second index fastest;
the faces of the cell number `m` in this order get the numbers with the number `m` of the block. -/
structure LazWritten [Neg F] (name : Str) (b : LazBlock F) (blk : ZoneBlock F) : Prop where
  name : blk.name = name
  pts : blk.pts = b.pts
  count : blk.faces.length = 2 * ((b.I - 1) * (b.J - 1))
  faces : ∀ i j k conn, i < b.I - 1 → j < b.J - 1 → (b.cell i j)[k]? = some conn →
    ∃ data, blk.faces[2 * (i * (b.J - 1) + j) + k]? = some (data, conn) ∧ b.values (i * (b.J - 1) + j) data

/-- The triangles of a block are those of its cells, each of them once. -/
structure CellsCovered (b : LazBlock F) (blk : ZoneBlock F) : Prop where
  count : blk.faces.length = 2 * ((b.I - 1) * (b.J - 1))
  range : ∀ p ∈ blk.faces, p.2.length = 3 ∧ ∀ n ∈ p.2, 1 ≤ n ∧ n ≤ (b.I : Int) * b.J
  once : (blk.faces.map Prod.snd).Nodup
  cells : ∀ t, t ∈ blk.faces.map Prod.snd ↔ ∃ i j, i < b.I - 1 ∧ j < b.J - 1 ∧ t ∈ b.cell i j

/-- The triangles of the cell `(i, j)` have the numbers of this cell, the first index fastest. -/
def CellDataKept [Neg F] (b : LazBlock F) (blk : ZoneBlock F) : Prop :=
  ∀ i j conn data, i < b.I - 1 → j < b.J - 1 → conn ∈ b.cell i j → (data, conn) ∈ blk.faces → b.values (i + j * (b.I - 1)) data

/-- What the directory has for a block: the common end of the names of its two files and their texts. -/
structure LazEntry (F : Type) where
  suffix : Str
  /-- the name of the block -/
  name : Str
  block : LazBlock F
  grid : Str
  solution : Str

/-- The end of a name of a file: the name of the block begins with the last `B` and ends before `.TEC`. -/
structure LazEntry.Ok (c : Codec F) (e : LazEntry F) : Prop where
  suffix : ∃ pre t, e.suffix = pre ++ e.name ++ ".TEC".toList ∧ e.name = 'B' :: t ∧ 'B' ∉ t
  name : PlainName e.name
  block : e.block.Ok
  files : LazFiles c e.block (Py.readlines e.grid) (Py.readlines e.solution)

/-- A directory: in any order two files for every block and other files that are not `.TEC` files. The blocks are listed by the ends
of the names of the files. -/
structure LazDir (c : Codec F) (es : List (LazEntry F)) (dir : List (Str × Str)) : Prop where
  sorted : (es.map LazEntry.suffix).Pairwise (List.Lex (fun a b => a.toNat < b.toNat))
  entries : ∀ e ∈ es, e.Ok c
  files : ∃ other : List (Str × Str), (∀ p ∈ other, ¬ ".TEC".toList <:+: p.1) ∧
    dir.Perm (es.map (fun e => ("TEC_WALL_Grid_".toList ++ e.suffix, e.grid)) ++
      es.map (fun e => ("TEC_WALL_Solution_".toList ++ e.suffix, e.solution)) ++ other)

/-! ### Transfer of data between grids -/

/-- The center of a face with three nodes. -/
def faceCenter {R : Type} [Field F] (g : Grid F R) (f : Nat) : Vec F :=
  match (g.fNodes f).map g.nP with
  | [a, b, c] => ⟨(a.x + b.x + c.x) / 3, (a.y + b.y + c.y) / 3, (a.z + b.z + c.z) / 3⟩
  | _ => ⟨0, 0, 0⟩

/-- The square of the distance. -/
def dist2 [Field F] (u v : Vec F) : F := (u.x - v.x) ^ 2 + (u.y - v.y) ^ 2 + (u.z - v.z) ^ 2

/-- `s` is one of the faces of the grid `src` whose centers are nearest to the point. -/
def NearestFace {R : Type} [Field F] [LinearOrder F] (src : Grid F R) (p : Vec F) (s : Nat) : Prop :=
  s ∈ src.faces ∧ ∀ s' ∈ src.faces, dist2 p (faceCenter src s) ≤ dist2 p (faceCenter src s')

/-- The search for the nearest of some points. -/
def NearestPoint [Field F] [LinearOrder F] (query : List (Vec F) → Vec F → Nat) : Prop :=
  ∀ (ps : List (Vec F)) (p : Vec F), ps ≠ [] → ∃ q, ps[query ps p]? = some q ∧ ∀ q' ∈ ps, dist2 p q ≤ dist2 p q'

end Verif
