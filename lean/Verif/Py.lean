/-
Python primitives used by crys-gsu, as total Lean functions.

These follow the Python language reference (they are not lines of /repo); each definition names the
construct it stands for.  Strings are lists of characters.
-/

namespace Verif

/-- Python exceptions the modelled code can raise. `exc m` is `raise Exception(m)`; only the constant
part of a message is kept. -/
inductive Err where
  | index                -- IndexError
  | value                -- ValueError
  | key                  -- KeyError
  | attr                 -- AttributeError
  | zeroDiv              -- ZeroDivisionError
  | assertion            -- AssertionError
  | name                 -- NameError
  | runtime              -- RuntimeError
  | type                 -- TypeError
  | os                   -- OSError
  | exc (msg : String)   -- Exception
deriving DecidableEq, Repr

/-- Result of a function that may raise. -/
abbrev Res (α : Type _) := Except Err α

deriving instance DecidableEq for Except

/-- Strings are lists of characters. -/
abbrev Str := List Char

namespace Py

/-- `l[i]` for a Python list and an `int` index: negative indexes count from the end. -/
def get {α : Type _} (l : List α) (i : Int) : Res α :=
  let j : Int := if i < 0 then i + l.length else i
  if j < 0 then .error .index
  else match l[j.toNat]? with
    | some x => .ok x
    | none => .error .index

/-- Clamp a slice bound the way Python does. -/
def bound (n : Nat) (i : Int) : Nat :=
  let j : Int := if i < 0 then i + n else i
  min j.toNat n

/-- `l[lo:hi]`; `none` stands for an omitted bound. -/
def slice {α : Type _} (l : List α) (lo hi : Option Int) : List α :=
  let a := match lo with | some i => bound l.length i | none => 0
  let b := match hi with | some i => bound l.length i | none => l.length
  (l.drop a).take (b - a)

/-- `l.remove(x)` for objects compared by identity: removes the first occurrence, raises
`ValueError` if there is none. -/
def remove {α : Type _} [DecidableEq α] (l : List α) (x : α) : Res (List α) :=
  if x ∈ l then .ok (l.erase x) else .error .value

/-- `l.remove(x)` for objects with a user-defined `__eq__` given as predicate `eq`. -/
def removeBy {α : Type _} (eq : α → Bool) (l : List α) : Res (List α) :=
  if l.any eq then .ok (l.eraseP eq) else .error .value

/-- `l.index(x)`. -/
def index {α : Type _} [DecidableEq α] (l : List α) (x : α) : Res Nat :=
  if x ∈ l then .ok (l.idxOf x) else .error .value

/-- `d.get(k)` on a dictionary kept as an association list in insertion order. -/
def dictGet? {κ : Type _} {ν : Type _} [DecidableEq κ] (d : List (κ × ν)) (k : κ) : Option ν :=
  match d with
  | [] => none
  | (k', v) :: t => if k' = k then some v else dictGet? t k

/-- `d[k] = v`: in place for an existing key, at the end for a new one. -/
def dictSet {κ : Type _} {ν : Type _} [DecidableEq κ] (d : List (κ × ν)) (k : κ) (v : ν) :
    List (κ × ν) :=
  match d with
  | [] => [(k, v)]
  | (k', v') :: t => if k' = k then (k', v) :: t else (k', v') :: dictSet t k v

/-- `dict(zip(ks, vs))` (and `dict(pairs)`): later duplicates overwrite in place. -/
def dictOf {κ : Type _} {ν : Type _} [DecidableEq κ] (ps : List (κ × ν)) : List (κ × ν) :=
  ps.foldl (fun d p => dictSet d p.1 p.2) []

/-- `d.pop(k)`. -/
def dictPop {κ : Type _} {ν : Type _} [DecidableEq κ] (d : List (κ × ν)) (k : κ) :
    Res (List (κ × ν)) :=
  if (d.map Prod.fst).contains k then .ok (d.eraseP (fun p => p.1 = k)) else .error .key

/-! ### Characters and numbers -/

/-- The characters `str.split()`, `str.strip()` treat as white space. -/
def isWs (c : Char) : Bool :=
  let n := c.toNat
  (9 ≤ n && n ≤ 13) || (28 ≤ n && n ≤ 32) || n == 0x85 || n == 0xA0 || n == 0x1680 ||
  (0x2000 ≤ n && n ≤ 0x200A) || n == 0x2028 || n == 0x2029 || n == 0x202F || n == 0x205F ||
  n == 0x3000

/-- Value of an ASCII decimal digit. Simplification: the other Unicode decimal digits, which
`\d`, `isdigit` and `int` accept too, are treated as non-digits. -/
def digitVal? (c : Char) : Option Nat :=
  if 48 ≤ c.toNat ∧ c.toNat ≤ 57 then some (c.toNat - 48) else none

/-- `\d` of the `re` module (ASCII part). -/
def isDecimal (c : Char) : Bool := (digitVal? c).isSome

/-- Characters for which `str.isdigit()` holds: decimal digits, and superscript digits that `int`
does not accept. -/
def isDigitCh (c : Char) : Bool :=
  isDecimal c || c == '²' || c == '³' || c == '¹' || c == '⁰' ||
  (0x2074 ≤ c.toNat && c.toNat ≤ 0x2079)

/-- `s.isdigit()`. -/
def isdigit (s : Str) : Bool := !s.isEmpty && s.all isDigitCh

/-- Digits of `int(...)`: digits with single underscores between them. -/
def parseDigits : Nat → Bool → Str → Option Nat
  | acc, pd, [] => if pd then some acc else none
  | acc, pd, c :: cs =>
    match digitVal? c with
    | some d => parseDigits (acc * 10 + d) true cs
    | none => if c = '_' ∧ pd = true then parseDigits acc false cs else none

/-- `s.strip()`. -/
def strip (s : Str) : Str := ((s.dropWhile isWs).reverse.dropWhile isWs).reverse

/-- Optional sign and digits of `int(...)`. -/
def signed? : Str → Option Int
  | '+' :: t => (parseDigits 0 false t).map Int.ofNat
  | '-' :: t => (parseDigits 0 false t).map (fun n => - Int.ofNat n)
  | t => (parseDigits 0 false t).map Int.ofNat

/-- `int(s)`. -/
def int (s : Str) : Res Int :=
  match signed? (strip s) with
  | some n => .ok n
  | none => .error .value

/-- One decimal digit as a character. -/
def digitCh (d : Nat) : Char := Char.ofNat (48 + d)

/-- Decimal text of a natural number, with `fuel` an upper bound of its length. -/
def natStrAux : Nat → Nat → Str
  | 0, _ => []
  | fuel + 1, n => if n < 10 then [digitCh n] else natStrAux fuel (n / 10) ++ [digitCh (n % 10)]

/-- `str(n)` for `n >= 0`. -/
def natStr (n : Nat) : Str := natStrAux (n + 1) n

/-- `str(i)` for an `int`. -/
def intStr (i : Int) : Str :=
  match i with
  | .ofNat n => natStr n
  | .negSucc n => '-' :: natStr (n + 1)

/-- `'{:0wd}'.format(n)` for `n >= 0`. -/
def natStrPad (w n : Nat) : Str :=
  List.replicate (w - (natStr n).length) '0' ++ natStr n

/-! ### Splitting and joining -/

/-- `s.split()`: maximal runs of non-white-space characters. `acc` is the current run. -/
def splitWsAux : Str → Str → List Str
  | [], acc => if acc = [] then [] else [acc]
  | c :: cs, acc =>
    if isWs c then (if acc = [] then splitWsAux cs [] else acc :: splitWsAux cs [])
    else splitWsAux cs (acc ++ [c])

/-- `s.split()`. -/
def splitWs (s : Str) : List Str := splitWsAux s []

/-- `s.split(c)` for a one-character separator: always at least one piece. -/
def splitCh (sep : Char) : Str → List Str
  | [] => [[]]
  | c :: cs =>
    if c = sep then [] :: splitCh sep cs
    else match splitCh sep cs with
      | [] => [[c]]
      | p :: ps => (c :: p) :: ps

/-- `sep.join(ss)`. -/
def join (sep : Str) : List Str → Str
  | [] => []
  | [s] => s
  | s :: t => s ++ sep ++ join sep t

/-- `s.replace(c, '')` for a one-character pattern. -/
def delCh (c : Char) (s : Str) : Str := s.filter (fun x => x ≠ c)

/-- `p in s` for strings. -/
def contains (p s : Str) : Bool :=
  match s with
  | [] => p.isEmpty
  | c :: cs => p.isPrefixOf (c :: cs) || contains p cs

/-- Universal newlines of text mode: `\r\n` and `\r` become `\n`. -/
def universalNewlines : Str → Str
  | [] => []
  | '\r' :: '\n' :: cs => '\n' :: universalNewlines cs
  | '\r' :: cs => '\n' :: universalNewlines cs
  | c :: cs => c :: universalNewlines cs

/-- Cut text after every newline; the newline stays with its line, as `readline` does it. -/
def linesAux : Str → Str → List Str
  | [], acc => if acc = [] then [] else [acc]
  | c :: cs, acc => if c = '\n' then (acc ++ [c]) :: linesAux cs [] else linesAux cs (acc ++ [c])

/-- The successive results of `readline()` on a file opened in text mode. -/
def readlines (s : Str) : List Str := linesAux (universalNewlines s) []

end Py
end Verif
