/-
Python primitives the code relies on, written over `List Char` (a Python `str` is a sequence of
code points).  `String` is used at interfaces; `String.toList` / `String.ofList` convert.

Simplification (recorded in DESIGN.md): `int()` accepts ASCII digits only here, and `lower` maps ASCII
letters only; CPython additionally knows Unicode digits and case mappings.
-/
namespace Vermin.Py

/-- The characters `str.isspace`, `str.strip()` and regex `\s` treat as white space (CPython, complete list). -/
def isSpace (c : Char) : Bool :=
  let n := c.toNat
  (9 ≤ n && n ≤ 13) || (28 ≤ n && n ≤ 32) || n == 0x85 || n == 0xa0 || n == 0x1680 ||
  (0x2000 ≤ n && n ≤ 0x200a) || n == 0x2028 || n == 0x2029 || n == 0x202f || n == 0x205f || n == 0x3000

/-- ASCII decimal digit (regex `\d`, restricted to ASCII). -/
def isDigit (c : Char) : Bool := 48 ≤ c.toNat && c.toNat ≤ 57

/-- Regex `\w`, restricted to ASCII. -/
def isWord (c : Char) : Bool :=
  isDigit c || (65 ≤ c.toNat && c.toNat ≤ 90) || (97 ≤ c.toNat && c.toNat ≤ 122) || c == '_'

/-- `str.lower()` on one ASCII character. -/
def lowerChar (c : Char) : Char :=
  if 65 ≤ c.toNat ∧ c.toNat ≤ 90 then Char.ofNat (c.toNat + 32) else c

def lower (s : List Char) : List Char := s.map lowerChar

/-- `str.lstrip()` -/
def lstrip (s : List Char) : List Char := s.dropWhile isSpace

/-- `str.rstrip()` -/
def rstrip (s : List Char) : List Char := (s.reverse.dropWhile isSpace).reverse

/-- `str.strip()` -/
def strip (s : List Char) : List Char := rstrip (lstrip s)

/-- `str.split(c)` / `re.split` on a one-character class: always at least one piece. -/
def splitOn (p : Char → Bool) : List Char → List (List Char)
  | [] => [[]]
  | c :: cs =>
    if p c then [] :: splitOn p cs
    else match splitOn p cs with
      | [] => [[c]]
      | w :: ws => (c :: w) :: ws

/-- `sep.join(parts)` -/
def join (sep : List Char) : List (List Char) → List Char
  | [] => []
  | [w] => w
  | w :: ws => w ++ sep ++ join sep ws

/-- `str.startswith` -/
def startsWith (pre : List Char) (s : List Char) : Bool := pre.isPrefixOf s

/-- `str.endswith` -/
def endsWith (suf : List Char) (s : List Char) : Bool := suf.isSuffixOf s

/-- `sub in s` for strings: substring test. -/
def isSub (sub : List Char) : List Char → Bool
  | [] => sub.isEmpty
  | c :: cs => sub.isPrefixOf (c :: cs) || isSub sub cs

/-- `str.replace(old, new)` for a one-character `old`. -/
def replaceChar (old : Char) (new : List Char) (s : List Char) : List Char :=
  s.flatMap fun c => if c == old then new else [c]

/-- Line boundaries recognised by `str.splitlines()`, except the pair `\r\n`. -/
def isLineBreak (c : Char) : Bool :=
  let n := c.toNat
  (10 ≤ n && n ≤ 13) || (28 ≤ n && n ≤ 30) || n == 0x85 || n == 0x2028 || n == 0x2029

/-- `str.splitlines()`; `cur` is the current line, reversed. -/
def splitlinesAux : List Char → List Char → List (List Char)
  | [], cur => if cur.isEmpty then [] else [cur.reverse]
  | '\r' :: '\n' :: cs, cur => cur.reverse :: splitlinesAux cs []
  | c :: cs, cur =>
    if isLineBreak c then cur.reverse :: splitlinesAux cs []
    else splitlinesAux cs (c :: cur)

def splitlines (s : List Char) : List (List Char) := splitlinesAux s []

/-- Decimal digits with single underscores between digits, as accepted by `int()`. -/
def digitsUnderscore : List Char → Bool
  | [] => false
  | [c] => isDigit c
  | c :: '_' :: cs => isDigit c && digitsUnderscore cs
  | c :: cs => isDigit c && digitsUnderscore cs

/-- Unsigned part of `int(str)`. -/
def natLit (s : List Char) : Option Nat :=
  if digitsUnderscore s then some (Nat.ofDigitChars 10 (s.filter isDigit) 0) else none

/-- `int(str)`; `none` stands for `ValueError`. -/
def int (s : List Char) : Option Int :=
  match strip s with
  | '-' :: cs => (natLit cs).map fun (n : Nat) => -(n : Int)
  | '+' :: cs => (natLit cs).map fun (n : Nat) => (n : Int)
  | cs => (natLit cs).map fun (n : Nat) => (n : Int)

/-- `str(n)` for a natural number. -/
def strNat (n : Nat) : List Char := Nat.toDigits 10 n

/-- `repr(s)` of a `str`, for the escapes that occur in rule texts. -/
def reprStr (s : String) : String :=
  let q : Char := if s.toList.contains '\'' && !s.toList.contains '"' then '"' else '\''
  let body := s.toList.flatMap fun c =>
    if c == '\\' then ['\\', '\\']
    else if c == q then ['\\', c]
    else if c == '\n' then ['\\', 'n']
    else if c == '\r' then ['\\', 'r']
    else if c == '\t' then ['\\', 't']
    else [c]
  String.ofList ([q] ++ body ++ [q])

/-- `str(l)` of a list of strings. -/
def reprStrList (l : List String) : String :=
  "[" ++ String.ofList (join ", ".toList (l.map fun s => (reprStr s).toList)) ++ "]"

/-- Exceptions as values. -/
inductive Err where
  | invalidVersion (msg : String)   -- vermin.InvalidVersionException
  | assertion
  | typeError
  | indexError
  | attributeError
  | valueError
  | keyError
  | regexError
  | runtimeError                    -- RuntimeError and its subclass RecursionError
  | osError
  deriving Repr, DecidableEq

instance instDecEqExcept {ε α : Type} [DecidableEq ε] [DecidableEq α] : DecidableEq (Except ε α)
  | .error a, .error b => if h : a = b then isTrue (by rw [h]) else isFalse (by simpa using h)
  | .ok a, .ok b => if h : a = b then isTrue (by rw [h]) else isFalse (by simpa using h)
  | .error _, .ok _ => isFalse (by simp)
  | .ok _, .error _ => isFalse (by simp)

/-- Dictionaries as association lists; a later insertion shadows an earlier one. -/
abbrev Dict (α β : Type) := List (α × β)

namespace Dict
variable {α β : Type} [DecidableEq α]
/-- `d.get(k)` / `k in d` -/
def get? (d : Dict α β) (k : α) : Option β := (d.find? fun e => decide (e.1 = k)).map (·.2)
/-- `k in d` -/
def has (d : Dict α β) (k : α) : Bool := (Dict.get? d k).isSome
/-- `d[k] = v` -/
def set (d : Dict α β) (k : α) (v : β) : Dict α β := (k, v) :: d.filter fun e => !decide (e.1 = k)
end Dict

/-- `list.sort(key=..)`: the stable ascending sort, as insertion sort. `le a b` is `key a <= key b`. -/
def insertSorted {α : Type} (le : α → α → Bool) (x : α) : List α → List α
  | [] => [x]
  | y :: ys => if le x y then x :: y :: ys else y :: insertSorted le x ys

def sort {α : Type} (le : α → α → Bool) : List α → List α
  | [] => []
  | x :: xs => insertSorted le x (sort le xs)

/-- Lexicographic comparison of strings by code point (`str.__le__`). -/
def leChars : List Char → List Char → Bool
  | [], _ => true
  | _ :: _, [] => false
  | a :: as, b :: bs => if a.toNat < b.toNat then true else if b.toNat < a.toNat then false else leChars as bs

def leStr (a b : String) : Bool := leChars a.toList b.toList

end Vermin.Py
