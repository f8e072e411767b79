import Verif.Model.Py
/-
Regular expressions of Python's `re`, as far as the source uses them: syntax of patterns, and matching with backtracking.  The matchers of the other
models are written by hand; `Props/Regex.lean` proves that they do what the patterns of the source say.

Not modelled: alternatives, counted repetition (a `{` is itself, as in `{}`), flags, back references.  `\d` and `\w` are restricted to ASCII (`Py.lean`).
A repeated part always matches at least one character in the patterns of the source.
-/
namespace Vermin
open Py

/-- A member of a character class. -/
inductive ReItem where
  | char (c : Char)
  | digit
  | word
  | space
  deriving DecidableEq, Repr

def ReItem.has : ReItem → Char → Bool
  | .char d, c => c == d
  | .digit, c => isDigit c
  | .word, c => isWord c
  | .space, c => isSpace c

/-- What matches one character: `.`, or one of the members of a class. -/
inductive ReClass where
  | any
  | of (items : List ReItem)
  deriving DecidableEq, Repr

def ReClass.has : ReClass → Char → Bool
  | .any, c => c != '\n'
  | .of items, c => items.any (·.has c)

inductive Re where
  | empty
  | one (c : ReClass)
  | seq (a b : Re)
  /-- `(..)` with its number -/
  | group (n : Nat) (a : Re)
  /-- `a?` -/
  | opt (a : Re)
  /-- `a*`, or `a*?` if not greedy -/
  | star (greedy : Bool) (a : Re)
  /-- `(?<!c)` -/
  | notBehind (c : ReClass)
  /-- `(?!c)` -/
  | notAhead (c : ReClass)
  deriving DecidableEq, Repr

/-- `a+`, or `a+?` -/
def Re.plus (greedy : Bool) (a : Re) : Re := .seq a (.star greedy a)

/-! ### Syntax -/

/-- The character after a backslash. -/
def reEscape (c : Char) : ReItem :=
  if c = 'd' then .digit else if c = 'w' then .word else if c = 's' then .space else .char c

/-- The members of a class up to `]`. -/
def reItems : List Char → Option (List ReItem × List Char)
  | [] => none
  | ']' :: s => some ([], s)
  | '\\' :: c :: s => (reItems s).map fun r => (reEscape c :: r.1, r.2)
  | c :: s => (reItems s).map fun r => (.char c :: r.1, r.2)

/-- What matches one character: a class, an escape, `.`, or a character. -/
def reOne : List Char → Option (ReClass × List Char)
  | '[' :: s => (reItems s).map fun r => (.of r.1, r.2)
  | '\\' :: c :: s => some (.of [reEscape c], s)
  | '.' :: s => some (.any, s)
  | c :: s => some (.of [.char c], s)
  | [] => none

/-- What follows an expression: `*`, `*?`, `+`, `+?`, `?`. -/
def rePostfix (a : Re) : List Char → Re × List Char
  | '*' :: '?' :: s => (.star false a, s)
  | '*' :: s => (.star true a, s)
  | '+' :: '?' :: s => (.plus false a, s)
  | '+' :: s => (.plus true a, s)
  | '?' :: s => (.opt a, s)
  | s => (a, s)

/-- A sequence up to the end or `)`.  The first argument bounds the depth, the second is the number of groups so far. -/
def reSeq : Nat → Nat → List Char → Option (Re × Nat × List Char)
  | 0, _, _ => none
  | _ + 1, g, [] => some (.empty, g, [])
  | _ + 1, g, ')' :: s => some (.empty, g, ')' :: s)
  | n + 1, g, s =>
    let atom : Option (Re × Nat × List Char) :=
      match s with
      | '(' :: '?' :: ':' :: s =>
        match reSeq n g s with
        | some (a, g, ')' :: s) => some (a, g, s)
        | _ => none
      | '(' :: '?' :: '<' :: '!' :: s =>
        match reOne s with
        | some (c, ')' :: s) => some (.notBehind c, g, s)
        | _ => none
      | '(' :: '?' :: '!' :: s =>
        match reOne s with
        | some (c, ')' :: s) => some (.notAhead c, g, s)
        | _ => none
      | '(' :: s =>
        match reSeq n (g + 1) s with
        | some (a, g', ')' :: s) => some (.group (g + 1) a, g', s)
        | _ => none
      | s => (reOne s).map fun r => (.one r.1, g, r.2)
    match atom with
    | some (a, g, s) =>
      let (a, s) := rePostfix a s
      (reSeq n g s).map fun r => (.seq a r.1, r.2)
    | none => none

/-- `re.compile(pattern)` -/
def reCompile (pattern : String) : Option Re :=
  match reSeq (pattern.length + 1) 0 pattern.toList with
  | some (r, _, []) => some r
  | _ => none

/-! ### Matching -/

/-- Where a match is: the character before, what follows, and the groups matched so far, the last first. -/
structure RePos where
  prev : Option Char
  rest : List Char
  groups : List (Nat × List Char)
  deriving DecidableEq, Repr

/-- `match.group(n)` -/
def RePos.group (p : RePos) (n : Nat) : Option (List Char) := Dict.get? p.groups n

/-- Repetition: greedy tries to repeat first, lazy to go on first. -/
def reRepeat {α : Type} (greedy : Bool) (step : (RePos → Option α) → RePos → Option α) : Nat → (RePos → Option α) → RePos → Option α
  | 0, k, p => k p
  | n + 1, k, p =>
    if greedy then (step (reRepeat greedy step n k) p).or (k p)
    else (k p).or (step (reRepeat greedy step n k) p)

/-- Matching with backtracking: the result of the first way to match after which `k` succeeds. -/
def Re.run {α : Type} : Re → (RePos → Option α) → RePos → Option α
  | .empty, k, p => k p
  | .one c, k, p =>
    match p.rest with
    | x :: xs => if c.has x then k { p with prev := some x, rest := xs } else none
    | [] => none
  | .seq a b, k, p => a.run (b.run k) p
  | .group n a, k, p =>
    a.run (fun q => k { q with groups := (n, p.rest.take (p.rest.length - q.rest.length)) :: q.groups }) p
  | .opt a, k, p => (a.run k p).or (k p)
  | .star greedy a, k, p => reRepeat greedy a.run p.rest.length k p
  | .notBehind c, k, p => if p.prev.any c.has then none else k p
  | .notAhead c, k, p => if p.rest.head?.any c.has then none else k p

/-- A match at a position, with the text after `prev`. -/
def Re.at? (r : Re) (prev : Option Char) (s : List Char) : Option RePos := r.run some ⟨prev, s, []⟩

/-- `regex.match(s)` -/
def Re.match? (r : Re) (s : List Char) : Option RePos := r.at? none s

/-- `regex.search(s)`: the first position with a match, and the match. -/
def Re.searchFrom (r : Re) (i : Nat) (prev : Option Char) : List Char → Option (Nat × RePos)
  | [] => (r.at? prev []).map (i, ·)
  | c :: cs => ((r.at? prev (c :: cs)).map (i, ·)).or (Re.searchFrom r (i + 1) (some c) cs)

def Re.search? (r : Re) (s : List Char) : Option (Nat × RePos) := r.searchFrom 0 none s

/-- The successive matches that do not overlap, as `findall`, `split` and `sub` find them: what is before each, and the match; and what is left.
The first argument bounds the number of steps; matches are not empty in the patterns of the source. -/
def Re.scan (r : Re) : Nat → Option Char → List Char → List (List Char × RePos) × List Char
  | 0, _, s => ([], s)
  | _ + 1, _, [] => ([], [])
  | n + 1, prev, c :: cs =>
    match r.at? prev (c :: cs) with
    | some m => let t := Re.scan r n m.prev m.rest; (([], m) :: t.1, t.2)
    | none =>
      match Re.scan r n (some c) cs with
      | ([], left) => ([], c :: left)
      | ((b, m) :: ms, left) => ((c :: b, m) :: ms, left)

def Re.matches (r : Re) (s : List Char) : List (List Char × RePos) × List Char := r.scan s.length none s

/-- `regex.findall(s)` with one group -/
def Re.findall (r : Re) (s : List Char) : List (List Char) := (r.matches s).1.map fun m => (m.2.group 1).getD []

/-- `regex.split(s)` without groups -/
def Re.split (r : Re) (s : List Char) : List (List Char) := (r.matches s).1.map (·.1) ++ [(r.matches s).2]

/-- `regex.sub("", s)` -/
def Re.remove (r : Re) (s : List Char) : List Char := ((r.matches s).1.map (·.1)).flatten ++ (r.matches s).2

end Vermin
