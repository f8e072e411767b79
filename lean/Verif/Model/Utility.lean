import Verif.Model.Version
/-
Models the rest of vermin/utility.py: dotted names, target parsing, target comparison and sort keys.
-/
namespace Vermin
open Py

/-! ### dotted_name -/

/-- Elements of a nested list/tuple given to `dotted_name`. -/
inductive DNInner where
  | str (s : String)
  | int (n : Int)
  | none
  deriving DecidableEq, Repr

/-- Elements of the argument list of `dotted_name`. -/
inductive DNElem where
  | str (s : String)
  | int (n : Int)
  | none
  | list (l : List DNInner)
  | other            -- any other type: `assert False` (utility.py:28-29)
  deriving DecidableEq, Repr

/-- The argument of `dotted_name`. Floats (utility.py:15) are not modelled: the code never passes one. -/
inductive DNArg where
  | str (s : String)
  | int (n : Int)
  | list (l : List DNElem)
  deriving DecidableEq, Repr

/-- `str(n)` -/
def strInt : Int → List Char
  | .ofNat n => strNat n
  | .negSucc n => '-' :: strNat (n + 1)

/-- `resolved` after processing one element (utility.py:19-29); `none` marks an int that made it into
`resolved` unconverted (nested lists are not converted, so `".".join` fails on it). -/
def dnElem : DNElem → Except Err (List (Option (List Char)))
  | .str s => .ok [some s.toList]
  | .int n => .ok [some (strInt n)]
  | .list l => .ok (l.filterMap fun
      | .str s => some (some s.toList)
      | .int _ => some none
      | .none => none)
  | .none => .ok []
  | .other => .error .assertion

/-- utility.py:18-29, the loop. -/
def dnResolve : List DNElem → Except Err (List (Option (List Char)))
  | [] => .ok []
  | e :: es => do
    let a ← dnElem e
    let b ← dnResolve es
    return a ++ b

/-- `".".join(resolved)` (utility.py:30): a non-string element is a `TypeError`. -/
def dnJoin (l : List (Option (List Char))) : Except Err String :=
  if l.any Option.isNone then .error .typeError
  else .ok (String.ofList (join ['.'] (l.filterMap id)))

/-- `dotted_name(names)` (utility.py:9-30). -/
def dottedName : DNArg → Except Err String
  | .str s => .ok s
  | .int n => .ok (String.ofList (strInt n))
  | .list l => do
    let r ← dnResolve l
    dnJoin r

/-! ### Targets -/

/-- A target: exactness and version. -/
abbrev Target := Bool × Ver

/-- `[\.,]` (utility.py:160) -/
def isTargetSep (c : Char) : Bool := c == '.' || c == ','

/-- The loop of `parse_target` (utility.py:174-181): `none` for a component that is no number or negative. -/
def parseElms : List (List Char) → Option (List Nat)
  | [] => some []
  | w :: ws =>
    match int w with
    | none => none
    | some n => if n < 0 then none else (parseElms ws).map (n.toNat :: ·)

/-- `parse_target(target)` (utility.py:162-191). -/
def parseTarget (target : String) : Option Target :=
  let s := target.toList
  let exact := !endsWith ['-'] s
  let s := if exact then s else s.dropLast
  let elms := splitOn isTargetSep s
  if elms.length ≠ 1 ∧ elms.length ≠ 2 then none
  else match parseElms elms with
    | none => none
    | some ns =>
      let ns := if ns.length = 1 then ns ++ [0] else ns
      match ns with
      | [a, b] =>
        let v : Ver := ⟨a, b⟩
        if (⟨2, 0⟩ : Ver) ≤ v ∧ v < (⟨4, 0⟩ : Ver) then some (exact, v) else none
      | _ => none

/-- The dict comprehension `{ver[0]: ver for ver in reqs}` (utility.py:194). -/
def majToReq (reqs : List Ver) : Dict Nat Ver := reqs.foldl (fun d v => Dict.set d v.major v) []

/-- utility.py:195 -/
def majToTarget (ts : List Target) : Dict Nat Target := ts.foldl (fun d t => Dict.set d t.2.major t) []

/-- `compare_requirements(reqs, targets)` (utility.py:193-208). Iterating a Python set in arbitrary order
is harmless here because the loop only searches for a violating element. -/
def compareRequirements (reqs : List Ver) (targets : List Target) : Bool :=
  let mr := majToReq reqs
  let mt := majToTarget targets
  let common := (mr.map (·.1)).filter fun k => (mt.map (·.1)).contains k
  if common.isEmpty then false
  else if (mt.map (·.1)).any fun k => !common.contains k then false
  else common.all fun maj =>
    match Dict.get? mt maj, Dict.get? mr maj with
    | some (exact, target), some req =>
      if exact && decide (target ≠ req) then false
      else if !exact && decide (target < req) then false
      else true
    | _, _ => true

/-! ### Sort keys -/

/-- `bounded_str_hash` before the division: `h % 1000000` (utility.py:108-113). -/
def strHash (s : List Char) : Nat := (s.foldl (fun acc ch => acc + 29 * ch.toNat) 13) % 1000000

/-- Longest prefix of decimal digits, and the rest (regex `\d*`). -/
def takeDigits (s : List Char) : List Char × List Char :=
  (s.takeWhile isDigit, s.dropWhile isDigit)

def natOf (ds : List Char) : Nat := Nat.ofDigitChars 10 ds 0

/-- `.*` matches up to the first newline. -/
def untilNewline (s : List Char) : List Char := s.takeWhile fun c => c != '\n'

/-- `LINE_COL_REGEX.match` (utility.py:115): `L(\d+)(?:\s*C(\d+))?:(.*)`.
The expression is deterministic: after the digits only white space, `C` or `:` can follow. -/
def matchLineCol (s : List Char) : Option (Nat × Option Nat × List Char) :=
  match s with
  | 'L' :: s =>
    let (ds, s) := takeDigits s
    if ds.isEmpty then none
    else match s with
      | ':' :: s => some (natOf ds, none, untilNewline s)
      | s =>
        match s.dropWhile isSpace with
        | 'C' :: s =>
          let (cs, s) := takeDigits s
          if cs.isEmpty then none
          else match s with
            | ':' :: s => some (natOf ds, some (natOf cs), untilNewline s)
            | _ => none
        | _ => none
  | _ => none

/-- `sort_line_column(key)` times 10^9, which is an integer (utility.py:117-131). Python computes the
same number as a float: `Model/Floats.lean`; `Props/Floats.lean` shows that the order is the same. -/
def sortLineColumn (s : List Char) : Nat :=
  match matchLineCol s with
  | none => strHash s * 1000
  | some (line, none, rest) => line * 1000000000 + strHash rest
  | some (line, some col, rest) => line * 1000000000 + col * 1000000 + strHash rest

/-- The part `:(\d+):(\d*):(.*)` of `LINE_COL_PARSABLE_REGEX` (utility.py:133). -/
def matchParsableTail (s : List Char) : Option (Nat × Nat × List Char) :=
  match s with
  | ':' :: s =>
    let (ds, s) := takeDigits s
    if ds.isEmpty then none
    else match s with
      | ':' :: s =>
        let (cs, s) := takeDigits s
        match s with
        | ':' :: s => some (natOf ds, natOf cs, untilNewline s)
        | _ => none
      | _ => none
  | _ => none

/-- `LINE_COL_PARSABLE_REGEX.match` (utility.py:133): the lazy `.*?` tries the earliest position first and
does not cross a newline. -/
def matchParsable : List Char → Option (Nat × Nat × List Char)
  | [] => none
  | c :: s =>
    match matchParsableTail (c :: s) with
    | some r => some r
    | none => if c == '\n' then none else matchParsable s

/-- `sort_line_column_parsable(key)` times 10^9 (utility.py:135-146). -/
def sortLineColumnParsable (s : List Char) : Nat :=
  match matchParsable s with
  | none => strHash s * 1000
  | some (line, col, rest) => line * 1000000000 + col * 1000000 + strHash rest

end Vermin
