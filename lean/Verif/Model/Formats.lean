import Verif.Model.Config
/-
Models vermin/formats/ (output) and vermin/printing.py.
-/
namespace Vermin
open Py

/-- `"{}"` of an optional number, empty if absent. -/
def optNat : Option Nat → List Char
  | none => []
  | some n => strNat n

/-- `DefaultFormat.format_output_line` (default_format.py:13-27).  `versions` is always a pair here. -/
def formatDefault (cfg : Config) (msg : String) (line col : Option Nat) (versions : Option Req) (plural : Option Bool) :
    String :=
  let plural := plural.getD (endsWith ['s'] (strip msg.toList))
  let line := if cfg.verbose < 3 then none else line
  let col := if cfg.verbose < 3 then none else col
  let l : List Char := match line with
    | some n => 'L' :: strNat n
    | none => []
  let c : List Char := match col with
    | some n => " C".toList ++ strNat n
    | none => []
  let lc := l ++ c
  let lc := if lc.length > 0 then lc ++ ": ".toList else lc
  let vers : List Char := match versions with
    | some r => " require".toList ++ (if plural then [] else ['s']) ++ [' '] ++ (reqString r).toList
    | none => []
  String.ofList (lc ++ msg.toList ++ vers)

/-- `ParsableFormat.format_output_line` (parsable_format.py:20-27) -/
def formatParsable (msg : Option String) (path : Option String) (line col : Option Nat) (versions : Option Req) : String :=
  let vers : List Char := match versions with
    | some r => (reqString r ":").toList
    | none => [':']
  let msg := replaceChar '\n' ['\\', 'n'] (msg.getD "").toList
  String.ofList ((path.getD "").toList ++ [':'] ++ optNat line ++ [':'] ++ optNat col ++ [':'] ++ vers ++ [':'] ++ msg)

/-- `format().format_output_line` with a message (dispatch on the format object). -/
def formatLine (cfg : Config) (msg : String) (path : Option String) (line col : Option Nat) (versions : Option Req)
    (plural : Option Bool) : String :=
  match cfg.format with
  | .default => formatDefault cfg msg line col versions plural
  | .parsable => formatParsable (some msg) path line col versions

/-- `skip_output_line` (default_format.py:9-11, parsable_format.py:16-18) -/
def skipOutputLine (cfg : Config) : Bool :=
  match cfg.format with
  | .default => cfg.quiet
  | .parsable => false

/-- `nprint` (printing.py:1-3): what is printed. -/
def nprint (cfg : Config) (msg : String) : List String := if cfg.quiet then [] else [msg ++ "\n"]

/-- `vprint` (printing.py:5-10) -/
def vprint (cfg : Config) (msg : String) : List String := if cfg.verbose ≥ 1 ∧ ¬ cfg.quiet then [msg ++ "\n"] else []

/-- `str.splitlines(True)`: the lines with their ends. -/
def splitlinesKeepAux : List Char → List Char → List (List Char)
  | [], acc => if acc.isEmpty then [] else [acc.reverse]
  | '\r' :: '\n' :: s, acc => (('\n' :: '\r' :: acc).reverse) :: splitlinesKeepAux s []
  | c :: s, acc => if isLineBreak c then ((c :: acc).reverse) :: splitlinesKeepAux s [] else splitlinesKeepAux s (c :: acc)

def splitlinesKeep (s : List Char) : List (List Char) := splitlinesKeepAux s []

/-- `"{:<12}".format` -/
def padRight (n : Nat) (s : List Char) : List Char := s ++ List.replicate (n - s.length) ' '

/-- `DefaultFormat.output_result` (default_format.py:29-39) -/
def outputDefault (cfg : Config) (path text : String) (mins : Req) : List String :=
  let subtext : List Char :=
    if text.toList.length > 0 then
      let s := "\n  ".toList ++ join "  ".toList (splitlinesKeep text.toList)
      if endsWith ['\n'] s then s else s ++ ['\n']
    else []
  vprint cfg (String.ofList (padRight 12 (reqString mins).toList ++ [' '] ++ path.toList ++ subtext))

/-- `ParsableFormat.output_result` (parsable_format.py:29-35) -/
def outputParsable (path text : String) (mins : Req) : List String :=
  [text, formatParsable none (some path) none none (some mins) ++ "\n"]

/-- `format().output_result` -/
def outputResult (cfg : Config) (path text : String) (mins : Req) : List String :=
  match cfg.format with
  | .default => outputDefault cfg path text mins
  | .parsable => outputParsable path text mins

end Vermin
