import Verif.Model.Config
/-
`repr` of the settings (config.py:61-87).
-/
namespace Vermin
open Py

/-- The last `w` hexadecimal digits of a number. -/
def hexDigits : Nat → Nat → List Char
  | 0, _ => []
  | w + 1, n => hexDigits w (n / 16) ++ [Nat.digitChar (n % 16)]

/-- `\x..`, `\u....` or `\U........` -/
def hexEscape (n : Nat) : List Char :=
  if n < 256 then 'x' :: hexDigits 2 n else if n < 65536 then 'u' :: hexDigits 4 n else 'U' :: hexDigits 8 n

/-- How `repr` shows a character of a `str` within quotes `q`.  Which characters are printable (`str.isprintable`) depends on the
Unicode tables of the interpreter and is a parameter. -/
def reprChar (printable : Char → Bool) (q c : Char) : List Char :=
  if c = '\\' ∨ c = q then ['\\', c]
  else if c = '\n' then ['\\', 'n']
  else if c = '\r' then ['\\', 'r']
  else if c = '\t' then ['\\', 't']
  else if printable c then [c]
  else '\\' :: hexEscape c.toNat

/-- The quote that `repr` uses for a `str`. -/
def reprQuote (s : List Char) : Char := if s.contains '\'' && !s.contains '"' then '"' else '\''

/-- `repr(s)` of a `str`, with all escapes. -/
def reprText (printable : Char → Bool) (s : String) : List Char :=
  let q := reprQuote s.toList
  q :: (s.toList.flatMap (reprChar printable q) ++ [q])

/-- `str(b)` -/
def boolText (b : Bool) : List Char := if b then "True".toList else "False".toList

/-- `str(t)` of a target: a pair of a `bool` and a version. -/
def targetRepr (t : Target) : List Char :=
  '(' :: (boolText t.1 ++ ", (".toList ++ strNat t.2.major ++ ", ".toList ++ strNat t.2.minor ++ "))".toList)

/-- `str(l)` of a list -/
def listText (l : List (List Char)) : List Char := '[' :: (join ", ".toList l ++ [']'])

/-- The lines of `repr(config)` (config.py:61-87).  `order` is the order in which sets are enumerated. -/
def configLines (printable : Char → Bool) (order : List String → List String) (c : Config) : List (List Char) :=
  ["Config(".toList,
   "  quiet = ".toList ++ boolText c.quiet,
   "  verbose = ".toList ++ strNat c.verbose,
   "  print_visits = ".toList ++ boolText c.printVisits,
   "  processes = ".toList ++ strNat c.processes,
   "  ignore_incomp = ".toList ++ boolText c.ignoreIncomp,
   "  pessimistic = ".toList ++ boolText c.pessimistic,
   "  show_tips = ".toList ++ boolText c.showTips,
   "  analyze_hidden = ".toList ++ boolText c.analyzeHidden,
   "  exclusions = ".toList ++ listText (c.sortedExclusions.map (reprText printable)),
   "  exclusion_regex = ".toList ++ listText (c.sortedExclusionRegex.map (reprText printable)),
   "  make_paths_absolute = ".toList ++ boolText c.makePathsAbsolute,
   "  backports = ".toList ++ listText ((order c.backports).map (reprText printable)),
   "  features = ".toList ++ listText ((order c.features).map (reprText printable)),
   "  targets = ".toList ++ listText (c.targets.map targetRepr),
   "  eval_annotations = ".toList ++ boolText c.evalAnnotations,
   "  only_show_violations = ".toList ++ boolText c.onlyShowViolations,
   "  parse_comments = ".toList ++ boolText c.parseComments,
   "  scan_symlink_folders = ".toList ++ boolText c.scanSymlinkFolders,
   "  format = ".toList ++ c.format.name.toList,
   ")".toList]

/-- `repr(config)` (config.py:61-87) -/
def configRepr (printable : Char → Bool) (order : List String → List String) (c : Config) : List Char :=
  join ['\n'] (configLines printable order c)

end Vermin
