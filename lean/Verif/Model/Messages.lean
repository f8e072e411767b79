import Verif.Model.Arguments
/-
Models what argument parsing and reading of config files print: `Arguments.parse` (arguments.py:194-428),
`Config.parse_file`/`parse_fp` (config.py:89-226), `Config.add_target` (config.py:404-406), `Config.add_exclusion_file`
(config.py:302-308), and the texts about backports, features and formats (utility.py:148-158, backports.py:35-38,
features.py:14-17, formats/__init__.py:6-28).  Each element of a list of messages is the text of one call of `print`.
What they return is modelled by `parseArgs` and `parseFile`.
-/
namespace Vermin
open Py

/-- `VERSION` (constants.py:3) -/
def versionText : String := "1.6.0"

/-! ### Lists of names with descriptions -/

/-- `"{:{fill}}".format(name, fill=n)`: filled with spaces on the right. -/
def filled (n : Nat) (s : List Char) : List Char := s ++ List.replicate (n - s.length) ' '

/-- `len(max(titles, key=len))` (utility.py:150); the code raises if there is none. -/
def longestTitle (titles : List String) : Nat := titles.foldl (fun n t => max n t.toList.length) 0

/-- The title of one entry (utility.py:152). -/
def titleText (longest indent : Nat) (name : String) : List Char :=
  List.replicate indent ' ' ++ filled longest name.toList ++ " - ".toList

/-- The lines of one entry (utility.py:151-157).  The code raises if there is no description. -/
def titleLines (longest indent : Nat) (e : String × List String) : List (List Char) :=
  let title := titleText longest indent e.1
  (title ++ (e.2.headD "").toList) :: e.2.tail.map fun l => List.replicate title.length ' ' ++ l.toList

/-- `lines` of `format_title_descs(pairs, titles, indent)` (utility.py:148-157) -/
def titleDescLines (pairs : List (String × List String)) (titles : List String) (indent : Nat) : List (List Char) :=
  pairs.flatMap (titleLines (longestTitle titles) indent)

/-- `"\n".join(lines)` (utility.py:158) -/
def joinLines (lines : List (List Char)) : String := String.ofList (join ['\n'] lines)

/-- The links of `BACKPORTS`, in the order of `backports` (backports.py:9-32). -/
def backportLinks : List String := [
  "https://pypi.org/project/argparse/",
  "https://pypi.org/project/asyncio/",
  "https://pypi.org/project/configparser/",
  "https://pypi.org/project/contextvars/",
  "https://pypi.org/project/dataclasses/",
  "https://pypi.org/project/enum34/",
  "https://pypi.org/project/faulthandler/",
  "https://pypi.org/project/importlib/",
  "https://pypi.org/project/ipaddress/",
  "https://pypi.org/project/mock/",
  "https://pypi.org/project/statistics/",
  "https://pypi.org/project/typing/",
  "https://pypi.org/project/typing-extensions/4.0.0/",
  "https://pypi.org/project/typing-extensions/4.3.0/",
  "https://pypi.org/project/typing-extensions/4.3.0/",
  "https://pypi.org/project/backports.zoneinfo/"]

/-- The rows of `BACKPORTS` with their links. -/
def backportInfos : List (BackportRow × String) := backports.zip backportLinks

/-- The lines of `Backports.str(indent, backports)` (backports.py:35-38) -/
def backportsLines (indent : Nat) (l : List (BackportRow × String)) : List (List Char) :=
  titleDescLines (l.map fun r => (r.1.1, [r.2 ++ " (" ++ reqString r.1.2 ++ ")"])) backportModules indent

/-- `Backports.str(indent, backports)` (backports.py:35-38) -/
def backportsStr (indent : Nat) (l : List (BackportRow × String)) : String := joinLines (backportsLines indent l)

/-- `Backports.expand_versions` (backports.py:59-64), with the links. -/
def expandInfos (m : String) : List (BackportRow × String) :=
  (backportInfos.filter fun r => versionFilter r.1.1 == m).reverse

/-- `FEATURES` (features.py:3-12) -/
def featureInfos : List (String × List String) := [
  ("fstring-self-doc", ["[Unstable] Detect self-documenting fstrings. Can in",
    "some cases wrongly report fstrings as self-documenting."]),
  ("union-types", ["[Unstable] Detect union types `X | Y`. Can in some cases",
    "wrongly report union types due to having to employ heuristics."])]

/-- The lines of `Features.str(indent)` (features.py:14-17) -/
def featuresLines (indent : Nat) : List (List Char) := titleDescLines featureInfos featureNames indent

/-- `FORMATS` (formats/__init__.py:6-15) -/
def formatInfos : List (String × List String) := [
  ("default", ["Default formatting."]),
  ("parsable", ["Each result is on form 'file:line:column:py2:py3:feature'. The",
    "last line has no path or line/column numbers and contains the",
    "minimum py2 and py3 versions. Minimum verbosity level is set to",
    "3 but can be increased. Tips, hints, incompatible versions, and",
    "`--versions` are disabled. File paths containing ':' are ignored."])]

/-- `formats.help_str(indent)` (formats/__init__.py:27-28) -/
def formatsLines (indent : Nat) : List (List Char) := titleDescLines formatInfos (formatInfos.map Prod.fst) indent

/-- `", ".join(["'{}'".format(n) for n in names])` (arguments.py:47-48) -/
def quotedNames (names : List String) : List Char :=
  join ", ".toList (names.map fun n => "'".toList ++ n.toList ++ "'".toList)

/-! ### Config files -/

/-- What `add_target` prints (config.py:404-406). -/
def Config.addTargetMsgs (c : Config) : List String :=
  if c.targets.length = 2 then ["A maximum of two targets can be specified!"] else []

/-- The first element that is rejected, with the config at that point. -/
def firstRejected (f : Config → String → Config × Bool) : Config → List String → Option (Config × String)
  | _, [] => none
  | c, x :: xs =>
    match f c x with
    | (c', true) => firstRejected f c' xs
    | (_, false) => some (c, x)

/-- What reading of a config file finds out from outside: the outcome of configparser, or the text of its exception. -/
abbrev IniRead := Except String Ini

/-- What `Config.parse_fp` prints (config.py:107-226); `.error` if it raises.  Nothing is printed before the exceptions.
`filename` is not empty. -/
def parseFpMsgs (cpus : Nat) (validRegex : String → Bool) (filename : String) (read : IniRead) : Except Err (List String) :=
  match read with
  | .error ex => .ok ["Could not load config: " ++ filename, ex]
  | .ok i =>
    match i.sect with
    | none => .ok ["Missing `[vermin]` section in config: " ++ filename]
    | some s => do
      let d := Config.init cpus
      let _ ← i.getBool s d "quiet"
      let _ ← i.getUint s d "verbose"
      let _ ← i.getBool s d "print_visits"
      let _ ← i.getUint s d "processes"
      let _ ← i.getBool s d "ignore_incomp"
      let _ ← i.getBool s d "pessimistic"
      let _ ← i.getBool s d "show_tips"
      let _ ← i.getBool s d "analyze_hidden"
      let _ ← i.getBool s d "eval_annotations"
      let _ ← i.getBool s d "only_show_violations"
      let _ ← i.getBool s d "parse_comments"
      let _ ← i.getBool s d "scan_symlink_folders"
      let _ ← i.getList s d "exclusions"
      let _ ← addRegexes validRegex d (← i.getList s d "exclusion_regex")
      let _ ← i.getBool s d "make_paths_absolute"
      match firstRejected Config.addBackport d (← i.getList s d "backports") with
      | some (_, b) => return ["Unknown backport: " ++ b]
      | none =>
        match firstRejected Config.enableFeature d (← i.getList s d "features") with
        | some (_, f) => return ["Unknown feature: " ++ f]
        | none =>
          match firstRejected (fun c t => c.addTarget (.text t)) d (← i.getList s d "targets") with
          | some (c, t) => return c.addTargetMsgs ++ ["Invalid target: " ++ t]
          | none =>
            match ← i.get s d "format" with
            | .text f =>
              match Fmt.fromName (String.ofList (strip f.toList)) with
              | none => return ["Unknown format: " ++ String.ofList (strip f.toList)]
              | some _ => return []
            | _ => .error .attributeError

/-- What `Config.parse_file` prints (config.py:89-96).  `exText` is the text of an exception; a file that cannot be opened
is the outcome `none`. -/
def parseFileMsgs (cpus : Nat) (validRegex : String → Bool) (exText : Err → String) (path : String) (read : Option IniRead) :
    List String :=
  match read with
  | none => ["Could not load config file: " ++ path, exText .osError]
  | some r =>
    match parseFpMsgs cpus validRegex path r with
    | .ok l => l
    | .error e => ["Could not load config file: " ++ path, exText e]

/-! ### The command line -/

/-- What messages depend on. -/
structure MsgEnv where
  args : ArgEnv
  /-- what `Config.parse_file` prints about a path -/
  fileMsgs : String → List String
  /-- the text of the exception if an exclusion file cannot be read -/
  readError : String → String

/-- The message about a missing value (arguments.py:303-362). -/
def missingValueMsg : Cmd → String
  | .format => "Format requires a name! Example: --format parsable"
  | .exclude => "Exclusion requires a name! Example: --exclude email.parser.FeedParser"
  | .excludeFile => "Exclusion requires a file name! Example: --exclude-file '~/exclusions.txt'"
  | .excludeRegex => "Exclusion requires a regex! Example: --exclude-regex '\\.pyi$'"
  | .backport => "Requires a backport name! Example: --backport typing"
  | .feature => "Requires a feature name! Example: --feature fstring-self-doc"
  | _ => ""

/-- The messages about an unknown backport (arguments.py:347-354). -/
def unknownBackportMsgs (name : String) : List String :=
  ["Unknown backport: " ++ name] ++
  (let l := expandInfos (versionFilter name)
   if l.length > 0 then ["Did you mean one of the following?", backportsStr 2 l] else []) ++
  ["Get the full list of backports via `--help`."]

/-- What one iteration of the main loop prints (arguments.py:240-400). -/
def argStepMsgs (env : MsgEnv) (arg : String) (next : Option String) (st : ArgState) : List String :=
  match classify arg with
  | .target =>
    match st.cfg.addTarget (.text (argValue arg)) with
    | (_, true) => []
    | (_, false) => st.cfg.addTargetMsgs ++ ["Invalid target: " ++ argValue arg]
  | .processes =>
    match int (argValue arg).toList with
    | none => ["Invalid value: " ++ argValue arg]
    | some n => if n ≤ 0 then ["Non-positive number: " ++ String.ofList (strInt n)] else []
  | .format =>
    match next with
    | none => [missingValueMsg .format]
    | some v =>
      match Fmt.fromName (String.ofList (lower v.toList)) with
      | none => ["Unknown format: " ++ String.ofList (lower v.toList)]
      | some _ => []
  | .exclude => if next.isNone then [missingValueMsg .exclude] else []
  | .excludeFile =>
    match next with
    | none => [missingValueMsg .excludeFile]
    | some v => if (env.args.readLines v).isNone then [env.readError v] else []
  | .excludeRegex => if next.isNone then [missingValueMsg .excludeRegex] else []
  | .backport =>
    match next with
    | none => [missingValueMsg .backport]
    | some v => if (st.cfg.addBackport v).2 then [] else unknownBackportMsgs v
  | .feature =>
    match next with
    | none => [missingValueMsg .feature]
    | some v => if (st.cfg.enableFeature v).2 then [] else ["Unknown feature: " ++ v]
  | _ => []

/-- What the main loop prints. -/
def argLoopMsgs (env : MsgEnv) : List String → ArgState → List String
  | [], _ => []
  | a :: rest, st =>
    argStepMsgs env a rest.head? st ++
    match argStep env.args a rest.head? st with
    | .error _ => []
    | .ok st' => argLoopMsgs env rest st'

/-- What the preparsing loop prints (arguments.py:209-221). -/
def preArgsMsgs : List String → List String
  | [] => []
  | a :: rest =>
    if a ∈ ["--help", "-h"] then []
    else if a ∈ ["--version", "-V"] then [versionText]
    else if a ∈ ["--config-file", "-c"] ∧ rest = [] then
      ["Requires config file path! Example: --config-file /path/to/vermin.ini"]
    else preArgsMsgs rest

/-- What is printed after the main loop (arguments.py:402-423).  `detected` is the path of a config file that was loaded
because it was detected. -/
def argFinishMsgs (detected : Option String) (st : ArgState) : List String :=
  let c := st.formatted
  if c.onlyShowViolations && c.targets.isEmpty then ["Showing violations requires target(s) to be specified!"]
  else
    let c := if c.onlyShowViolations && decide (c.verbose < 2) then { c with verbose := 2 } else c
    if c.quiet && decide (c.verbose > 0) && !c.onlyShowViolations then ["Cannot use quiet and verbose modes together!"]
    else
      match detected with
      | some p => if c.format ≠ .parsable && !c.quiet then ["Using detected config: " ++ p] else []
      | none => []

/-- What `Arguments.parse` prints (arguments.py:194-428). -/
def parseArgsMsgs (env : MsgEnv) (args : List String) (config : Config) : List String :=
  if args.isEmpty then []
  else
    match env.args.detected with
    | .error _ => []
    | .ok detected =>
      match preArgs env.args args { noConfig := false, argConfig := none } with
      | .error _ => preArgsMsgs args
      | .ok pre =>
        let detected := if pre.noConfig then none else detected
        let argConfig := pre.argConfig.filter (· ≠ "")
        if pre.noConfig && argConfig.isSome then ["--config-file cannot be used together with --no-config-file!"]
        else
          let run := fun (config : Config) (used : Option String) =>
            let st : ArgState := { cfg := config, pathPos := 0, versions := false, fmt := none }
            argLoopMsgs env args st ++
            match argLoop env.args args st with
            | .error _ => []
            | .ok st => argFinishMsgs used st
          match argConfig with
          | some p =>
            env.fileMsgs p ++
            match env.args.parseFile p with
            | none => []
            | some c => run (config.overrideFrom c) none
          | none =>
            match detected.filter (· ≠ "") with
            | none => run config none
            | some p =>
              env.fileMsgs p ++
              match env.args.parseFile p with
              | none => []
              | some c => run (config.overrideFrom c) (some p)

end Vermin
