import Verif.Model.Config
/-
Models reading of config files (config.py:89-226) and their detection (config.py:228-264).
The INI syntax itself (Python's configparser) is not modelled: the input is what configparser has read.
-/
namespace Vermin
open Py

/-- The value of an option: absent value (`allow_no_value`), a text after interpolation, or a text whose interpolation
fails when it is fetched. -/
inductive IniVal where
  | noValue
  | text (s : String)
  | badInterp
  deriving DecidableEq, Repr

/-- What configparser has read: entries of `[DEFAULT]` and, if there is one, of `[vermin]`. -/
structure Ini where
  dflt : Dict String IniVal
  sect : Option (Dict String IniVal)
  deriving Repr

/-- `str(b)` -/
def strBool (b : Bool) : String := if b then "True" else "False"

/-- `"\n".join(iterable)` (config.py:112-113) -/
def encodeList (l : List String) : String := String.ofList (join ['\n'] (l.map String.toList))

/-- The default values given to the parser (config.py:115-136).  All lists of a fresh config are empty. -/
def iniDefaults (c : Config) : Dict String IniVal := [
  ("quiet", .text (strBool c.quiet)),
  ("verbose", .text (String.ofList (strNat c.verbose))),
  ("print_visits", .text (strBool c.printVisits)),
  ("processes", .text (String.ofList (strNat c.processes))),
  ("ignore_incomp", .text (strBool c.ignoreIncomp)),
  ("pessimistic", .text (strBool c.pessimistic)),
  ("show_tips", .text (strBool c.showTips)),
  ("analyze_hidden", .text (strBool c.analyzeHidden)),
  ("exclusions", .text (encodeList c.sortedExclusions)),
  ("exclusion_regex", .text (encodeList c.sortedExclusionRegex)),
  ("make_paths_absolute", .text (strBool c.makePathsAbsolute)),
  ("backports", .text (encodeList c.backports)),
  ("features", .text (encodeList c.features)),
  ("targets", .text (encodeList [])),
  ("eval_annotations", .text (strBool c.evalAnnotations)),
  ("only_show_violations", .text (strBool c.onlyShowViolations)),
  ("parse_comments", .text (strBool c.parseComments)),
  ("scan_symlink_folders", .text (strBool c.scanSymlinkFolders)),
  ("format", .text c.format.name)]

/-- `parser.defaults()`: the given defaults, overridden by the file's `[DEFAULT]` section. -/
def Ini.defaults (i : Ini) (c : Config) (opt : String) : Option IniVal :=
  match Dict.get? i.dflt opt with
  | some v => some v
  | none => Dict.get? (iniDefaults c) opt

/-- `parser.get("vermin", opt)`. -/
def Ini.get (i : Ini) (s : Dict String IniVal) (c : Config) (opt : String) : Except Err IniVal :=
  match Dict.get? s opt with
  | some .badInterp => .error .regexError
  | some v => .ok v
  | none =>
    match i.defaults c opt with
    | some .badInterp => .error .regexError
    | some v => .ok v
    | none => .error .keyError

/-- `RawConfigParser.BOOLEAN_STATES` of configparser. -/
def booleanState (s : String) : Option Bool :=
  let l := String.ofList (lower s.toList)
  if l = "1" ∨ l = "yes" ∨ l = "true" ∨ l = "on" then some true
  else if l = "0" ∨ l = "no" ∨ l = "false" ∨ l = "off" then some false
  else none

/-- `getbool` (config.py:163-167) -/
def Ini.getBool (i : Ini) (s : Dict String IniVal) (c : Config) (opt : String) : Except Err Bool := do
  match ← i.get s c opt with
  | .text t =>
    match booleanState t with
    | some b => .ok b
    | none =>
      match i.defaults c opt with
      | some v => .ok (decide (v = .text "True"))
      | none => .error .keyError
  | _ => .error .attributeError

/-- `getuint` (config.py:169-176) -/
def Ini.getUint (i : Ini) (s : Dict String IniVal) (c : Config) (opt : String) : Except Err Nat := do
  match ← i.get s c opt with
  | .text t =>
    if t.length = 0 then
      match i.defaults c opt with
      | some (.text d) =>
        match int d.toList with
        | some n => .ok n.toNat
        | none => .error .valueError
      | some _ => .error .typeError
      | none => .error .keyError
    else match int t.toList with
      | none => .error .valueError
      | some n => if n < 0 then .error .valueError else .ok n.toNat
  | _ => .error .typeError

/-- `getstringlist` (config.py:178-180) -/
def Ini.getList (i : Ini) (s : Dict String IniVal) (c : Config) (opt : String) : Except Err (List String) := do
  match ← i.get s c opt with
  | .text t => .ok ((splitlines (strip t.toList)).map String.ofList)
  | _ => .error .attributeError

/-- Adding every element with a function that may reject; `none` as soon as one is rejected. -/
def addEach (f : Config → String → Config × Bool) : Config → List String → Option Config
  | c, [] => some c
  | c, x :: xs =>
    match f c x with
    | (c', true) => addEach f c' xs
    | (_, false) => none

/-- Adding regexes (config.py:198-199): a pattern that does not compile raises `re.error`. -/
def addRegexes (validRegex : String → Bool) : Config → List String → Except Err Config
  | c, [] => .ok c
  | c, x :: xs => if validRegex x then addRegexes validRegex (c.addExclusionRegex x) xs else .error .regexError

/-- `Config.parse_fp` (config.py:107-226).  `read` is `none` if configparser could not read the file.  Deviation: a default
number below zero in `[DEFAULT]` with an empty option is read as 0. -/
def parseFp (cpus : Nat) (validRegex : String → Bool) (read : Option Ini) : Except Err (Option Config) :=
  match read with
  | none => .ok none
  | some i =>
    match i.sect with
    | none => .ok none
    | some s => do
      let d := Config.init cpus
      let c := d
      let c := { c with quiet := ← i.getBool s d "quiet" }
      let c := { c with verbose := ← i.getUint s d "verbose" }
      let c := { c with printVisits := ← i.getBool s d "print_visits" }
      let c := c.setProcesses cpus (← i.getUint s d "processes")
      let c := { c with ignoreIncomp := ← i.getBool s d "ignore_incomp" }
      let c := { c with pessimistic := ← i.getBool s d "pessimistic" }
      let c := { c with showTips := ← i.getBool s d "show_tips" }
      let c := { c with analyzeHidden := ← i.getBool s d "analyze_hidden" }
      let c := { c with evalAnnotations := ← i.getBool s d "eval_annotations" }
      let c := { c with onlyShowViolations := ← i.getBool s d "only_show_violations" }
      let c := { c with parseComments := ← i.getBool s d "parse_comments" }
      let c := { c with scanSymlinkFolders := ← i.getBool s d "scan_symlink_folders" }
      let c := (← i.getList s d "exclusions").foldl Config.addExclusion c
      let c ← addRegexes validRegex c (← i.getList s d "exclusion_regex")
      let c := { c with makePathsAbsolute := ← i.getBool s d "make_paths_absolute" }
      match addEach Config.addBackport c (← i.getList s d "backports") with
      | none => return none
      | some c =>
        match addEach Config.enableFeature c (← i.getList s d "features") with
        | none => return none
        | some c =>
          match addEach (fun c t => c.addTarget (.text t)) c (← i.getList s d "targets") with
          | none => return none
          | some c =>
            match ← i.get s d "format" with
            | .text f =>
              match Fmt.fromName (String.ofList (strip f.toList)) with
              | none => return none
              | some f => return some (c.setFormat f)
            | _ => .error .attributeError

/-- `Config.parse_file` / `parse_data` (config.py:89-105): every exception is reported and yields `None`. -/
def parseFile (cpus : Nat) (validRegex : String → Bool) (read : Option Ini) : Option Config :=
  match parseFp cpus validRegex read with
  | .ok r => r
  | .error _ => none

/-! ### Detection of config files -/

/-- `CONFIG_FILE_NAMES` (constants.py:5) -/
def configFileNames : List String := ["vermin.ini", "vermin.conf", ".vermin", "setup.cfg"]

/-- `PROJECT_BOUNDARIES` (constants.py:8-17) -/
def projectBoundaries : List String :=
  [".bzr", ".fslckout", ".git", ".hg", ".p4root", ".pijul", ".svn", "_darcs"]

/-- What configparser makes of a file (config.py:238-245). -/
inductive CfgRead where
  /-- it was read; the flag tells whether there is a `[vermin]` section -/
  | read (hasSection : Bool)
  /-- it cannot be opened: `cp.read` skips it -/
  | unreadable
  /-- `ParsingError`, ignored by the code -/
  | parsingError
  /-- any other exception (duplicate section or option, undecodable text): not caught -/
  | crash (e : Err)
  deriving DecidableEq, Repr

/-- A folder: its components from the innermost to the outermost; `[]` is the root.  Absolute, normalised POSIX paths. -/
abbrev Folder := List String

/-- The part of the file system the search looks at: which entries of a folder exist, and as config file. -/
structure CfgFs where
  /-- `os.path.exists(os.path.join(folder, name))` -/
  exist : Folder → String → Bool
  read : Folder → String → CfgRead

/-- The candidates of one folder (config.py:235-245). -/
def searchFolder (fs : CfgFs) (f : Folder) : List String → Except Err (Option String)
  | [] => .ok none
  | n :: ns =>
    if fs.exist f n then
      match fs.read f n with
      | .read true => .ok (some n)
      | .crash e => .error e
      | _ => searchFolder fs f ns
    else searchFolder fs f ns

/-- `Config.detect_config_file` (config.py:228-264) from an absolute folder: the folder and name of the file found. -/
def detectConfigFile (fs : CfgFs) : Folder → Except Err (Option (Folder × String))
  | [] => do
    match ← searchFolder fs [] configFileNames with
    | some n => return some ([], n)
    | none => return none
  | d :: up => do
    match ← searchFolder fs (d :: up) configFileNames with
    | some n => return some (d :: up, n)
    | none =>
      if projectBoundaries.any (fs.exist (d :: up)) then return none
      else detectConfigFile fs up

end Vermin
