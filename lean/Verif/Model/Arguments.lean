import Verif.Model.ConfigFile
/-
Models vermin/arguments.py: `Arguments.parse` (arguments.py:194-428).  Help texts and messages are not modelled, only the
outcome.
-/
namespace Vermin
open Py

/-- What argument parsing needs from outside. -/
structure ArgEnv where
  /-- `Config.detect_config_file(detect_folder)`: a path or none -/
  detected : Except Err (Option String)
  /-- `os.path.abspath` -/
  abspath : String → String
  /-- `Config.parse_file` of a path -/
  parseFile : String → Option Config
  /-- whether `re.compile` accepts a pattern -/
  validRegex : String → Bool
  /-- the lines of an exclusion file; `none` if it cannot be opened (a warning is printed) -/
  readLines : String → Option (List String)
  /-- number of CPUs -/
  cpus : Nat

/-- How parsing can end other than with paths. -/
inductive ArgStop where
  /-- `{"code": 1}` after an error message -/
  | error
  /-- `{"code": c, "usage": True, "full": f}` -/
  | usage (code : Nat) (full : Bool)
  /-- `sys.exit(0)` after `--version` -/
  | exit0
  /-- an exception leaves `parse` -/
  | raised (e : Err)
  deriving DecidableEq, Repr

/-- On/off switches. -/
inductive Switch where
  | quiet | dump | hidden | ignore | tips | absolute | pessimistic | evalAnnotations | violations | comments | symlinks
  deriving DecidableEq, Repr

/-- The branches of the option chain. -/
inductive Cmd where
  | configFile
  | switch (s : Switch) (on : Bool)
  | verbose
  | target
  | noTarget
  | processes
  | versions
  | format
  | exclude
  | excludeFile
  | noExclude
  | excludeRegex
  | noExcludeRegex
  | backport
  | noBackport
  | feature
  | noFeature
  | other
  deriving DecidableEq, Repr

/-- The conditions of the `if`/`elif` chain, in order (arguments.py:241-400). -/
def classify (arg : String) : Cmd :=
  if arg ∈ ["--config-file", "-c"] then .configFile
  else if arg ∈ ["--quiet", "-q"] then .switch .quiet true
  else if arg = "--no-quiet" then .switch .quiet false
  else if startsWith "-v".toList arg.toList then .verbose
  else if startsWith "-t=".toList arg.toList || startsWith "--target=".toList arg.toList then .target
  else if arg = "--no-target" then .noTarget
  else if arg ∈ ["--ignore", "-i"] then .switch .ignore true
  else if arg = "--no-ignore" then .switch .ignore false
  else if startsWith "-p=".toList arg.toList || startsWith "--processes=".toList arg.toList then .processes
  else if arg = "--no-dump" then .switch .dump false
  else if arg ∈ ["--dump", "-d"] then .switch .dump true
  else if arg = "--hidden" then .switch .hidden true
  else if arg = "--no-hidden" then .switch .hidden false
  else if arg = "--versions" then .versions
  else if arg = "--show-tips" then .switch .tips true
  else if arg = "--no-tips" then .switch .tips false
  else if arg ∈ ["--format", "-f"] then .format
  else if arg = "--exclude" then .exclude
  else if arg = "--exclude-file" then .excludeFile
  else if arg = "--no-exclude" then .noExclude
  else if arg = "--exclude-regex" then .excludeRegex
  else if arg = "--no-exclude-regex" then .noExcludeRegex
  else if arg = "--make-paths-absolute" then .switch .absolute true
  else if arg = "--no-make-paths-absolute" then .switch .absolute false
  else if arg = "--backport" then .backport
  else if arg = "--no-backport" then .noBackport
  else if arg = "--feature" then .feature
  else if arg = "--no-feature" then .noFeature
  else if arg = "--pessimistic" then .switch .pessimistic true
  else if arg = "--no-pessimistic" then .switch .pessimistic false
  else if arg = "--eval-annotations" then .switch .evalAnnotations true
  else if arg = "--no-eval-annotations" then .switch .evalAnnotations false
  else if arg ∈ ["--violations", "--lint"] then .switch .violations true
  else if arg ∈ ["--no-violations", "--no-lint"] then .switch .violations false
  else if arg = "--parse-comments" then .switch .comments true
  else if arg = "--no-parse-comments" then .switch .comments false
  else if arg = "--scan-symlink-folders" then .switch .symlinks true
  else if arg = "--no-symlink-folders" then .switch .symlinks false
  else .other

/-- The setters of the switches. -/
def Config.setSwitch (c : Config) (s : Switch) (b : Bool) : Config :=
  match s with
  | .quiet => { c with quiet := b }
  | .dump => { c with printVisits := b }
  | .hidden => { c with analyzeHidden := b }
  | .ignore => { c with ignoreIncomp := b }
  | .tips => { c with showTips := b }
  | .absolute => { c with makePathsAbsolute := b }
  | .pessimistic => { c with pessimistic := b }
  | .evalAnnotations => { c with evalAnnotations := b }
  | .violations => { c with onlyShowViolations := b }
  | .comments => { c with parseComments := b }
  | .symlinks => { c with scanSymlinkFolders := b }

/-- The getters of the switches. -/
def Config.getSwitch (c : Config) (s : Switch) : Bool :=
  match s with
  | .quiet => c.quiet
  | .dump => c.printVisits
  | .hidden => c.analyzeHidden
  | .ignore => c.ignoreIncomp
  | .tips => c.showTips
  | .absolute => c.makePathsAbsolute
  | .pessimistic => c.pessimistic
  | .evalAnnotations => c.evalAnnotations
  | .violations => c.onlyShowViolations
  | .comments => c.parseComments
  | .symlinks => c.scanSymlinkFolders

/-- Variables of the main loop. -/
structure ArgState where
  cfg : Config
  pathPos : Nat
  versions : Bool
  fmt : Option Fmt
  deriving DecidableEq, Repr

/-- `arg.split("=")[1]`, for an argument containing `=`. -/
def argValue (arg : String) : String :=
  match splitOn (· == '=') arg.toList with
  | _ :: v :: _ => String.ofList v
  | _ => ""

/-- One iteration of the main loop, the bodies of the chain (arguments.py:241-400).  `next` is `args[i + 1]`, if any. -/
def argStep (env : ArgEnv) (arg : String) (next : Option String) (st : ArgState) : Except ArgStop ArgState :=
  match classify arg with
  | .configFile => .ok { st with pathPos := st.pathPos + 2 }
  | .switch s b => .ok { st with cfg := st.cfg.setSwitch s b, pathPos := st.pathPos + 1 }
  | .verbose =>
    .ok { st with cfg := { st.cfg with verbose := (arg.toList.filter (· == 'v')).length }, pathPos := st.pathPos + 1 }
  | .target =>
    match st.cfg.addTarget (.text (argValue arg)) with
    | (c, true) => .ok { st with cfg := c, pathPos := st.pathPos + 1 }
    | (_, false) => .error .error
  | .noTarget => .ok { st with cfg := st.cfg.clearTargets, pathPos := st.pathPos + 1 }
  | .processes =>
    match int (argValue arg).toList with
    | none => .error .error
    | some n =>
      if n ≤ 0 then .error .error
      else .ok { st with cfg := st.cfg.setProcesses env.cpus n, pathPos := st.pathPos + 1 }
  | .versions => .ok { st with versions := true, pathPos := st.pathPos + 1 }
  | .format =>
    match next with
    | none => .error .error
    | some v =>
      match Fmt.fromName (String.ofList (lower v.toList)) with
      | none => .error .error
      | some f => .ok { st with fmt := some f, pathPos := st.pathPos + 2 }
  | .exclude =>
    match next with
    | none => .error .error
    | some v => .ok { st with cfg := st.cfg.addExclusion v, pathPos := st.pathPos + 2 }
  | .excludeFile =>
    match next with
    | none => .error .error
    | some v =>
      match env.readLines v with
      | none => .ok { st with pathPos := st.pathPos + 2 }
      | some ls => .ok { st with cfg := st.cfg.addExclusionLines ls, pathPos := st.pathPos + 2 }
  | .noExclude => .ok { st with cfg := st.cfg.clearExclusions, pathPos := st.pathPos + 1 }
  | .excludeRegex =>
    match next with
    | none => .error .error
    | some v =>
      if env.validRegex v then .ok { st with cfg := st.cfg.addExclusionRegex v, pathPos := st.pathPos + 2 }
      else .error (.raised .regexError)
  | .noExcludeRegex => .ok { st with cfg := st.cfg.clearExclusionRegex, pathPos := st.pathPos + 1 }
  | .backport =>
    match next with
    | none => .error .error
    | some v =>
      match st.cfg.addBackport v with
      | (c, true) => .ok { st with cfg := c, pathPos := st.pathPos + 2 }
      | (_, false) => .error .error
  | .noBackport => .ok { st with cfg := st.cfg.clearBackports, pathPos := st.pathPos + 1 }
  | .feature =>
    match next with
    | none => .error .error
    | some v =>
      match st.cfg.enableFeature v with
      | (c, true) => .ok { st with cfg := c, pathPos := st.pathPos + 2 }
      | (_, false) => .error .error
  | .noFeature => .ok { st with cfg := st.cfg.clearFeatures, pathPos := st.pathPos + 1 }
  | .other => .ok st

/-- The main loop (arguments.py:240-400): every argument is looked at, also values of options and paths. -/
def argLoop (env : ArgEnv) : List String → ArgState → Except ArgStop ArgState
  | [], st => .ok st
  | a :: rest, st =>
    match argStep env a rest.head? st with
    | .error e => .error e
    | .ok st' => argLoop env rest st'

/-- Variables of the preparsing step. -/
structure PreArgs where
  noConfig : Bool
  argConfig : Option String
  deriving DecidableEq, Repr

/-- The preparsing loop (arguments.py:209-221). -/
def preArgs (env : ArgEnv) : List String → PreArgs → Except ArgStop PreArgs
  | [], p => .ok p
  | a :: rest, p =>
    if a ∈ ["--help", "-h"] then .error (.usage 0 true)
    else if a ∈ ["--version", "-V"] then .error .exit0
    else
      let p := if a = "--no-config-file" then { p with noConfig := true } else p
      if a ∈ ["--config-file", "-c"] then
        match rest.head? with
        | none => .error .error
        | some v => preArgs env rest { p with argConfig := some (env.abspath v) }
      else preArgs env rest p

/-- The result of successful parsing: `{"code": 0, "paths": .., "versions": ..}` and the config as modified. -/
structure Parsed where
  paths : List String
  versions : Bool
  cfg : Config
  deriving DecidableEq, Repr

/-- `if fmt is not None: config.set_format(fmt)` (arguments.py:402-403) -/
def ArgState.formatted (st : ArgState) : Config :=
  match st.fmt with
  | none => st.cfg
  | some f => st.cfg.setFormat f

/-- The checks after the main loop (arguments.py:402-428). -/
def argFinish (args : List String) (st : ArgState) : Except ArgStop Parsed :=
  let c := st.formatted
  if c.onlyShowViolations && c.targets.isEmpty then .error .error
  else
    let c := if c.onlyShowViolations && decide (c.verbose < 2) then { c with verbose := 2 } else c
    if c.quiet && decide (c.verbose > 0) && !c.onlyShowViolations then .error .error
    else .ok { paths := args.drop st.pathPos, versions := st.versions && decide (c.format ≠ .parsable), cfg := c }

/-- `Arguments.parse` (arguments.py:194-428).  The candidate file is falsy if it is the empty text. -/
def parseArgs (env : ArgEnv) (args : List String) (config : Config) : Except ArgStop Parsed :=
  if args.isEmpty then .error (.usage 1 false)
  else
    match env.detected with
    | .error e => .error (.raised e)
    | .ok detected =>
      match preArgs env args { noConfig := false, argConfig := none } with
      | .error e => .error e
      | .ok pre =>
        let detected := if pre.noConfig then none else detected
        let argConfig := pre.argConfig.filter (· ≠ "")
        if pre.noConfig && argConfig.isSome then .error .error
        else
          let cand := match argConfig with
            | some p => some p
            | none => detected.filter (· ≠ "")
          match cand with
          | none =>
            match argLoop env args { cfg := config, pathPos := 0, versions := false, fmt := none } with
            | .error e => .error e
            | .ok st => argFinish args st
          | some p =>
            match env.parseFile p with
            | none => .error .error
            | some c =>
              match argLoop env args { cfg := config.overrideFrom c, pathPos := 0, versions := false, fmt := none } with
              | .error e => .error e
              | .ok st => argFinish args st

end Vermin
