import Verif.Model.Utility
import Verif.Model.Rules
/-
Models vermin/config.py (settings), vermin/features.py and the configuration part of vermin/formats/.
-/
namespace Vermin
open Py

/-- The two formats (formats/__init__.py:6-15). -/
inductive Fmt where
  | default
  | parsable
  deriving DecidableEq, Repr

/-- `Format.name()` -/
def Fmt.name : Fmt → String
  | .default => "default"
  | .parsable => "parsable"

/-- `formats.from_name` (formats/__init__.py:20-25) -/
def Fmt.fromName (s : String) : Option Fmt :=
  if s = "default" then some .default
  else if s = "parsable" then some .parsable
  else none

/-- `FEATURES` (features.py:3-12), names only. -/
def featureNames : List String := ["fstring-self-doc", "union-types"]

/-- `Features.is_feature` (features.py:23-25) -/
def isFeature (s : String) : Bool := featureNames.contains s

/-- `set.add`; sets are lists without duplicates of which only membership is observed (`sorted` where an order is). -/
def addSet (s : List String) (x : String) : List String := if s.contains x then s else s ++ [x]

/-- The settings of a `Config` (config.py:19-38).  A compiled regex is represented by its pattern.  The format object is
represented by its kind: its back reference always is the config that holds it (config.py:374-377).  Negative verbosity,
possible only through the Python API, is not represented. -/
structure Config where
  quiet : Bool
  verbose : Nat
  printVisits : Bool
  processes : Nat
  ignoreIncomp : Bool
  pessimistic : Bool
  showTips : Bool
  analyzeHidden : Bool
  exclusions : List String
  exclusionRegex : List String
  makePathsAbsolute : Bool
  backports : List String
  features : List String
  targets : List Target
  evalAnnotations : Bool
  onlyShowViolations : Bool
  parseComments : Bool
  scanSymlinkFolders : Bool
  format : Fmt
  deriving DecidableEq, Repr

namespace Config

/-- `set_format` (config.py:374-377) with the formats' `set_config` (format.py:16-17, parsable_format.py:10-14). -/
def setFormat (c : Config) (f : Fmt) : Config :=
  match f with
  | .default => { c with format := .default }
  | .parsable =>
    { c with verbose := max 3 c.verbose, ignoreIncomp := true, showTips := false, format := .parsable }

/-- `Config()` / `reset` (config.py:16-38).  `cpus` is `DEFAULT_PROCESSES`, the number of CPUs (constants.py:4). -/
def init (cpus : Nat) : Config :=
  setFormat {
    quiet := false, verbose := 0, printVisits := false, processes := cpus, ignoreIncomp := false, pessimistic := false,
    showTips := true, analyzeHidden := false, exclusions := [], exclusionRegex := [], makePathsAbsolute := true,
    backports := [], features := [], targets := [], evalAnnotations := false, onlyShowViolations := false,
    parseComments := true, scanSymlinkFolders := false, format := .default } .default

/-- `set_processes` (config.py:287-288) -/
def setProcesses (cpus : Nat) (c : Config) (n : Int) : Config :=
  { c with processes := if n > 0 then n.toNat else cpus }

/-- `add_exclusion` (config.py:296-297) -/
def addExclusion (c : Config) (x : String) : Config := { c with exclusions := addSet c.exclusions x }
/-- `add_exclusion_regex` (config.py:299-300), for a pattern that compiles -/
def addExclusionRegex (c : Config) (x : String) : Config := { c with exclusionRegex := addSet c.exclusionRegex x }
/-- `add_exclusion_file` (config.py:302-308), given the lines of the file -/
def addExclusionLines (c : Config) (ls : List String) : Config :=
  ls.foldl (fun c l => c.addExclusion (String.ofList (strip l.toList))) c
/-- `clear_exclusions` (config.py:310-311) -/
def clearExclusions (c : Config) : Config := { c with exclusions := [] }
/-- `clear_exclusion_regex` (config.py:313-314) -/
def clearExclusionRegex (c : Config) : Config := { c with exclusionRegex := [] }
/-- `exclusions()` (config.py:316-319) -/
def sortedExclusions (c : Config) : List String := sort leStr c.exclusions
/-- `exclusion_regex()` (config.py:321-324) -/
def sortedExclusionRegex (c : Config) : List String := sort leStr c.exclusionRegex
/-- `is_excluded` (config.py:326-327) -/
def isExcluded (c : Config) (x : String) : Bool := c.exclusions.contains x
/-- `is_excluded_kwarg` (config.py:329-330) -/
def isExcludedKwarg (c : Config) (f k : String) : Bool := c.exclusions.contains (f ++ "(" ++ k ++ ")")
/-- `is_excluded_codecs_error_handler` (config.py:332-333) -/
def isExcludedErrorHandler (c : Config) (x : String) : Bool := c.exclusions.contains ("ceh=" ++ x)
/-- `is_excluded_codecs_encoding` (config.py:335-336) -/
def isExcludedEncoding (c : Config) (x : String) : Bool := c.exclusions.contains ("ce=" ++ x)
/-- `is_excluded_by_regex` (config.py:338-339); `search` is the regex engine. -/
def isExcludedByRegex (search : String → String → Bool) (c : Config) (path : String) : Bool :=
  c.exclusionRegex.any fun r => search r path

/-- `add_backport` (config.py:347-351) -/
def addBackport (c : Config) (x : String) : Config × Bool :=
  if isBackport x then ({ c with backports := addSet c.backports x }, true) else (c, false)
/-- `clear_backports` (config.py:353-354) -/
def clearBackports (c : Config) : Config := { c with backports := [] }
/-- `enable_feature` (config.py:359-363) -/
def enableFeature (c : Config) (x : String) : Config × Bool :=
  if isFeature x then ({ c with features := addSet c.features x }, true) else (c, false)
/-- `has_feature` (config.py:365-366) -/
def hasFeature (c : Config) (x : String) : Bool := c.features.contains x
/-- `clear_features` (config.py:368-369) -/
def clearFeatures (c : Config) : Config := { c with features := [] }

/-- The argument of `add_target`: a text, a version tuple (bundled with `exact`), a pair `[exact, version]`, or anything
else that fails the shape test (config.py:408-421). -/
inductive TargetArg where
  | text (s : String)
  | ver (v : Ver)
  | pair (exact : Bool) (v : Ver)
  | bad
  deriving DecidableEq, Repr

/-- The order `sort(key=lambda t: t[1])` sorts targets by (config.py:425). -/
def targetLe (a b : Target) : Bool := decide (a.2 ≤ b.2)

/-- `self.__targets.append(target); sort` (config.py:423-425) -/
def pushTarget (c : Config) (t : Target) : Config := { c with targets := sort targetLe (c.targets ++ [t]) }

/-- `add_target` (config.py:400-426).  `None` and `False` are both falsy and both `false` here. -/
def addTarget (c : Config) (a : TargetArg) (exact : Bool := true) : Config × Bool :=
  if c.targets.length = 2 then (c, false)
  else match a with
    | .ver v => (c.pushTarget (exact, v), true)
    | .pair e v => (c.pushTarget (e, v), true)
    | .text s =>
      match parseTarget s with
      | none => (c, false)
      | some t => (c.pushTarget t, true)
    | .bad => (c, false)

/-- `clear_targets` (config.py:428-429) -/
def clearTargets (c : Config) : Config := { c with targets := [] }

/-- `override_from` (config.py:40-59), by value.  Simplification: Python shares the backport, feature and target
containers between both configs afterwards; the only caller (arguments.py:237) drops the other config. -/
def overrideFrom (_self other : Config) : Config :=
  setFormat {
    quiet := other.quiet, verbose := other.verbose, printVisits := other.printVisits, processes := other.processes,
    ignoreIncomp := other.ignoreIncomp, pessimistic := other.pessimistic, showTips := other.showTips,
    analyzeHidden := other.analyzeHidden, exclusions := other.sortedExclusions,
    exclusionRegex := other.sortedExclusionRegex, makePathsAbsolute := other.makePathsAbsolute,
    backports := other.backports, features := other.features, targets := other.targets,
    evalAnnotations := other.evalAnnotations, onlyShowViolations := other.onlyShowViolations,
    parseComments := other.parseComments, scanSymlinkFolders := other.scanSymlinkFolders,
    format := _self.format } other.format

end Config
end Vermin
