import Verif.Model.Processor
/-
Models vermin/main.py from the processor result to the exit code (main.py:70-153).  The rest of `main` is in Program.lean.
-/
namespace Vermin
open Py

/-- `incomps` (main.py:74-78): `None` components as major numbers. -/
def incompsOf (mins : Req) : List Nat :=
  (if mins.py2.isNone then [2] else []) ++ (if mins.py3.isNone then [3] else [])

/-- `reqs` (main.py:75-80).  A version tuple never equals 0, so every component that is not `None` is taken. -/
def reqsOf (mins : Req) : List Ver := mins.py2.toList ++ mins.py3.toList

/-- `sorted(backports - Backports.unversioned_filter(config.backports()))` (main.py:96) -/
def uniqueBackports (cfg : Config) (bps : List String) : List String :=
  sort leStr (bps.filter fun b => !(unversionedFilter cfg.backports).contains b)

/-- `", ".join` -/
def joinStr (sep : String) (l : List String) : String := String.ofList (join sep.toList (l.map String.toList))

/-- The tips (main.py:88-106). -/
def tipsOf (cfg : Config) (r : ProcAcc) : List (List String) :=
  (if r.maybeAnnotations && !cfg.evalAnnotations then
    [["Generic or literal annotations might be in use. If so, try using: --eval-annotations",
      "But check the caveat section: https://github.com/netromdk/vermin#caveats"]] else []) ++
  (let u := uniqueBackports cfg r.backports
   if u.length > 0 then
    [["You're using potentially backported modules: " ++ joinStr ", " u,
      "If so, try using the following for better results: " ++
        String.ofList (strip (joinStr "" (u.map fun n => " --backport " ++ n)).toList)]] else []) ++
  (if !r.usedNovermin && cfg.parseComments then
    [["Since '# novm' or '# novermin' weren't used, a speedup can be achieved using: --no-parse-comments"]] else [])

/-- The lines showing the tips (main.py:108-118). -/
def printTips (cfg : Config) (reqs : List Ver) (tips : List (List String)) : List String :=
  if tips.length > 0 then
    (if reqs.length = 0 ∨ (reqs = [Ver.zero, Ver.zero] ∧ cfg.verbose > 0) ∨ (reqs.length > 0 ∧ 0 < cfg.verbose ∧ cfg.verbose < 2)
      then nprint cfg "" else []) ++
    nprint cfg "Tips:" ++
    (tips.flatMap fun t => nprint cfg ("- " ++ joinStr "\n  " t)) ++
    nprint cfg "(disable using: --no-tips)" ++
    (if reqs.length > 0 then nprint cfg "" else [])
  else []

/-- `[req.replace("~", "") for req in version_strings(reqs, ",").split(",") if "~" in req]` (main.py:125) -/
def unknownMajors (s : String) : List String :=
  ((splitOn (· == ',') s.toList).filter fun w => w.contains '~').map fun w => String.ofList (replaceChar '~' [] w)

/-- The text of a target (main.py:149): `dotted_name(t)` and `-` if not exact. -/
def targetText (t : Target) : String :=
  String.ofList (strNat t.2.major ++ ['.'] ++ strNat t.2.minor ++ (if t.1 then [] else ['-']))

/-- `all_inconclusive` (main.py:145-146) -/
def allInconclusive (cfg : Config) (reqs : List Ver) : Bool :=
  cfg.onlyShowViolations && decide (reqs.length > 0) && reqs.all fun r => decide (r = Ver.zero)

/-- The note and the dead message (main.py:70-86). -/
def reportHead (cfg : Config) (r : ProcAcc) : List String :=
  (if r.incomp && !cfg.ignoreIncomp then
    nprint cfg "Note: Some files had incompatible versions so the results might not be correct!" else []) ++
  (if !decide (cfg.format = .parsable) && (reqsOf r.mins).isEmpty && (incompsOf r.mins).isEmpty then
    nprint cfg "No known reason found that it will not work with 2+ and 3+." ++
    nprint cfg "Please report if it does not: https://github.com/netromdk/vermin/issues/" else [])

/-- The "not enough evidence" note (main.py:124-127). -/
def reportNote (cfg : Config) (reqs : List Ver) : Except Err (List String) :=
  if reqs.any fun q => decide (q = Ver.zero) then do
    let s ← versionStrings (reqs.map VVal.tup) ","
    pure (nprint cfg ("Note: Not enough evidence to conclude it won't work with Python " ++
      joinStr " or " (unknownMajors s) ++ "."))
  else pure []

/-- The minimum line (main.py:120-127). -/
def reportMins (cfg : Config) (mins : Req) : Except Err (List String) :=
  if cfg.format = .parsable then pure [formatParsable none none none none (some mins) ++ "\n"]
  else if (reqsOf mins).length > 0 then do
    let s ← versionStrings ((reqsOf mins).map VVal.tup)
    let note ← reportNote cfg (reqsOf mins)
    pure (nprint cfg ("Minimum required versions: " ++ s) ++ note)
  else pure []

/-- The incompatible line (main.py:129-136). -/
def reportIncomps (cfg : Config) (mins : Req) : Except Err (List String) :=
  if (incompsOf mins).length > 0 ∧ ¬ cfg.format = .parsable ∧ (¬ cfg.ignoreIncomp ∨ (reqsOf mins).length = 0) then do
    let s ← versionStrings ((incompsOf mins).map VVal.int)
    pure (nprint cfg ("Incompatible versions:     " ++ s))
  else pure []

/-- The range line (main.py:138-139). -/
def reportRange (cfg : Config) (versions : Bool) (vs : List Ver) : Except Err (List String) :=
  if versions ∧ vs.length > 0 then do
    let s ← versionStrings (vs.map VVal.tup)
    pure (nprint cfg ("Version range:             " ++ s))
  else pure []

/-- The targets: their line and the exit code (main.py:141-153). -/
def reportTargets (cfg : Config) (reqs : List Ver) : Except Err (List String × Nat) :=
  if cfg.targets.length > 0 ∧ ¬ allInconclusive cfg reqs ∧ ¬ compareRequirements reqs cfg.targets then
    if cfg.format = .parsable then pure ([], 1)
    else do
      let s ← versionStrings (cfg.targets.map fun t => VVal.str (targetText t))
      pure (nprint cfg ("Target versions not met:   " ++ s), 1)
  else pure ([], 0)

/-- The report after processing (main.py:70-153): what is printed and the exit code. -/
def report (cfg : Config) (versions : Bool) (r : ProcAcc) : Except Err (List String × Nat) := do
  let tips := if cfg.showTips then printTips cfg (reqsOf r.mins) (tipsOf cfg r) else []
  let mins ← reportMins cfg r.mins
  let incomps ← reportIncomps cfg r.mins
  let range ← reportRange cfg versions r.uniqueVersions
  let (line, code) ← reportTargets cfg (reqsOf r.mins)
  pure (reportHead cfg r ++ tips ++ mins ++ incomps ++ range ++ line, code)

/-- `local_config` (main.py:56-61): in violations mode the processor is not quiet. -/
def localConfig (cfg : Config) : Config :=
  if cfg.onlyShowViolations && cfg.quiet then { cfg with quiet := false } else cfg

/-- The part of `main` after argument parsing and path detection (main.py:45-153), given what the workers yield for the
paths in their order. -/
def mainRun (cfg : Config) (versions : Bool) (results : List FileOut) : Except Err (List String × Nat) :=
  if results.length = 0 then .ok (nprint cfg "No files specified to analyze!", 1)
  else
    match (if (localConfig cfg).processes = 1 then processSeq (localConfig cfg) results
        else processPar (localConfig cfg) results) with
    | .error e => .error e
    | .ok acc =>
      match report cfg versions acc with
      | .error e => .error e
      | .ok (out, code) => .ok (acc.out ++ out, code)

end Vermin
