import Verif.Model.Program
/-
Models the handling of `KeyboardInterrupt` (processor.py:111-112 and 134-135, main.py:55-68).
-/
namespace Vermin
open Py

/-- Where in `process_individual` an interrupt arrives. -/
inductive Halt where
  /-- while the file is read and parsed (processor.py:106-110) -/
  | reading
  /-- during `tour` (processor.py:132-133) -/
  | visiting
  /-- while the result is computed (processor.py:137-143) -/
  | finishing
  deriving DecidableEq, Repr

/-- What `process_individual` yields if there are interrupts. -/
inductive Yield where
  | done (o : FileOut)
  /-- a result whose `mins` is still the empty list of `Parser.detect` (parser.py:75) -/
  | blank (path : String) (novermin : List Nat)
  /-- the interrupt leaves it -/
  | interrupted
  deriving DecidableEq

/-- The result that has not been filled in (processor.py:10-20, 103). -/
def ProcRes.empty (path : String) : ProcRes :=
  { path := path, mins := none, text := "", novermin := [], bps := [], maybeAnnotations := false }

/-- `process_individual` with an interrupt (processor.py:100-148).  The interrupt while reading arrives before anything is printed, and that while
visiting before anything is raised. -/
def processHalted (cfg : Config) (h : Host) (path : String) (p : ParseOut) : Option Halt → List String × Yield
  | none => ((processIndividual cfg h path p).1, .done (processIndividual cfg h path p).2)
  | some .reading => ([], .done (.ok (some (ProcRes.empty path))))
  | some .visiting =>
    match p with
    | .ok _ toks =>
      if badPath cfg path then ([], .done (.error .assertion)) else ([], .blank path (Env.make cfg h path toks).noLines)
    | p => ((processIndividual cfg h path p).1, .done (processIndividual cfg h path p).2)
  | some .finishing =>
    match p with
    | .ok node toks =>
      if badPath cfg path then ([], .done (.error .assertion))
      else
        match tour (Env.make cfg h path toks) node S.init with
        | .error e => ([], .done (.error e))
        | .ok _ => ([], .interrupted)
    | p => ((processIndividual cfg h path p).1, .done (processIndividual cfg h path p).2)

/-- What ends the list of results early with one process: an exception, or an interrupt (`none`) (processor.py:52-55). -/
def firstStop : List Yield → Option (Option Err)
  | [] => none
  | .interrupted :: _ => some none
  | .done (.error e) :: _ => some (some e)
  | .done (.ok _) :: ys => firstStop ys
  | .blank _ _ :: ys => firstStop ys

/-- The loop over the results (processor.py:58-87).  A result with an empty list of versions is shown with `version_strings` (default_format.py:38,
parsable_format.py:24), or combined (processor.py:84) if it is not shown; both have assertions (utility.py:57, 88). -/
def haltLoop (cfg : Config) : ProcAcc → List Yield → ProcAcc × Option Err
  | a, [] => (a, none)
  | a, .interrupted :: ys => haltLoop cfg a ys  -- not reached: `firstStop`
  | a, .blank _ _ :: _ => (a, some .assertion)
  | a, .done (.error e) :: _ => (a, some e)
  | a, .done (.ok r) :: ys => haltLoop cfg (procStep cfg a r) ys

/-- `Processor.process` with one process; `none`: the interrupt leaves it. -/
def processStopped (cfg : Config) (ys : List Yield) : Option (Except Err ProcAcc) :=
  match firstStop ys with
  | some none => none
  | some (some e) => some (procEnd cfg (ProcAcc.init, some e))
  | none => some (procEnd cfg (haltLoop cfg ProcAcc.init ys))

/-- The part of `main` after path detection (main.py:45-153) with one process. -/
def mainStopped (cfg : Config) (versions : Bool) (ys : List Yield) : Except Err (List String × Nat) :=
  if ys.length = 0 then .ok (nprint cfg "No files specified to analyze!", 1)
  else
    match processStopped (localConfig cfg) ys with
    | none => .ok (nprint cfg "Aborting..", 1)
    | some (.error e) => .error e
    | some (.ok acc) =>
      match report cfg versions acc with
      | .error e => .error e
      | .ok (out, code) => .ok (acc.out ++ out, code)

/-- The same with several processes, if the main process is interrupted when these results have been delivered (main.py:55-68). -/
def mainInterrupted (cfg : Config) (delivered : List (Option ProcRes)) : List String × Nat :=
  ((delivered.foldl (procStep (localConfig cfg)) ProcAcc.init).out ++ nprint cfg "Aborting..", 1)

end Vermin
