import Verif.Model.Arguments
import Verif.Model.Detection
import Verif.Model.File
import Verif.Model.Main
/-
Models `main` (main.py:13-153): from the command line and the file system to what is printed and the exit code.
-/
namespace Vermin
open Py

/-- What the program is run on: what it finds while parsing arguments, the file system, and the outcome of reading, decoding
and parsing each file. -/
structure World where
  args : ArgEnv
  fs : FS
  /-- number of rounds path detection may take; the code has no limit -/
  rounds : Nat
  parse : List Char → ParseOut
  host : List Char → Host

/-- How a run ends. -/
inductive Outcome where
  /-- while parsing arguments: usage, an error message, `--version`, or an exception -/
  | stopped (s : ArgStop)
  /-- path detection takes more than the rounds it may take -/
  | unfinished
  /-- an exception leaves `main` -/
  | raised (e : Err)
  /-- exit code; what the processes analysing the files print, per file (how that is interleaved with the rest is not
  modelled), and what `main` prints -/
  | exit (files : List (List String)) (out : List String) (code : Nat)

/-- `vprint` of main.py:28-29 and 49-53. -/
def progress (cfg : Config) (msg : String) : List String := if cfg.format = .parsable then [] else vprint cfg msg

/-- `"{} using {} processes.."` (main.py:49-53) -/
def analyzing (cfg : Config) (amount : Nat) : String :=
  "Analyzing" ++ (if amount > 1 then " " ++ String.ofList (strNat amount) ++ " files" else "") ++ " using " ++
    String.ofList (strNat cfg.processes) ++ " processes.."

/-- The results of the files (main.py:64-65, processor.py:33-44). -/
def World.results (w : World) (cfg : Config) (paths : List (List Char)) : List (List String × FileOut) :=
  paths.map fun q => processIndividual (localConfig cfg) (w.host q) (String.ofList q) (w.parse q)

/-- `main` (main.py:13-153). -/
def program (w : World) (argv : List String) : Outcome :=
  match parseArgs w.args argv (Config.init w.args.cpus) with
  | .error s => .stopped s
  | .ok p =>
    match mainPaths w.fs p.cfg w.rounds (p.paths.map String.toList) with
    | .error e => .raised e
    | .ok none => .unfinished
    | .ok (some paths) =>
      match mainRun p.cfg p.versions ((w.results p.cfg paths).map Prod.snd) with
      | .error e => .raised e
      | .ok (out, code) =>
        .exit ((w.results p.cfg paths).map Prod.fst)
          (progress p.cfg "Detecting python files.." ++
            (if paths.length = 0 then [] else progress p.cfg (analyzing p.cfg paths.length)) ++ out) code

end Vermin
