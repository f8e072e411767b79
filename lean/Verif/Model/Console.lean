import Verif.Model.Program
import Verif.Model.Messages
import Verif.Model.Usage
import Verif.Model.Skips
/-
Models what a run of `main` (main.py:13-153) prints and its exit code, with argument parsing, usage, and config files.
-/
namespace Vermin
open Py

/-- What the program is run on.  Config files are read with `Config.parse_file`: `read` is what configparser makes of a file, `exText`, `readError`
and `listError` are the texts of exceptions. -/
structure Machine where
  argv0 : String
  env : ArgEnv
  exText : Err → String
  readError : String → String
  listError : List Char → String
  read : String → Option IniRead
  fs : FS
  /-- number of rounds path detection may take; the code has no limit -/
  rounds : Nat
  parse : List Char → ParseOut
  host : List Char → Host

/-- What argument parsing depends on. -/
def Machine.msgEnv (m : Machine) : MsgEnv :=
  { args := { m.env with parseFile := fun q => parseFile m.env.cpus m.env.validRegex ((m.read q).bind Except.toOption) }
    fileMsgs := fun q => parseFileMsgs m.env.cpus m.env.validRegex m.exText q (m.read q)
    readError := m.readError }

/-- What the rest depends on. -/
def Machine.world (m : Machine) : World := { args := m.msgEnv.args, fs := m.fs, rounds := m.rounds, parse := m.parse, host := m.host }

/-- What path detection prints (main.py:24-41). -/
def Machine.skipped (m : Machine) (argv : List String) : List String :=
  match parseArgs m.msgEnv.args argv (Config.init m.msgEnv.args.cpus) with
  | .error _ => []
  | .ok p => mainPathsMsgs m.fs p.cfg m.listError m.rounds (p.paths.map String.toList)

/-- What a run leaves behind. -/
structure Console where
  /-- what the main process prints, one text per call of `print` -/
  printed : List String
  /-- what is printed while files are looked for, which is done in other processes unless there is only one -/
  skipped : List String := []
  /-- what is printed while files are analysed, per file -/
  files : List (List String) := []
  /-- the exception that ends the program; Python shows a traceback then -/
  trace : Option Err := none
  code : Nat

/-- `main` (main.py:13-153).  `none`: path detection takes more than the rounds it may take.  Simplification: what is printed after argument parsing and
before an exception is left out. -/
def console (m : Machine) (argv : List String) : Option Console :=
  let msgs := (parseArgsMsgs m.msgEnv argv (Config.init m.msgEnv.args.cpus)).map (· ++ "\n")
  match program m.world argv with
  | .stopped (.usage code full) => some { printed := msgs ++ (usage m.argv0 m.msgEnv.args.cpus full).map fun p => joinLines p ++ "\n", code := code }
  | .stopped .error => some { printed := msgs, code := 1 }
  | .stopped .exit0 => some { printed := msgs, code := 0 }
  | .stopped (.raised e) => some { printed := msgs, trace := some e, code := 1 }
  | .unfinished => none
  | .raised e => some { printed := msgs, trace := some e, code := 1 }
  | .exit files out code => some { printed := msgs ++ out, skipped := m.skipped argv, files := files, code := code }

end Vermin
