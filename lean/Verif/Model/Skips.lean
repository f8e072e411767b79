import Verif.Model.Detection
import Verif.Model.Formats
/-
Models what path detection prints (detection.py:496-498).
-/
namespace Vermin
open Py

/-- What one round of the loop of `detect_paths_incremental` prints (detection.py:477-498): the exception of `listdir`, whose text for a folder is given by
`exText`.  The other functions that are called do not raise OSError: `stat_path` and `probably_python_file` catch it.  Nothing is printed if IndexError is raised. -/
def detStepMsgs (fs : FS) (o : DetOpts) (exText : List Char → String) (depth : Nat) (path : List Char) : List String :=
  if (o.ignoreChars.any fun c => path.contains c) || o.cfg.isExcludedByRegex fs.search (String.ofList path) then []
  else if !o.hidden && path.isEmpty then []
  else if !o.hidden && decide (path ≠ ['.']) && decide (path.head? = some '.') then []
  else
    let path := if o.cfg.makePathsAbsolute then abspath fs.cwd path else path
    match statPath fs path (if depth = 0 then true else o.scanSymlinkFolders) with
    | some .dir =>
      match fs.listdir path with
      | none => nprint o.cfg ("Ignoring " ++ String.ofList path ++ ": " ++ exText path)
      | some _ => []
    | _ => []

/-- What a round of the `while` loop prints (detection.py:525-532), in the order of one process.  Simplification: if there is an exception, what is printed
about the paths after it is included. -/
def detRoundMsgs (fs : FS) (o : DetOpts) (exText : List Char → String) (args : List DetArg) : List String :=
  args.flatMap fun a => a.1.flatMap (detStepMsgs fs o exText a.2)

/-- What at most `n` rounds print. -/
def detLoopMsgs (fs : FS) (o : DetOpts) (exText : List Char → String) : Nat → List DetArg → List String
  | 0, _ => []
  | n + 1, args =>
    detRoundMsgs fs o exText args ++
    match detRound fs o args with
    | .error _ => []
    | .ok (_, f) => detLoopMsgs fs o exText n f

/-- What the detection of the paths analysed by `main` prints (main.py:27-42). -/
def mainPathsMsgs (fs : FS) (cfg : Config) (exText : List Char → String) (n : Nat) (paths : List (List Char)) : List String :=
  detLoopMsgs fs (mainOpts cfg) exText n [(if cfg.makePathsAbsolute then paths.map (abspath fs.cwd) else paths, 0)]

end Vermin
