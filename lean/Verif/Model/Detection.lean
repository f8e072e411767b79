import Verif.Model.Config
import Verif.Model.Processor
import Verif.Model.Exts
/-
Models the path part of vermin/detection.py (detection.py:11-540) and the path preparation of main.py (main.py:27-42), on
POSIX paths.  The "Ignoring .." messages are in `Model/Skips.lean`, progress messages in `Model/Program.lean`.
-/
namespace Vermin
open Py

/-! ### Paths (CPython's posixpath, not part of the repository) -/

/-- `os.path.join(a, b)` -/
def pathJoin (a b : List Char) : List Char :=
  if startsWith ['/'] b then b
  else if a.isEmpty || endsWith ['/'] a then a ++ b
  else a ++ '/' :: b

/-- One round of the loop of `normpath` over the components; `abs` says whether the path starts with a slash. -/
def normStep (abs : Bool) (acc : List (List Char)) (comp : List Char) : List (List Char) :=
  if comp = [] ∨ comp = ['.'] then acc
  else if comp ≠ ['.', '.'] ∨ (abs = false ∧ acc = []) ∨ (acc ≠ [] ∧ acc.getLast? = some ['.', '.']) then acc ++ [comp]
  else acc.dropLast

/-- `os.path.normpath` -/
def normpath (p : List Char) : List Char :=
  if p.isEmpty then ['.']
  else
    let slashes : List Char :=
      if startsWith ['/'] p then (if startsWith ['/', '/'] p && !startsWith ['/', '/', '/'] p then ['/', '/'] else ['/']) else []
    let comps := (splitOn (· == '/') p).foldl (normStep (!slashes.isEmpty)) []
    let r := slashes ++ join ['/'] comps
    if r.isEmpty then ['.'] else r

/-- `os.path.abspath` in working directory `cwd` -/
def abspath (cwd p : List Char) : List Char := normpath (if startsWith ['/'] p then p else pathJoin cwd p)

/-- The part after the last `/`. -/
def baseName (p : List Char) : List Char := (p.reverse.takeWhile fun c => c != '/').reverse

/-- `os.path.splitext(p)[1]`: from the last dot of the base name, unless only dots precede it there. -/
def extOf (p : List Char) : List Char :=
  let b := baseName p
  let ext := (b.reverse.takeWhile fun c => c != '.').reverse
  let root := b.take (b.length - ext.length - 1)
  if b.contains '.' && root.any (fun c => c != '.') then '.' :: ext else []

/-! ### The file system -/

/-- What `stat` tells: `S_ISDIR`, `S_ISREG`, or neither. -/
inductive Stat where
  | dir
  | reg
  | other
  deriving DecidableEq, Repr

/-- What `lstat` tells; for a symbolic link also what following it tells (`none`: an OSError). -/
inductive LStat where
  | node (s : Stat)
  | link (target : Option Stat)
  deriving DecidableEq, Repr

/-- A file system, unchanged during the run. -/
structure FS where
  cwd : List Char
  /-- `os.lstat`; `none` is an OSError -/
  lstat : List Char → Option LStat
  /-- `os.listdir`; `none` is an OSError -/
  listdir : List Char → Option (List (List Char))
  /-- the lines that `open` and repeated `readline` deliver, up to the end or the first exception -/
  lines : List Char → List (List Char)
  /-- the regex engine for `--exclude-regex` -/
  search : String → String → Bool

/-- `stat_path(path, scan_symlink_folders)` (detection.py:456-468) -/
def statPath (fs : FS) (path : List Char) (scanSymlinkFolders : Bool) : Option Stat :=
  match fs.lstat path with
  | none => none
  | some (.node s) => some s
  | some (.link none) => none
  | some (.link (some s)) => if s = .dir ∧ scanSymlinkFolders = false then none else some s

/-! ### probably_python_file -/

def pyExts : List String := ["py", "py3", "pyw", "pyj", "pyi"]
def nonCodeExts : List String := ["pyc", "pyd", "pxd", "pyx", "pyo"]

/-- `line.startswith("#!") and "python" in line` of the lower-cased, stripped line (detection.py:444-446) -/
def isMagicLine (line : List Char) : Bool :=
  let l := strip (lower line)
  startsWith ['#', '!'] l && isSub "python".toList l

/-- The loop over `n` lines (detection.py:440-451): when no line is left, `readline` returns "" or raises, and both lead to
`False`. -/
def magicLoop : Nat → List (List Char) → Bool
  | 0, _ => false
  | _ + 1, [] => false
  | n + 1, l :: ls => if isMagicLine l then true else magicLoop n ls

/-- `probably_python_file(path)` (detection.py:427-451).  `lower` is restricted to ASCII. -/
def probablyPythonFile (fs : FS) (path : List Char) : Bool :=
  let ext := String.ofList ((extOf (lower path)).drop 1)
  if pyExts.contains ext then true
  else if nonCodeExts.contains ext || notPyCodeExts.contains ext then false
  else magicLoop 10 (fs.lines path)

/-! ### detect_paths -/

/-- The arguments of `detect_paths` that all rounds share. -/
structure DetOpts where
  hidden : Bool
  ignoreChars : List Char
  scanSymlinkFolders : Bool
  cfg : Config

/-- An argument tuple of `detect_paths_incremental`: paths and depth. -/
abbrev DetArg := List (List Char) × Nat

/-- What one path adds: an accepted path or paths to look at next. -/
inductive DetStep where
  | skip
  | accept (p : List Char)
  | further (ps : List (List Char))
  deriving DecidableEq, Repr

/-- One round of the loop of `detect_paths_incremental` (detection.py:477-498).  An empty path raises IndexError unless
hidden files are looked at (or an ignored character or the exclusion regex applies). -/
def detStep (fs : FS) (o : DetOpts) (depth : Nat) (path : List Char) : Except Err DetStep :=
  if (o.ignoreChars.any fun c => path.contains c) || o.cfg.isExcludedByRegex fs.search (String.ofList path) then .ok .skip
  else if !o.hidden && path.isEmpty then .error .indexError
  else if !o.hidden && decide (path ≠ ['.']) && decide (path.head? = some '.') then .ok .skip
  else
    let path := if o.cfg.makePathsAbsolute then abspath fs.cwd path else path
    match statPath fs path (if depth = 0 then true else o.scanSymlinkFolders) with
    | none => .ok .skip
    | some .dir =>
      match fs.listdir path with
      | none => .ok .skip
      | some names =>
        .ok (.further ((names.filter fun p => o.hidden || decide (p.head? ≠ some '.')).map (pathJoin path)))
    | some .reg => if depth = 0 ∨ probablyPythonFile fs path then .ok (.accept path) else .ok .skip
    | some .other => .ok .skip

/-- The paths of one argument tuple: accepted paths and further tuples. -/
def detPaths (fs : FS) (o : DetOpts) (depth : Nat) : List (List Char) → Except Err (List (List Char) × List DetArg)
  | [] => .ok ([], [])
  | p :: ps =>
    match detStep fs o depth p with
    | .error e => .error e
    | .ok s =>
      match detPaths fs o depth ps with
      | .error e => .error e
      | .ok (acc, fur) =>
        match s with
        | .skip => .ok (acc, fur)
        | .accept q => .ok (q :: acc, fur)
        | .further qs => .ok (acc, (qs, depth + 1) :: fur)

/-- `detect_paths_incremental(args)` (detection.py:472-500) -/
def detectIncremental (fs : FS) (o : DetOpts) (a : DetArg) : Except Err (List (List Char) × List DetArg) :=
  detPaths fs o a.2 a.1

/-- One round of the `while` loop (detection.py:525-532) over the delivered results. -/
def detRound (fs : FS) (o : DetOpts) : List DetArg → Except Err (List (List Char) × List DetArg)
  | [] => .ok ([], [])
  | a :: as =>
    match detectIncremental fs o a with
    | .error e => .error e
    | .ok (acc, fur) =>
      match detRound fs o as with
      | .error e => .error e
      | .ok (acc', fur') => .ok (acc ++ acc', fur ++ fur')

/-- At most `n` rounds; `none` when paths remain after them (detection.py:525-532). -/
def detLoop (fs : FS) (o : DetOpts) : Nat → List (List Char) → List DetArg → Except Err (Option (List (List Char)))
  | _, acc, [] => .ok (some acc)
  | 0, _, _ :: _ => .ok none
  | n + 1, acc, args =>
    match detRound fs o args with
    | .error e => .error e
    | .ok (a, f) => detLoop fs o n (acc ++ a) f

/-- `detect_paths(paths, ..)` (detection.py:505-539), limited to `n` rounds.  The number of processes only changes who
computes the items of a round. -/
def detectPaths (fs : FS) (o : DetOpts) (n : Nat) (paths : List (List Char)) : Except Err (Option (List (List Char))) :=
  detLoop fs o n [] [(paths, 0)]

/-- The loop over the delivered results of a round (detection.py:527-531). -/
def detCollect : List (Except Err (List (List Char) × List DetArg)) → Except Err (List (List Char) × List DetArg)
  | [] => .ok ([], [])
  | .error e :: _ => .error e
  | .ok (acc, fur) :: rs =>
    match detCollect rs with
    | .error e => .error e
    | .ok (acc', fur') => .ok (acc ++ acc', fur ++ fur')

/-- `detect_paths` with several processes: `sched k` are the events of round `k`, and the loop runs over what `pool.imap`
delivers (detection.py:519-532). -/
def detLoopPar (fs : FS) (o : DetOpts) (sched : Nat → List IEvent) :
    Nat → List (List Char) → List DetArg → Except Err (Option (List (List Char)))
  | _, acc, [] => .ok (some acc)
  | 0, _, _ :: _ => .ok none
  | n + 1, acc, args =>
    match detCollect (IMap.run (args.map (detectIncremental fs o)) IMap.init (sched n)).consumed with
    | .error e => .error e
    | .ok (a, f) => detLoopPar fs o sched n (acc ++ a) f

/-- `set.add` for paths. -/
def dedup : List (List Char) → List (List Char)
  | [] => []
  | p :: ps => if (dedup ps).contains p then dedup ps else p :: dedup ps

/-- The options `main` detects paths with (main.py:33-41), on a platform other than Windows. -/
def mainOpts (cfg : Config) : DetOpts :=
  { hidden := cfg.analyzeHidden, ignoreChars := if cfg.format = .parsable then [':', '\n'] else [],
    scanSymlinkFolders := cfg.scanSymlinkFolders, cfg := cfg }

/-- The paths analysed by `main` (main.py:27-42). -/
def mainPaths (fs : FS) (cfg : Config) (n : Nat) (paths : List (List Char)) : Except Err (Option (List (List Char))) :=
  match detectPaths fs (mainOpts cfg) n (if cfg.makePathsAbsolute then paths.map (abspath fs.cwd) else paths) with
  | .error e => .error e
  | .ok none => .ok none
  | .ok (some ps) => .ok (some (sort leChars (dedup ps)))

end Vermin
