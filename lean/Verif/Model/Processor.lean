import Verif.Model.Formats
/-
Models vermin/processor.py: `Processor.process` (processor.py:33-98).  `process_individual` is in `Model/File.lean`.
-/
namespace Vermin
open Py

/-- `ProcessResult` (processor.py:9-20) without the AST. -/
structure ProcRes where
  path : String
  /-- `None`: the file was incompatible by itself (or interrupted) -/
  mins : Option Req
  text : String
  /-- `novermin` lines -/
  novermin : List Nat
  bps : List String
  maybeAnnotations : Bool
  deriving DecidableEq, Repr

/-- What `process_individual` yields: a result, `None` for non-python input, or an exception. -/
abbrev FileOut := Except Err (Option ProcRes)

/-- The variables of `process` (processor.py:35-40). -/
structure ProcAcc where
  mins : Req
  incomp : Bool
  uniqueVersions : List Ver
  backports : List String
  usedNovermin : Bool
  maybeAnnotations : Bool
  out : List String
  deriving DecidableEq, Repr

def ProcAcc.init : ProcAcc :=
  { mins := Req.unknown, incomp := false, uniqueVersions := [], backports := [], usedNovermin := false,
    maybeAnnotations := false, out := [] }

/-- `print_incomp` (processor.py:46-50) -/
def printIncomp (cfg : Config) (path text : String) : List String :=
  if cfg.ignoreIncomp then []
  else nprint cfg ("File with incompatible versions: " ++ path ++ (if text.length > 0 then "\n  " ++ text else text))

/-- `set.add` for versions. -/
def addVer (s : List Ver) (v : Ver) : List Ver := if s.contains v then s else s ++ [v]

/-- `if ver is not None and ver > (0, 0): unique_versions.add(ver)` (processor.py:70-72) -/
def addUnique (s : List Ver) : Option Ver → List Ver
  | none => s
  | some v => if Ver.zero < v then addVer s v else s

/-- The loop body (processor.py:58-87). -/
def procStep (cfg : Config) (a : ProcAcc) (r : Option ProcRes) : ProcAcc :=
  match r with
  | none => a
  | some r =>
    match r.mins with
    | none => { a with incomp := true, out := a.out ++ printIncomp cfg r.path r.text }
    | some m =>
      let a := { a with
        backports := r.bps.foldl addSet a.backports
        uniqueVersions := addUnique (addUnique a.uniqueVersions m.py2) m.py3
        usedNovermin := a.usedNovermin || decide (r.novermin.length > 0)
        maybeAnnotations := a.maybeAnnotations || r.maybeAnnotations
        out := a.out ++ (if !cfg.onlyShowViolations || decide (r.text.length > 0) then outputResult cfg r.path r.text m else []) }
      match combineVersions cfg.ignoreIncomp a.mins m with
      | .ok mins => { a with mins := mins }
      | .error _ => { a with incomp := true, out := a.out ++ printIncomp cfg r.path r.text }

/-- The loop over results as they are delivered; an exception of an item is raised when it is reached
(processor.py:58-87).  Returns what was accumulated and the exception, if any. -/
def procLoop (cfg : Config) : ProcAcc → List FileOut → ProcAcc × Option Err
  | a, [] => (a, none)
  | a, .error e :: _ => (a, some e)
  | a, .ok r :: rs => procLoop cfg (procStep cfg a r) rs

/-- The first exception of a list of results: with one process they are all computed before the loop starts
(processor.py:52-56). -/
def firstError : List FileOut → Option Err
  | [] => none
  | .error e :: _ => some e
  | .ok _ :: rs => firstError rs

/-- The warning of processor.py:91-94. -/
def runtimeMsg : String :=
  "RuntimeError: If running `Processor.process()` outside of\n`if __name__ == \"__main__\":` it, or the code calling it, must be done within it instead."

/-- `list(unique_versions); sort()` -/
def verLe (a b : Ver) : Bool := decide (a ≤ b)

/-- The end of `process` (processor.py:91-98): only `RuntimeError` (and `RecursionError`) is caught. -/
def procEnd (cfg : Config) (r : ProcAcc × Option Err) : Except Err ProcAcc :=
  let a := { r.1 with uniqueVersions := sort verLe r.1.uniqueVersions }
  match r.2 with
  | none => .ok a
  | some .runtimeError => .ok { a with out := a.out ++ nprint cfg runtimeMsg }
  | some e => .error e

/-- `Processor.process` with one process. -/
def processSeq (cfg : Config) (rs : List FileOut) : Except Err ProcAcc :=
  match firstError rs with
  | some e => procEnd cfg (ProcAcc.init, some e)
  | none => procEnd cfg (procLoop cfg ProcAcc.init rs)

/-- `Processor.process` with several processes: the loop runs over what `pool.imap` delivers. -/
def processPar (cfg : Config) (delivered : List FileOut) : Except Err ProcAcc :=
  procEnd cfg (procLoop cfg ProcAcc.init delivered)

/-! ### `multiprocessing.pool.IMapIterator` (CPython, Lib/multiprocessing/pool.py), not part of the repository -/

/-- `_index`, `_items` and `_unsorted`, and what `next` has returned so far. -/
structure IMap (α : Type) where
  index : Nat
  items : List α
  unsorted : Dict Nat α
  consumed : List α

def IMap.init {α : Type} : IMap α := ⟨0, [], [], []⟩

/-- `while self._index in self._unsorted`: at most as many rounds as there are entries. -/
def IMap.drain {α : Type} : Nat → IMap α → IMap α
  | 0, m => m
  | n + 1, m =>
    match Dict.get? m.unsorted m.index with
    | some x =>
      IMap.drain n { m with index := m.index + 1, items := m.items ++ [x], unsorted := m.unsorted.filter fun e => !decide (e.1 = m.index) }
    | none => m

/-- `_set(i, obj)`: a worker has finished item `i`. -/
def IMap.arrive {α : Type} (m : IMap α) (i : Nat) (x : α) : IMap α :=
  if m.index = i then
    IMap.drain m.unsorted.length { m with items := m.items ++ [x], index := m.index + 1 }
  else { m with unsorted := Dict.set m.unsorted i x }

/-- `next()`: pops the first item, or waits. -/
def IMap.next {α : Type} (m : IMap α) : IMap α :=
  match m.items with
  | [] => m
  | x :: xs => { m with items := xs, consumed := m.consumed ++ [x] }

/-- An event: a worker finishes an item, or the consumer asks for the next one. -/
inductive IEvent where
  | done (i : Nat)
  | next
  deriving DecidableEq, Repr

/-- A run: `xs` are the results of the items. -/
def IMap.run {α : Type} (xs : List α) : IMap α → List IEvent → IMap α
  | m, [] => m
  | m, .next :: es => IMap.run xs m.next es
  | m, .done i :: es =>
    match xs[i]? with
    | some x => IMap.run xs (m.arrive i x) es
    | none => IMap.run xs m es

end Vermin
