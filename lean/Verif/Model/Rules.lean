import Verif.Model.Version
/-
Rules and backports: vermin/backports.py and the entry points of vermin/rules.py.  The tables themselves are in the
generated modules `RulesMod`, `RulesMem`, `RulesKw` and `RulesSmall`.
-/
namespace Vermin
open Py

/-- `((a, b), (c, d))` -/
def rb (a b c d : Nat) : Req := ⟨some ⟨a, b⟩, some ⟨c, d⟩⟩
/-- `((a, b), None)` -/
def r2 (a b : Nat) : Req := ⟨some ⟨a, b⟩, none⟩
/-- `(None, (c, d))` -/
def r3 (c d : Nat) : Req := ⟨none, some ⟨c, d⟩⟩
/-- `(None, None)` -/
def rn : Req := ⟨none, none⟩

/-- One row `(name, links, mins)` of `BACKPORTS`; the links are only used for printing and left out. -/
abbrev BackportRow := String × Req

/-- `BACKPORTS` (backports.py:9-32) -/
def backports : List BackportRow := [
  ("argparse", rb 2 3 3 1),
  ("asyncio", r3 3 3),
  ("configparser", rb 2 6 3 0),
  ("contextvars", r3 3 5),
  ("dataclasses", r3 3 6),
  ("enum", rb 2 4 3 3),
  ("faulthandler", rb 2 6 3 0),
  ("importlib", rb 2 3 3 0),
  ("ipaddress", rb 2 6 3 2),
  ("mock", r3 3 6),
  ("statistics", rb 2 6 3 4),
  ("typing", rb 2 7 3 2),
  ("typing_extensions==4.0", r3 3 6),
  ("typing_extensions==4.3", r3 3 7),
  ("typing_extensions", r3 3 7),
  ("zoneinfo", r3 3 6)]

/-- `Backports.modules()` (backports.py:40-42); Python builds a set, used for membership only. -/
def backportModules : List String := backports.map Prod.fst

/-- `Backports.is_backport(module)` (backports.py:44-46) -/
def isBackport (m : String) : Bool := backportModules.contains m

/-- `VERSIONED_BACKPORT_REGEX.match`: `([\w_\.]+)\=\=.+` anchored at the start only (backports.py:5).  The class
does not contain `=`, so the greedy group is the maximal run. -/
def matchVersioned (s : List Char) : Option (List Char) :=
  let g := s.takeWhile (fun c => isWord c || c == '.')
  match g, s.dropWhile (fun c => isWord c || c == '.') with
  | _ :: _, '=' :: '=' :: c :: _ => if c == '\n' then none else some g
  | _, _ => none

/-- `Backports.version_filter` (backports.py:48-53) -/
def versionFilter (m : String) : String :=
  match matchVersioned m.toList with
  | some g => String.ofList g
  | none => m

/-- `Backports.unversioned_filter` (backports.py:55-57); a set in Python. -/
def unversionedFilter (ms : List String) : List String := ms.map versionFilter

/-- `Backports.expand_versions` (backports.py:59-64) -/
def expandVersions (m : String) : List BackportRow :=
  (backports.filter fun r => versionFilter r.1 == m).reverse

/-- `bp(name, config)` (rules.py:3-5): membership in the configured backports. -/
def bp (bps : List String) (name : String) : Bool := bps.contains name

/-- `bpv(name, default_mins, config)` (rules.py:7-13) -/
def bpv (bps : List String) (name : String) (dflt : Req) : Req :=
  go (expandVersions name)
where
  /-- the loop of rules.py:10-12 -/
  go : List BackportRow → Req
    | [] => dflt
    | r :: rs => if bp bps r.1 then r.2 else go rs

/-- The expressions that occur as values in the rule tables. -/
inductive RuleVal where
  /-- a pair of versions -/
  | const (r : Req)
  /-- `bpv(name, default, config)` -/
  | bpv (name : String) (dflt : Req)
  /-- `no if not bp(name, config) else yes` -/
  | ifNotBp (name : String) (no yes : Req)

/-- The value of such an expression under the configured backports. -/
def RuleVal.eval (bps : List String) : RuleVal → Req
  | .const r => r
  | .bpv name dflt => Vermin.bpv bps name dflt
  | .ifNotBp name no yes => if !bp bps name then no else yes

/-- A key of `CODECS_ENCODINGS`: a tuple of names, or, where the comma is missing in the source, one string. -/
inductive EncKey where
  | names (l : List String)
  | text (s : String)

/-- `encoding in encs` (source_visitor.py:521): membership in a tuple, but substring test on a string. -/
def EncKey.contains (e : String) : EncKey → Bool
  | .names l => l.contains e
  | .text s => Py.isSub e.toList s.toList

/-- The dictionary a dict display `{k1: v1, k2: v2, ...}` evaluates to: entries are stored from left to right, a later
entry with the same key overrides an earlier one (rules.py:16-3754). -/
def dictDisplay {α β : Type} [DecidableEq α] (l : List (α × β)) : Dict α β := l.foldl (fun d e => Dict.set d e.1 e.2) []

end Vermin
