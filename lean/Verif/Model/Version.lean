import Verif.Model.Py
/-
Versions and their combination.  Models vermin/utility.py (version part).
-/
namespace Vermin
open Py

/-- A version tuple `(major, minor)`; Python compares tuples lexicographically. -/
structure Ver where
  major : Nat
  minor : Nat
  deriving DecidableEq, Repr

namespace Ver
/-- Python tuple `<`. -/
def lt (a b : Ver) : Prop := a.major < b.major ∨ (a.major = b.major ∧ a.minor < b.minor)
/-- Python tuple `<=`. -/
def le (a b : Ver) : Prop := a.major < b.major ∨ (a.major = b.major ∧ a.minor ≤ b.minor)
instance : LT Ver := ⟨lt⟩
instance : LE Ver := ⟨le⟩
instance (a b : Ver) : Decidable (a < b) := inferInstanceAs (Decidable (_ ∨ _))
instance (a b : Ver) : Decidable (a ≤ b) := inferInstanceAs (Decidable (_ ∨ _))
/-- Python `max(a, b)`: the first argument unless the second is strictly larger. -/
def max (a b : Ver) : Ver := if a < b then b else a
/-- `(0, 0)`: nothing known. -/
def zero : Ver := ⟨0, 0⟩
end Ver

/-- Minimum versions of one rule or finding: `(py2, py3)`, `None` meaning incompatible. -/
@[ext] structure Req where
  py2 : Option Ver
  py3 : Option Ver
  deriving DecidableEq, Repr

/-- `[(0, 0), (0, 0)]`: nothing known. -/
def Req.unknown : Req := ⟨some Ver.zero, some Ver.zero⟩

/-- The values `version_strings` is called with: `None`, ints, version tuples and strings
(utility.py:83-102; main.py calls it with ints (incompatible majors) and target texts as well). -/
inductive VVal where
  | none
  | int (n : Nat)
  | tup (v : Ver)
  | str (s : String)
  deriving DecidableEq, Repr

def VVal.ofOpt : Option Ver → VVal
  | .none => .none
  | .some v => .tup v

/-- `version in (0, (0, 0))` (utility.py:96) -/
def VVal.isZero : VVal → Bool
  | .int n => n == 0
  | .tup v => decide (v = Ver.zero)
  | _ => false

/-- `dotted_name(version)` restricted to the values above (utility.py:9-30). -/
def VVal.dotted : VVal → List Char
  | .none => []
  | .int n => strNat n
  | .tup v => strNat v.major ++ ['.'] ++ strNat v.minor
  | .str s => s.toList

/-- One element of `version_strings` (utility.py:92-101); `i` is the index. -/
def versionString (i : Nat) (v : VVal) : List Char :=
  if v.isZero then '~' :: strNat (i + 2)
  else match v with
    | .none => '!' :: strNat (i + 2)
    | v => v.dotted

def versionStringsFrom (i : Nat) : List VVal → List (List Char)
  | [] => []
  | v :: vs => versionString i v :: versionStringsFrom (i + 1) vs

/-- `version_strings(versions, separator)` (utility.py:83-102). The asserts are exceptions. -/
def versionStrings (vs : List VVal) (sep : String := ", ") : Except Err String :=
  let sep := if sep = "" then ", " else sep
  if vs.length = 0 then .error .assertion
  else if vs.any VVal.isZero && !decide (vs.length < 3) then .error .assertion
  else .ok (String.ofList (join sep.toList (versionStringsFrom 0 vs)))

/-- The list `[py2, py3]` handed to `version_strings`. -/
def Req.vals (r : Req) : List VVal := [VVal.ofOpt r.py2, VVal.ofOpt r.py3]

/-- `version_strings(r, sep)` for a pair: with two elements no assert can fail (utility.py:83-102). -/
def reqString (r : Req) (sep : String := ", ") : String :=
  let sep := if sep = "" then ", " else sep
  String.ofList (join sep.toList (versionStringsFrom 0 r.vals))

/-- `list1[0] is None and list1[1] is not None` -/
def Req.only3 (r : Req) : Bool := r.py2.isNone && r.py3.isSome
/-- `list1[0] is not None and list1[1] is None` -/
def Req.only2 (r : Req) : Bool := r.py2.isSome && r.py3.isNone

/-- One component of the result of `combine_versions` (utility.py:74-80). -/
def combineOpt : Option Ver → Option Ver → Option Ver
  | some a, some b => some (Ver.max a b)
  | _, _ => none

/-- `version_refs`: requirement -> texts of the findings having it. -/
abbrev Refs := Dict Req (List String)

/-- `get_ref` (utility.py:48-52): the text itself when there is one, else Python's list rendering. -/
def getRef (l : List String) : String :=
  match l with
  | [s] => s
  | l => reprStrList l

/-- `__handle_incomp_versions` (utility.py:42-54): the message of the raised exception. -/
def incompMsg (a b : Req) (refs : Option Refs) : String :=
  let v1 := reqString a
  let v2 := reqString b
  match refs with
  | .none => "Versions could not be combined: " ++ v1 ++ " and " ++ v2
  | .some refs =>
    match Dict.get? refs a, Dict.get? refs b with
    | some r1, some r2 =>
      getRef r1 ++ " (requires " ++ v1 ++ ") vs. " ++ getRef r2 ++ " (requires " ++ v2 ++ ")"
    | _, _ => "Versions could not be combined: " ++ v1 ++ " and " ++ v2

/-- `combine_versions(list1, list2, config, version_refs)` (utility.py:56-81) on pairs of version tuples.
Simplification: components that are ints or floats (`fixup`) are modelled separately, see `Model/Numbers.lean`; vermin itself has none. -/
def combineVersions (ignoreIncomp : Bool) (a b : Req) (refs : Option Refs := none) : Except Err Req :=
  if !ignoreIncomp && ((a.only3 && b.only2) || (a.only2 && b.only3)) then
    .error (.invalidVersion (incompMsg a b refs))
  else
    .ok ⟨combineOpt a.py2 b.py2, combineOpt a.py3 b.py3⟩

end Vermin
