import Verif.Model.Floats
/-
Models versions given as ints and floats to `combine_versions` of vermin/utility.py, which is part of the interface of the package (vermin/__init__.py:43).
Vermin itself only passes tuples and None.
-/
namespace Vermin
open Py

/-- A component of a version list: None, an int, a float, or a tuple.  Floats are the numbers that they stand for; negative ints, infinities, and NaN are
not modelled. -/
inductive Num where
  | none
  | int (n : Nat)
  | float (f : Rat)
  | tup (v : Ver)
  deriving DecidableEq

/-- `float_version(f)` (utility.py:32-37).  `floor` is exact; the difference and the product are rounded; `int` cuts the fraction off, which is the floor of
numbers that are not negative. -/
def floatVersion (rnd : Rat → Rat) (f : Rat) : Except Err Ver :=
  if f < 0 then .error .assertion
  else
    let major := f.floor
    let minor := (rnd (rnd (f - major) * 10)).floor
    .ok ⟨major.toNat, minor.toNat⟩

/-- `fixup(v)` (utility.py:67-72) -/
def fixup (rnd : Rat → Rat) : Num → Except Err (Option Ver)
  | .none => .ok none
  | .int n => .ok (some ⟨n, 0⟩)
  | .float f =>
    match floatVersion rnd f with
    | .ok v => .ok (some v)
    | .error e => .error e
  | .tup v => .ok (some v)

/-- The component as `version_strings` gets it; `show_` is `str` of floats. -/
def Num.val (show_ : Rat → String) : Num → VVal
  | .none => .none
  | .int n => .int n
  | .float f => if f = 0 then .int 0 else .str (show_ f)
  | .tup v => .tup v

/-- `v is None` -/
def Num.isNone : Num → Bool
  | .none => true
  | _ => false

/-- One round of the loop (utility.py:74-81). -/
def combineNum (rnd : Rat → Rat) (a b : Num) : Except Err (Option Ver) := do
  let v1 ← fixup rnd a
  let v2 ← fixup rnd b
  return combineOpt v1 v2

/-- `combine_versions(list1, list2, config)` (utility.py:56-81), without `version_refs` -/
def combineNums (rnd : Rat → Rat) (show_ : Rat → String) (ignoreIncomp : Bool) (l1 l2 : List Num) : Except Err (Option Ver × Option Ver) :=
  match l1, l2 with
  | [a, b], [c, d] =>
    if !ignoreIncomp && ((a.isNone && !b.isNone && !c.isNone && d.isNone) || (!a.isNone && b.isNone && c.isNone && !d.isNone)) then do
      let s1 ← versionStrings [a.val show_, b.val show_]
      let s2 ← versionStrings [c.val show_, d.val show_]
      .error (.invalidVersion ("Versions could not be combined: " ++ s1 ++ " and " ++ s2))
    else do
      let r1 ← combineNum rnd a c
      let r2 ← combineNum rnd b d
      return (r1, r2)
  | _, _ => .error .assertion

end Vermin
