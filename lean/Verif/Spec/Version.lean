import Verif.Model.Version
/-
Specification of requirements: which interpreter versions satisfy them.  Independent of how the code
combines requirements.
-/
namespace Vermin.Spec
open Vermin

/-- Interpreter version `v` (major 2 or 3) satisfies requirement `r`: the component of `r` for `v`'s
major version is present and not above `v`. -/
def Satisfies (v : Ver) (r : Req) : Prop :=
  (v.major = 2 ∧ ∃ m, r.py2 = some m ∧ m ≤ v) ∨ (v.major = 3 ∧ ∃ m, r.py3 = some m ∧ m ≤ v)

/-- A requirement that only Python 2 can satisfy. -/
def Py2Only (r : Req) : Prop := (∃ m, r.py2 = some m) ∧ r.py3 = none
/-- A requirement that only Python 3 can satisfy. -/
def Py3Only (r : Req) : Prop := r.py2 = none ∧ ∃ m, r.py3 = some m

/-- One 2-only, the other 3-only. -/
def Conflict (a b : Req) : Prop := (Py2Only a ∧ Py3Only b) ∨ (Py3Only a ∧ Py2Only b)

/-- A requirement that leaves at least one major version possible. -/
def Sane (r : Req) : Prop := r.py2 ≠ none ∨ r.py3 ≠ none

end Vermin.Spec
