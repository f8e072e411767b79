import Verif.Spec.Version
/-
Which of the requirements of a collection of files count for its overall minimum.
-/
namespace Vermin.Spec
open Vermin

/-- The requirement is for one major version only, while one of the requirements `K` excludes it and none excludes the other. -/
def Against (K : List Req) (m : Req) : Prop :=
  (Py3Only m ∧ (∃ r ∈ K, r.py3 = none) ∧ ∀ r ∈ K, r.py2 ≠ none) ∨ (Py2Only m ∧ (∃ r ∈ K, r.py2 = none) ∧ ∀ r ∈ K, r.py3 ≠ none)

/-- `Chosen ign K l K'`: of the requirements `l`, taken one after the other, those that are not against the ones taken before (which are `K` at the
start) are taken, which leads to `K'`. With `ign` all are taken. -/
inductive Chosen (ign : Bool) : List Req → List Req → List Req → Prop
  | done {K} : Chosen ign K [] K
  | take {K K' m l} : ign = true ∨ ¬ Against K m → Chosen ign (K ++ [m]) l K' → Chosen ign K (m :: l) K'
  | leave {K K' m l} : ign = false → Against K m → Chosen ign K l K' → Chosen ign K (m :: l) K'

end Vermin.Spec
