import Verif.Spec.Beside
import Verif.Spec.Flow
/-
Specification of statements that are moved into a function.
-/
namespace Vermin.Spec
open Vermin

/-- The function without parameters whose body are the statements. -/
def enclosed (i a : Info) (l : List Node) : Node := .mk i (.mk a [] :: l)

/-- It is such a function `name` on a line that is not excluded, its body are the statements, and in `__init__.py` it and the functions in it are not called
`__dir__` or `__getattr__`. -/
structure Encloses (env : Env) (name : String) (i a : Info) (l : List Node) : Prop where
  function : i.kind = .functionDef name
  parameters : a.kind = .arguments ∧ a.fld = .args
  body : ∀ k ∈ l, k.fld = .body
  line : ∃ n, i.line = some n ∧ n ∉ env.noLines
  undirected : ∀ m, In m (enclosed i a l) → Undirected env m

/-- A name that is in none of the identifiers of the statements and is not one of those that Vermin gives to values. -/
structure NewName (name : String) (ks : List Node) : Prop where
  single : '.' ∉ name.toList
  unused : ∀ k ∈ ks, ∀ n, In n k → ∀ x ∈ n.kind.identifiers, ¬ HasWord x name
  other : name ∉ valueWords

end Vermin.Spec
