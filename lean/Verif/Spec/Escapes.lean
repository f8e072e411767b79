import Verif.Spec.Reach
/-
Which definitions of a program outlast the part that makes them, independent of the visitor.
-/
namespace Vermin.Spec
open Vermin

/-- The node has made the definition of `x` by the time its visit is over: one of its own, unless that is for its own scope only; one in a part,
unless the node has a scope of its own; or one in a part of a statement of a class, whose parts are looked at once more, without their scope.

Whether keyword arguments are looked at depends on the calls around; with `sure`, only what is looked at in any case counts. -/
inductive Escapes (env : Env) (sure : Bool) : Node → String → Prop
  | own {n : Node} {x : String} : ¬ Marked env n → Defines n x → (Scoped n.kind → IsFunction n) → Escapes env sure n x
  | part {n k : Node} {x : String} : ¬ Marked env n → k ∈ n.kids → ¬ Unevaluated env n k → ¬ Scoped n.kind → (sure = true → ¬ Opaque n.kind) →
      Escapes env sure k x → Escapes env sure n x
  | again {n b k : Node} {name x : String} : ¬ Marked env n → n.kind = .classDef name → b ∈ n.fields .body → k ∈ b.kids →
      Escapes env sure k x → Escapes env sure n x

/-- Keyword arguments contain no definitions (and what has no parts has none). -/
def NoneInside (p : Node) : Prop := ∀ n k m x, In n p → Opaque n.kind → k ∈ n.kids → In m k → ¬ Defines m x

end Vermin.Spec
