import Verif.Model.Ast
/-
Walks of trees with a queue, as `ast.walk` and `assign_target_walk` are written.
-/
namespace Vermin.Spec
open Vermin

/-- `Queue stop q out`: starting with the queue `q`, taking a node from its front and appending the children at its end until nothing is left
gives `out`. Nodes that are `stop` are dropped. -/
inductive Queue (stop : Node → Prop) : List Node → List Node → Prop
  | done : Queue stop [] []
  | drop {n q out} : stop n → Queue stop q out → Queue stop (n :: q) out
  | take {n q out} : ¬ stop n → Queue stop (q ++ n.kids) out → Queue stop (n :: q) (n :: out)

end Vermin.Spec
