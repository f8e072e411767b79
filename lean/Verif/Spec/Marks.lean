import Verif.Spec.Layout
import Verif.Spec.Escapes
/-
Programs of which further statements are marked by comments.
-/
namespace Vermin.Spec
open Vermin

/-- What the visitor notices at a node that matters elsewhere, besides definitions: values and types of variables, names of imports, `yield` and `await` within
functions, and an ellipsis that is in a slice. -/
def Event.teaches : Event → Prop
  | .value _ _ | .type _ _ | .rename _ _ | .origin _ _ | .yield | .await | .slice _ => True
  | _ => False

/-- Directives of `strftime` and of bytes, and type codes of arrays -/
def Event.directive : Event → Prop
  | .strftime _ | .bytesDir _ | .typecode _ => True
  | _ => False

/-- Nothing in the node matters elsewhere but definitions, there are no directives in it, and no calls as in `f()()`. -/
def Unlearnt (env : Env) (n : Node) : Prop :=
  ∀ k, In k n → ¬ Unnamed k ∧ ∀ ev, EmitsIn env (fun _ => True) k ev → ¬ ev.teaches ∧ ¬ ev.directive

/-- Nothing in the node matters elsewhere: definitions in it do not outlast it. -/
def Silent (env : Env) (n : Node) : Prop := Unlearnt env n ∧ ∀ x, ¬ Escapes env false n x

/-- Under `env'`, where the nodes of `n` are at the positions `g`, the same and further parts of `n` are marked: parts that are silent and no decorators.  The
source says the same about handlers and `with` statements of several items. -/
structure FurtherMarks (env env' : Env) (g : Layout) (n : Node) : Prop where
  kept : ∀ k, In k n → k.line ∈ env.noLines → (k.moved g).line ∈ env'.noLines
  silent : ∀ k, In k n → Marked env' (k.moved g) → ¬ Marked env k → Silent env k
  decorators : ∀ k, In k n → ∀ d ∈ k.fields .decoratorList, (d.moved g).line ∈ env'.noLines → d.line ∈ env.noLines
  star : ∀ k, In k n → (∃ x, k.kind = .exceptHandler x) → (ExceptStarText env' (k.moved g).line (k.moved g).col ↔ ExceptStarText env k.line k.col)
  paren : ∀ k, In k n → k.kind = .with ∨ k.kind = .asyncWith → 2 ≤ (k.fields .items).length →
    1 ≤ k.line ∧ 1 ≤ (k.moved g).line ∧ (WithParenHere env' (k.moved g).line ↔ WithParenHere env k.line)

end Vermin.Spec
