import Verif.Spec.Pruned
import Verif.Spec.Layout
/-
Statements that require nothing, and programs with more of them.
-/
namespace Vermin.Spec
open Vermin

/-- Constructs that require nothing, whatever is around them: `pass`, `break`, `global`, `return`, `del`, `assert`, `if`, `while`, conditional expressions,
`and`, `or`, `not`, comparisons, lists and tuples, names other than `long`, `True` and `False`, numbers, text and `None`. -/
def HarmlessKind : Kind → Prop
  | .pass | .break | .global | .expr | .ret | .delete | .assert | .if | .while | .ifExp | .boolOp | .unaryOp | .compare | .tuple _ | .list _ => True
  | .op o => o ≠ .matMult
  | .name x _ => x ≠ "long" ∧ x ≠ "True" ∧ x ≠ "False"
  | .const .none | .const (.int _) | .const (.float _) | .const (.complex _) | .const (.str _) => True
  | _ => False

/-- Statements made of such constructs only. -/
def Harmless (n : Node) : Prop := ∀ k, In k n → HarmlessKind k.kind

mutual
/-- The second program is the first with more harmless statements, anywhere among the statements of the program, also in branches and `finally` blocks that
the first has not. -/
inductive Padded : Node → Node → Prop
  | same (n) : Padded n n
  | node {i : Info} {ks ks' : List Node} : Compound i.kind → PaddedList ks ks' → Padded (.mk i ks) (.mk i ks')
inductive PaddedList : List Node → List Node → Prop
  | nil : PaddedList [] []
  | keep {k ks ks'} : PaddedList ks ks' → PaddedList (k :: ks) (k :: ks')
  | into {k k' ks ks'} : isBlock k.fld = true → Padded k k' → PaddedList ks ks' → PaddedList (k :: ks) (k' :: ks')
  | more {k ks ks'} : isBlock k.fld = true → Harmless k → PaddedList ks ks' → PaddedList ks (k :: ks')
end

end Vermin.Spec
