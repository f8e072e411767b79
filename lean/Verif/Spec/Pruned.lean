import Verif.Spec.Reach
/-
Programs without some of their statements.
-/
namespace Vermin.Spec
open Vermin

/-- The fields that hold statements, or clauses with statements. -/
def isBlock : Fld → Bool
  | .body | .orelse | .finalbody | .handlers | .cases => true
  | _ => false

/-- The statements and clauses that have statements as parts. -/
def Compound : Kind → Prop
  | .module | .functionDef _ | .asyncFunctionDef _ | .classDef _ | .for | .asyncFor | .while | .if | .with | .asyncWith | .match | .try | .tryStar
  | .exceptHandler _ | .matchCase => True
  | _ => False

mutual
/-- The second program is the first without some marked statements, at any depth, other than statements that are directly in the body of a
class. -/
inductive Pruned (env : Env) : Node → Node → Prop
  | same (n) : Pruned env n n
  | node {i : Info} {ks ks' : List Node} : Compound i.kind → PrunedList env i.kind ks ks' → Pruned env (.mk i ks) (.mk i ks')
inductive PrunedList (env : Env) : Kind → List Node → List Node → Prop
  | nil {p} : PrunedList env p [] []
  | keep {p k ks ks'} : PrunedList env p ks ks' → PrunedList env p (k :: ks) (k :: ks')
  | into {p k k' ks ks'} : isBlock k.fld = true → Pruned env k k' → PrunedList env p ks ks' → PrunedList env p (k :: ks) (k' :: ks')
  | drop {p k ks ks'} : isBlock k.fld = true → (∀ c, p ≠ .classDef c) → Marked env k → PrunedList env p ks ks' → PrunedList env p (k :: ks) ks'
end

/-- Functions -/
def IsFunctionKind (k : Kind) : Prop := (∃ x, k = .functionDef x) ∨ ∃ x, k = .asyncFunctionDef x

/-- The type of literals and displays. -/
def literalType : Kind → Option String
  | .dict _ => some "dict"
  | .set => some "set"
  | .list _ => some "list"
  | .const (.str _) => some "str"
  | .const (.int _) => some "int"
  | .const (.bool _) => some "int"
  | .const (.float _) => some "float"
  | .const (.bytes _) => some "bytes"
  | _ => none

/-- Values whose type is not looked at: operators, comparisons, lambdas, comprehensions, tuples, subscripts, f-strings and so on. -/
def Untyped : Kind → Prop
  | .call | .attribute _ | .dict _ | .set | .list _ | .const _ | .name _ _ => False
  | _ => True

/-- Two values that are the same as far as the type is concerned that a variable gets: literals of the same type, calls of the same function, or
values whose type is not looked at. -/
inductive AlikeValues (v w : Node) : Prop
  | literal {t : String} : literalType v.kind = some t → literalType w.kind = some t → AlikeValues v w
  | call : v.kind = .call → w.kind = .call → w.field .func = v.field .func → AlikeValues v w
  | untyped : Untyped v.kind → Untyped w.kind → AlikeValues v w

/-- A part of an annotated assignment and what it may be replaced with: an annotation by another one, with regard to the names `Final` and
`Literal`; the value by another one of the same type, or by none; the target by itself. -/
inductive AnnParts : List Node → List Node → Prop
  | nil : AnnParts [] []
  | keep {k ks ks'} : AnnParts ks ks' → AnnParts (k :: ks) (k :: ks')
  | ann {k k' ks ks'} : k.fld = .annotation → k'.fld = .annotation → (AnnIs k' "Final" ↔ AnnIs k "Final") → (AnnIs k' "Literal" ↔ AnnIs k "Literal") →
      AnnParts ks ks' → AnnParts (k :: ks) (k' :: ks')
  | value {k k' ks ks'} : k.fld = .value → k'.fld = .value → AlikeValues k k' → AnnParts ks ks' → AnnParts (k :: ks) (k' :: ks')
  | noValue {k ks ks'} : k.fld = .value → Untyped k.kind → (∀ x ∈ ks', x.fld ≠ .value) → AnnParts ks ks' → AnnParts (k :: ks) ks'

mutual
/-- The second program is the first with other annotations of the results of functions and of variables, and other values of annotated variables, except in statements that are directly in
the body of a class (the first argument tells whether the node is one). -/
inductive Reannotated : Bool → Node → Node → Prop
  | same (c n) : Reannotated c n n
  | node {c} {i : Info} {ks ks' : List Node} : Compound i.kind → ReannotatedList c i.kind ks ks' → Reannotated c (.mk i ks) (.mk i ks')
  | variable {i : Info} {ks ks' : List Node} : i.kind = .annAssign → AnnParts ks ks' → Reannotated false (.mk i ks) (.mk i ks')
inductive ReannotatedList : Bool → Kind → List Node → List Node → Prop
  | nil {c p} : ReannotatedList c p [] []
  | keep {c p k ks ks'} : ReannotatedList c p ks ks' → ReannotatedList c p (k :: ks) (k :: ks')
  | into {c p k k' ks ks'} (b : Bool) : isBlock k.fld = true → (b = false → ∀ x, p ≠ .classDef x) → Reannotated b k k' →
      ReannotatedList c p ks ks' → ReannotatedList c p (k :: ks) (k' :: ks')
  | returns {p k k' ks ks'} : IsFunctionKind p → k.fld = .returns → k'.fld = .returns → ReannotatedList false p ks ks' →
      ReannotatedList false p (k :: ks) (k' :: ks')
end

end Vermin.Spec
