import Verif.Spec.OldTrees
import Verif.Model.State
/-
Specification of programs that differ in their flow of control only.
-/
namespace Vermin.Spec
open Vermin Vermin.Py

/-- Not a function `__dir__` or `__getattr__` in a file `__init__.py`. -/
def Undirected (env : Env) (n : Node) : Prop :=
  env.isInitFile = true → ∀ x, n.kind = .functionDef x ∨ n.kind = .asyncFunctionDef x → x ≠ "__dir__" ∧ x ≠ "__getattr__"

/-- A field of statements. -/
def OfStmts (f : Fld) : Prop := f = .body ∨ f = .orelse ∨ f = .finalbody

/-- A statement that other statements are in, other than a class. -/
def HasStmts (k : Kind) : Prop :=
  k = .module ∨ (∃ x, k = .functionDef x ∨ k = .asyncFunctionDef x) ∨ k = .for ∨ k = .asyncFor ∨ k = .while ∨ k = .if ∨ k = .with ∨ k = .asyncWith ∨
    k = .try ∨ k = .tryStar ∨ (∃ x, k = .exceptHandler x) ∨ k = .matchCase

/-- The expression statement `e` in the field of the statement `i` and at its position. -/
def asStmt (i : Info) (e : Node) : Node := .mk { i with kind := .expr } [putIn .value e]

mutual
/-- Sequences of statements that differ in the flow of control only. -/
inductive SameFlow (env : Env) : List Node → List Node → Prop
  | refl (l : List Node) : SameFlow env l l
  | symm {l m : List Node} : SameFlow env l m → SameFlow env m l
  | trans {l m o : List Node} : SameFlow env l m → SameFlow env m o → SameFlow env l o
  | seq {l l' m m' : List Node} : SameFlow env l l' → SameFlow env m m' → SameFlow env (l ++ m) (l' ++ m')
  /-- without `pass` and `break` -/
  | nothing {n : Node} : n.kind = .pass ∨ n.kind = .break → SameFlow env [n] []
  /-- `return e` or `assert e` and `e` -/
  | plain {i : Info} {e : Node} : i.kind = .ret ∨ i.kind = .assert → SameFlow env [.mk i [e]] [asStmt i e]
  /-- `if e: l else: m` and `e` followed by `l` and by `m`, unless a comment excludes the line -/
  | cond {i : Info} {e : Node} {l m : List Node} : i.kind = .if → (∃ n, i.line = some n ∧ n ∉ env.noLines) →
      (∀ k ∈ e :: l ++ m, ∀ o, In o k → Undirected env o) →
      SameFlow env [.mk i (e :: l ++ m)] (asStmt i e :: (l ++ m).map (putIn i.fld))
  /-- within another statement -/
  | inside {n n' : Node} : SameInside env n n' → SameFlow env [n] [n']
/-- Statements that differ only in the flow of control of the statements in them, other than those directly in the body of a class. -/
inductive SameInside (env : Env) : Node → Node → Prop
  | compound {i : Info} {pre post l m : List Node} {f : Fld} : HasStmts i.kind → OfStmts f → (∀ k ∈ l ++ m, k.fld = f) → SameFlow env l m →
      SameInside env (.mk i (pre ++ l ++ post)) (.mk i (pre ++ m ++ post))
  | cls {i : Info} {pre post : List Node} {k k' : Node} {x : String} : i.kind = .classDef x → k.fld = .body → k'.fld = .body → SameInside env k k' →
      SameInside env (.mk i (pre ++ [k] ++ post)) (.mk i (pre ++ [k'] ++ post))
end

end Vermin.Spec
