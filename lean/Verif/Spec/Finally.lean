import Verif.Spec.Reach
/-
`continue` in `finally` blocks.
-/
namespace Vermin.Spec
open Vermin

/-- `c` is within `n` and not in the body of a loop between: a `continue` there is about a loop outside of `n`. -/
inductive Direct : Node → Node → Prop
  | self (n) : Direct n n
  | kid {n k c : Node} : k ∈ n.kids → ¬ (IsLoop n.kind ∧ k.fld = .body) → Direct c k → Direct c n

/-- Somewhere a `finally` block of a `try` statement has a `continue` that is about a loop outside of the block. -/
def ContinueInFinally (n : Node) : Prop :=
  ∃ t f c, In t n ∧ (t.kind = .try ∨ t.kind = .tryStar) ∧ f ∈ t.fields .finalbody ∧ Direct c f ∧ c.kind = .continue

/-- No loop is a statement of the body of a class (rather than of a function in it). -/
def NoClassLoops (n : Node) : Prop := ∀ m name k, In m n → m.kind = .classDef name → k ∈ m.kids → ¬ IsLoop k.kind

/-- Like `Direct`, of the parts that are looked at and through no part of a loop. -/
inductive ReachDirect (env : Env) : Node → Node → Prop
  | self (n) : ReachDirect env n n
  | kid {n k c : Node} : Visits env n k → ¬ IsLoop n.kind → ReachDirect env c k → ReachDirect env c n

/-- `m` comes up in the visit of `n`: parts of what is not marked, and once more the parts of the statements of a class, whatever these
statements are.  (Which expressions come up does not matter for statements.) -/
inductive Toured (env : Env) : Node → Node → Prop
  | self (n) : Toured env n n
  | kid {n k m : Node} : k ∈ n.kids → ¬ Marked env n → Toured env m k → Toured env m n
  | again {n k j m : Node} {name : String} : n.kind = .classDef name → ¬ Marked env n → k ∈ n.fields .body → j ∈ k.kids → Toured env m j →
      Toured env m n

/-- Likewise, but not by way of a loop; a loop that is directly a statement of a class does not count when the class comes up once more. -/
inductive TouredNear (env : Env) : Node → Node → Prop
  | self (n) : TouredNear env n n
  | kid {n k m : Node} : k ∈ n.kids → ¬ Marked env n → ¬ IsLoop n.kind → TouredNear env m k → TouredNear env m n
  | again {n k j m : Node} {name : String} : n.kind = .classDef name → ¬ Marked env n → k ∈ n.fields .body → j ∈ k.kids →
      TouredNear env m j → TouredNear env m n

/-- Expressions contain no `continue`: neither keyword arguments and leaves of the tree, nor annotated assignments, nor the annotations
of results of functions.  So says the grammar. -/
def ContinueIsStatement (n : Node) : Prop :=
  ∀ m k c, In m n → k ∈ m.kids → Opaque m.kind ∨ m.kind = .annAssign ∨ k.fld = .returns → In c k → c.kind ≠ .continue

/-- What is reported: a `continue` in the `finally` block of a `try` statement that comes up, and not in a loop between. -/
def ReportsContinue (env : Env) (n : Node) : Prop :=
  ∃ t f c, Toured env t n ∧ t.kind = .try ∧ ¬ Marked env t ∧ f ∈ t.fields .finalbody ∧ TouredNear env c f ∧ c.kind = .continue

end Vermin.Spec
