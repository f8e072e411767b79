import Verif.Spec.Constructs
/-
Which parts of a program are looked at, and which constructs are detected for sure, independent of the visitor.
-/
namespace Vermin.Spec
open Vermin

/-- The statements and expressions that are left out if they start on a marked line. -/
def Markable : Kind → Prop
  | .import | .importFrom _ _ | .call | .assign | .augAssign | .annAssign | .functionDef _ | .asyncFunctionDef _ | .await | .classDef _
  | .namedExpr | .nonlocal | .yieldFrom | .yield | .raise | .exceptHandler _ | .with | .asyncWith | .subscript | .match | .if | .ifExp
  | .for | .asyncFor | .while | .try | .boolOp | .typeAlias => True
  | _ => False

/-- Left out because of a comment. -/
def Marked (env : Env) (n : Node) : Prop := Markable n.kind ∧ n.line ∈ env.noLines

/-- The classes of nodes that have no parts of interest: keyword arguments and the leaves of the tree. -/
def Opaque : Kind → Prop
  | .keyword _ | .import | .importFrom _ _ | .name _ _ | .const _ | .alias _ _ | .pass | .break | .continue | .op _ => True
  | _ => False

/-- Unevaluated annotations: those of functions' results, and annotated assignments as a whole. -/
def Unevaluated (env : Env) (n k : Node) : Prop :=
  env.cfg.evalAnnotations = false ∧ (n.kind = .annAssign ∨ (IsFunction n ∧ k.fld = .returns))

/-- The part `k` of `n` is looked at along with `n`. -/
def Visits (env : Env) (n k : Node) : Prop :=
  k ∈ n.kids ∧ ¬ Marked env n ∧ ¬ Opaque n.kind ∧ ¬ Unevaluated env n k

/-- The part `m` of `n` is looked at along with `n`. -/
inductive Reach (env : Env) : Node → Node → Prop
  | self (n) : Reach env n n
  | kid {n k m : Node} : Visits env n k → Reach env m k → Reach env m n

/-- Loops -/
def IsLoop : Kind → Prop
  | .for | .asyncFor | .while => True
  | _ => False

/-- Statements and expressions with a scope of their own. -/
def Scoped : Kind → Prop
  | .functionDef _ | .asyncFunctionDef _ | .lambda | .listComp | .generatorExp | .setComp | .dictComp | .exceptHandler _ | .with
  | .asyncWith | .for | .asyncFor => True
  | _ => False

/-- Functions and the clauses of comprehensions: `yield` and `await` in them do not count for what is around. -/
def Counted : Kind → Prop
  | .functionDef _ | .asyncFunctionDef _ | .comprehension _ => True
  | _ => False

/-- The language features whose constructs are recognised by themselves, whatever comes before in the program.  (The
others depend on names: `long` may be defined by the program, `x | y` depends on what `x` and `y` are, `pow` and `super`
may be other names of `array.array`, ...) -/
def certain : List Flag :=
  [.printv3, .format27, .bytesv3, .fstrings, .boolConst, .annotations, .varAnnotations, .finalAnnotations, .coroutines, .asyncComprehension,
   .asyncFor, .namedExprs, .kwOnlyArgs, .posOnlyArgs, .nonlocalStmt, .yieldFrom, .raiseCause, .raiseFromNone, .setLiterals, .setComp, .dictComp,
   .matMult, .withStatement, .asyncWithStatement, .multiWithitem, .generalizedUnpacking, .unpackingAssignment, .typeAliasStatement, .bytesFormat,
   .bytearrayFormat, .functionDecorators, .classDecorators, .relaxedDecorators, .patternMatching, .exceptStar, .metaclassClassKeyword]

/-! ### Definitions -/

/-- A node defines a name: `def`, `class`, `import .. as`, `from m import .. as`, assignments and named expressions. -/
inductive Introduces (n : Node) (x : String) : Prop
  | function : DefinesFunction n x → Introduces n x
  | class : n.kind = .classDef x → Introduces n x
  | import {a : Node} {m : String} : n.kind = .import → a ∈ n.fields .names → a.kind = .alias m (some x) → Introduces n x
  | importFrom {a : Node} {m k : String} : n.kind = .importFrom (some m) 0 → a ∈ n.fields .names → a.kind = .alias k (some x) → Introduces n x
  | assign {t : Node} : n.kind = .assign → t ∈ n.fields .targets → Binds t x → Introduces n x
  | single {t : Node} : n.kind = .augAssign ∨ n.kind = .annAssign ∨ n.kind = .namedExpr → n.field .target = some t → t.kind = .name x .store →
      Introduces n x

/-- Like `Reach`, but not into statements and expressions with a scope of their own. -/
inductive ReachFlat (env : Env) : Node → Node → Prop
  | self (n) : ReachFlat env n n
  | kid {n k m : Node} : Visits env n k → ¬ Scoped n.kind → ReachFlat env m k → ReachFlat env m n

end Vermin.Spec
