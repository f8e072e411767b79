import Verif.Spec.Settled
import Verif.Spec.Spelt
/-
What the parts of a program use of modules and their members, independent of the visitor.
-/
namespace Vermin.Spec
open Vermin

/-- The statement imports the module `m`: `import m`, `from m import ..`, or `from a import b` for `m = a.b`. -/
inductive ImportsModule (n : Node) : String → Prop
  | import {a : Node} {x : String} {y : Option String} : n.kind = .import → a ∈ n.fields .names → a.kind = .alias x y → ImportsModule n x
  | from {m : String} : n.kind = .importFrom (some m) 0 → ImportsModule n m
  | fromName {a : Node} {m x : String} {y : Option String} : n.kind = .importFrom (some m) 0 → a ∈ n.fields .names → a.kind = .alias x y → x ≠ "*" →
      ImportsModule n (m ++ "." ++ x)

/-- The module is imported by one of the statements `l`, it is not excluded, and the program does not define its name. -/
def ModVar (env : Env) (p : Node) (l : List Node) (m : String) : Prop :=
  Undefined p m ∧ env.cfg.isExcluded m = false ∧ ∃ i ∈ l, i.line ∉ env.noLines ∧ ImportsModule i m

/-- The part `n` of the program uses the module: it imports it, or it is an expression `a.b.c` where `a` is imported, by its own name or another. -/
inductive UsesModule (env : Env) (p : Node) (l : List Node) (n : Node) : String → Prop
  | import {m : String} : ImportsModule n m → UsesModule env p l n m
  | chain {a : String} {bs : List String} : Path n a bs → Unrenamed p a → ModVar env p l a → UsesModule env p l n (dottedText a bs)
  | renamed {y m : String} {bs : List String} : Path n y bs → RenVar env p l y m → ModVar env p l m → UsesModule env p l n (dottedText m bs)

/-- The part `n` of the program uses the member: `l` are statements before it. -/
inductive Uses (env : Env) (p : Node) (l : List Node) (n : Node) : String → Prop
  /-- `import x` -/
  | import {a : Node} {x : String} {y : Option String} : n.kind = .import → a ∈ n.fields .names → a.kind = .alias x y → Uses env p l n x
  /-- `from m import x`: both `m.x` … -/
  | importFrom {a : Node} {m x : String} {y : Option String} : n.kind = .importFrom (some m) 0 → a ∈ n.fields .names → a.kind = .alias x y → x ≠ "*" →
      Uses env p l n (m ++ "." ++ x)
  /-- … and `x` -/
  | importName {a : Node} {m x : String} {y : Option String} : n.kind = .importFrom (some m) 0 → a ∈ n.fields .names → a.kind = .alias x y → x ≠ "*" →
      Uses env p l n x
  /-- `f()` -/
  | call {f : String} : CallsName n f → Uses env p l n f
  /-- `a.b.c` -/
  | chain {a : String} {bs : List String} : Path n a bs → Unrenamed p a → Uses env p l n (dottedText a bs)
  /-- `y.b.c` after `import m as y` -/
  | renamed {y m : String} {bs : List String} : Path n y bs → RenVar env p l y m → Uses env p l n (dottedText m bs)
  /-- `x.b.c` after `from m import x` -/
  | origin {x m : String} {bs : List String} : Path n x bs → Unrenamed p x → FromVar env p l x m → m ≠ x → ModVar env p l m →
      Uses env p l n (dottedText m (x :: bs))
  /-- `x.b.c` after `x = y()` -/
  | variable {x y : String} {bs : List String} : Path n x bs → Unrenamed p x → ValVar env p l x y → NotFrom p y → y ≠ "" → Uses env p l n (dottedText y bs)
  /-- `x.b.c` after `from m import y` and `x = y()` -/
  | variableFrom {x y m : String} {bs : List String} : Path n x bs → Unrenamed p x → ValVar env p l x y → FromVar env p l y m →
      Uses env p l n (dottedText m (y :: bs))
  /-- `x.b.c` after `a = z()` and `x = a.d` -/
  | variableTwice {x a z : String} {as bs : List String} : Path n x bs → Unrenamed p x → ValVar env p l x (dottedText a as) → Identifier a →
      (∀ b ∈ as, Identifier b) → ValVar env p l a z → Uses env p l n (dottedText z (as ++ bs))
  /-- `a(1).b` and `[1].b` -/
  | value {k : Base} {a b : String} {bs : List String} : n.kind = .attribute b → Spelt n k a bs → k ≠ .name → Uses env p l n (dottedText a bs)
  /-- `"".b` -/
  | literal {t b : String} : OfLiteral n t b → Uses env p l n (t ++ "." ++ b)
  /-- `raise x` and `raise .. from x`, with the name anywhere in the expressions -/
  | raise {e k : Node} {x : String} : n.kind = .raise → n.field .exc = some e ∨ n.field .cause = some e → In k e → IsName k x → Uses env p l n x
  /-- `except x`, with the name anywhere in the expression -/
  | except {e k : Node} {x : String} {name : Option String} : n.kind = .exceptHandler name → n.field .type = some e → In k e → IsName k x → Uses env p l n x

/-- The expression, as a function that is called, stands for the function named `g`: `l` are statements before. -/
inductive StandsFor (env : Env) (p : Node) (l : List Node) (e : Node) : String → Prop
  /-- `a.b.c` (or `a`) -/
  | plain {a : String} {bs : List String} : Names e a bs → Identifier a → (∀ b ∈ bs, Identifier b) → Unrenamed p a → NotFrom p a → NotFrom p (dottedText a bs) →
      Unassigned p a → StandsFor env p l e (dottedText a bs)
  /-- `a.b.c` (or `a`) after `from m import a` -/
  | origin {a m : String} {bs : List String} : Names e a bs → (∀ b ∈ bs, Identifier b) → Unrenamed p a → FromVar env p l a m →
      (bs ≠ [] → NotFrom p (dottedText a bs)) → StandsFor env p l e (dottedText m (a :: bs))
  /-- `y.b.c` after `import a.b as y` -/
  | renamed {y a : String} {as bs : List String} : Path e y bs → RenVar env p l y (dottedText a as) → Identifier a → (∀ b ∈ as ++ bs, Identifier b) →
      NotFrom p a → NotFrom p (dottedText a (as ++ bs)) → Unassigned p a → StandsFor env p l e (dottedText a (as ++ bs))
  /-- `x.b.c` (or `x`) after `x = y()` -/
  | variable {x y : String} {bs : List String} : Names e x bs → Identifier x → (∀ b ∈ bs, Identifier b) → Unrenamed p x → NotFrom p x →
      NotFrom p (dottedText x bs) → ValVar env p l x y → NotFrom p y → y ≠ "" → StandsFor env p l e (dottedText y bs)
  /-- `x.b.c` (or `x`) after `from m import y` and `x = y()` -/
  | variableFrom {x y m : String} {bs : List String} : Names e x bs → Identifier x → (∀ b ∈ bs, Identifier b) → Unrenamed p x → NotFrom p x →
      NotFrom p (dottedText x bs) → ValVar env p l x y → FromVar env p l y m → StandsFor env p l e (dottedText m (y :: bs))
  /-- `a(1).b` and `[1].b` -/
  | value {k : Base} {a b : String} {bs : List String} : e.kind = .attribute b → Spelt e k a bs → k ≠ .name → Identifier a → (∀ b ∈ bs, Identifier b) →
      NotFrom p a → NotFrom p (dottedText a bs) → Unassigned p a → StandsFor env p l e (dottedText a bs)
  /-- `"".b` -/
  | literal {t b : String} : OfLiteral e t b → Identifier b → NotFrom p t → NotFrom p (t ++ "." ++ b) → Unassigned p t → StandsFor env p l e (t ++ "." ++ b)

end Vermin.Spec
