import Verif.Model.Ast
import Verif.Model.State
/-
Parts of programs, and chains of attributes `a.b.c`.
-/
namespace Vermin.Spec
open Vermin

/-- The names that `x` stands for in a table -/
abbrev Table := Py.Dict String String

/-- Names and types -/
abbrev Types := Py.Dict String (List String)

/-- A node is in the tree of another. -/
inductive In : Node → Node → Prop
  | self (n) : In n n
  | kid {n k m : Node} : k ∈ n.kids → In m k → In m n

/-- A call of the name `f`. -/
def CallsName (n : Node) (f : String) : Prop := n.kind = .call ∧ (n.field .func).bind Node.nameId = some f

/-- A call of an attribute `.a` of some expression `e`. -/
def CallsAttr (n e : Node) (a : String) : Prop := n.kind = .call ∧ ∃ f, n.field .func = some f ∧ f.kind = .attribute a ∧ f.field .value = some e

/-- A call of something that is neither a name nor an attribute, as in `f()()`. -/
def Unnamed (n : Node) : Prop :=
  n.kind = .call ∧ ∀ f, n.field .func = some f → (∀ x c, f.kind ≠ .name x c) ∧ ∀ a, f.kind ≠ .attribute a

/-- An operation with operator `o` -/
def HasOp (n : Node) (o : Op) : Prop := ∃ m, n.field .op = some m ∧ m.kind = .op o

/-- Some parameter (without positional-only and keyword-only ones) has the annotation `a`. -/
def ParamAnn (n a : Node) : Prop := ∃ as p, n.field .args = some as ∧ p ∈ as.fields .args ∧ p.field .annotation = some a

/-- Function definitions -/
def IsFunction (n : Node) : Prop := ∃ name, n.kind = .functionDef name ∨ n.kind = .asyncFunctionDef name

/-- Definitions of the function `f` -/
def DefinesFunction (n : Node) (f : String) : Prop := n.kind = .functionDef f ∨ n.kind = .asyncFunctionDef f

/-- The annotation `a` is the name `x` or a subscript of it. -/
def AnnIs (a : Node) (x : String) : Prop :=
  (∃ c, a.kind = .name x c) ∨ (a.kind = .subscript ∧ ∃ v c, a.field .value = some v ∧ v.kind = .name x c)

/-- Positional arguments that are unpacked: either two, or one that is not the last. -/
def UnpacksArgs {α : Type} (l : List α) (p : α → Prop) : Prop := ∃ i a, l[i]? = some a ∧ p a ∧ (i + 1 < l.length ∨ ∃ j b, j ≠ i ∧ l[j]? = some b ∧ p b)

/-- An integer literal, or one with a sign -/
def IsIntLit (n : Node) : Prop :=
  (∃ i, n.kind = .const (.int i)) ∨ (n.kind = .unaryOp ∧ ∃ m i, n.field .operand = some m ∧ m.kind = .const (.int i))
/-- A negative integer literal -/
def IsNegIntLit (n : Node) : Prop :=
  (∃ i < 0, n.kind = .const (.int i)) ∨
  (n.kind = .unaryOp ∧ HasOp n .uSub ∧ ∃ m i, n.field .operand = some m ∧ m.kind = .const (.int i))

/-- The name `x` of the source -/
def IsName (n : Node) (x : String) : Prop := ∃ c, n.kind = .name x c

/-- An unpacked expression `*e`. -/
def IsUnpacked (n : Node) : Prop := n.kind = .starred .load

/-- The node is the expression `a.b.c` with the names `b`, `c`. -/
inductive Chain : Node → String → List String → Prop
  | one {n v : Node} {a b : String} {c : Ctx} : n.kind = .attribute b → n.kids = [v] → v.fld = .value → v.kind = .name a c → v.kids = [] → Chain n a [b]
  | more {n v : Node} {a b : String} {bs : List String} : n.kind = .attribute b → n.kids = [v] → v.fld = .value → Chain v a bs → Chain n a (bs ++ [b])

/-- The text `a.b.c` -/
def dottedText (a : String) (bs : List String) : String := bs.foldl (fun t b => t ++ "." ++ b) a

/-- The statement imports `m` by the name `y`: `import m as y`, or `from a import b as y` for `m = a.b`. -/
def ImportsAs (n : Node) (m y : String) : Prop :=
  ∃ a ∈ n.fields .names, ∃ k, a.kind = .alias k (some y) ∧ ((n.kind = .import ∧ m = k) ∨ ∃ s, n.kind = .importFrom (some s) 0 ∧ m = s ++ "." ++ k)

end Vermin.Spec
