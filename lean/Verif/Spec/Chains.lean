import Verif.Spec.Reach
/-
Chains of attributes `a.b.c`, and what imports mean for the code after them.
-/
namespace Vermin.Spec
open Vermin

/-- Identifiers have no dots. -/
def Identifier (x : String) : Prop := x ≠ "" ∧ '.' ∉ x.toList

/-- Nothing in the program defines the name. -/
def Undefined (p : Node) (x : String) : Prop := ∀ k, In k p → ¬ Defines k x

/-- The statement imports the name `x` from the module `m`. -/
def ImportsFrom (n : Node) (m x : String) : Prop :=
  n.kind = .importFrom (some m) 0 ∧ ∃ a ∈ n.fields .names, ∃ y, a.kind = .alias x y

/-- The name is imported from no module. -/
def NotFrom (p : Node) (x : String) : Prop := ∀ k m, In k p → ¬ ImportsFrom k m x

/-- The name is given no value by assignments and loops. -/
def Unassigned (p : Node) (x : String) : Prop :=
  (∀ k v, In k p → ¬ AssignsTo k v x) ∧ ∀ k t c, In k p → k.kind = .for ∨ k.kind = .asyncFor → k.field .target = some t → t.kind ≠ .name x c

/-- No calls within `n` of something that is neither a name nor an attribute. -/
def Named (n : Node) : Prop := ∀ m, In m n → ¬ Unnamed m

/-- The names that a program defines have no dots, as is the case for programs that are parsed. -/
def Dotless (p : Node) : Prop := ∀ m x, In m p → Defines m x → '.' ∉ x.toList

/-- The keyword argument `kw` is passed by the call `n` to a function that the program `p` does not define: `a.b.c`, or a name that is neither
defined nor assigned.  No exclusions apply to the argument. -/
structure Passed (env : Env) (p n kw : Node) : Prop where
  call : n.kind = .call
  unmarked : ¬ Marked env n
  named : Named n
  arg : kw ∈ n.kids
  keyword : ∃ k, kw.kind = .keyword k ∧ ∀ g, env.cfg.isExcludedKwarg g (k.getD "None") = false
  dotless : Dotless p
  func : ∃ e, n.field .func = some e ∧ ((∃ a bs, Chain e a bs) ∨ ∃ f, IsName e f ∧ Undefined p f ∧ Unassigned p f)

/-- The part `m` of `n` is looked at along with `n` in the program `p`: like `Reach`, and also the values of keyword arguments. -/
inductive Seen (env : Env) (p : Node) : Node → Node → Prop
  | self (n) : Seen env p n n
  | kid {n k m : Node} : Visits env n k → Seen env p m k → Seen env p m n
  | value {n kw v m : Node} : Passed env p n kw → v ∈ kw.kids → Seen env p m v → Seen env p m n

/-- `n` is looked at as a part of the program `p`, after its statement `i`. -/
def After (env : Env) (p i n : Node) : Prop :=
  p.kind = .module ∧ ∃ l₁ l₂ k, p.kids = l₁ ++ i :: l₂ ∧ k ∈ l₂ ∧ Seen env p n k

/-- The value of the expression has the name `y`: it is a call of what has that name, an attribute of that name, or a display or constant
of that type. -/
inductive Denotes (p : Node) : Node → String → Prop
  | call {v : Node} {f : String} : CallsName v f → Denotes p v f
  | callAttr {v f : Node} {a : String} {bs : List String} : v.kind = .call → v.field .func = some f → Chain f a bs →
      (∀ k m, In k p → ¬ ImportsAs k m a) → Denotes p v (dottedText a bs)
  | attr {v : Node} {a : String} {bs : List String} : Chain v a bs → (∀ k m, In k p → ¬ ImportsAs k m a) → Denotes p v (dottedText a bs)
  | dict {v : Node} {l : List Bool} : v.kind = .dict l → Denotes p v "dict"
  | set {v : Node} : v.kind = .set → Denotes p v "set"
  | list {v : Node} {c : Ctx} : v.kind = .list c → Denotes p v "list"
  | str {v : Node} {t : String} : v.kind = .const (.str t) → Denotes p v "str"
  | int {v : Node} {i : Int} : v.kind = .const (.int i) → Denotes p v "int"
  | float {v : Node} {t : String} : v.kind = .const (.float t) → Denotes p v "float"
  | bytes {v : Node} {t : String} : v.kind = .const (.bytes t) → Denotes p v "bytes"
  | bool {v : Node} {b : Bool} : v.kind = .const (.bool b) → Denotes p v "int"

/-- An augmented assignment of the value of a variable -/
def Augments (n v : Node) : Prop := n.kind = .augAssign ∧ ∃ z c, v.kind = .name z c

/-- Whenever the variable `x` is given a value in the program, it has the name `y`; it may be augmented by variables. -/
def Always (p : Node) (x y : String) : Prop :=
  (∀ k v, In k p → AssignsTo k v x → Denotes p v y ∨ Augments k v) ∧
  ∀ k t c, In k p → k.kind = .for ∨ k.kind = .asyncFor → k.field .target = some t → t.kind ≠ .name x c

end Vermin.Spec
