import Verif.Spec.Nodes
/-
Attributes of calls and of literals: `Fraction(42).as_integer_ratio`, `{}.items`, `"".isascii`.
-/
namespace Vermin.Spec
open Vermin

/-- The display is of the type: `{}`, `{1}`, `[]`. -/
inductive Brackets : Node → String → Prop
  | dict {n : Node} {ks : List Bool} : n.kind = .dict ks → Brackets n "dict"
  | set {n : Node} : n.kind = .set → Brackets n "set"
  | list {n : Node} {c : Ctx} : n.kind = .list c → Brackets n "list"

/-- The constant is of the type. -/
inductive Literal : Const → String → Prop
  | str (t) : Literal (.str t) "str"
  | int (i) : Literal (.int i) "int"
  | float (t) : Literal (.float t) "float"
  | bytes (t) : Literal (.bytes t) "bytes"

/-- Types that have literals, and what they are called in Python 2 -/
def valueTypes : List String := ["dict", "set", "list", "unicode", "str", "int", "float", "long", "bytes"]

/-- Expressions without attributes, calls, and displays: names, constants, operators, subscripts, … -/
def Plain (n : Node) : Prop := ∀ m, In m n → (∀ a, m.kind ≠ .attribute a) ∧ m.kind ≠ .call ∧ ∀ t, ¬ Brackets m t

/-- What attributes are attributes of -/
inductive Base where
  | name
  | call
  | display
  deriving DecidableEq

/-- The expression is spelt `a.b.c` with the names `b`, `c` if arguments and elements are left out: `a(1).b(2).c`, `[1].b().c` for the name `list`.
All arguments and elements are plain. -/
inductive Spelt : Node → Base → String → List String → Prop
  /-- `a.b` -/
  | name {n v : Node} {a b : String} {c : Ctx} : n.kind = .attribute b → n.kids = [v] → v.fld = .value → v.kind = .name a c → v.kids = [] → Spelt n .name a [b]
  /-- `a(..)` -/
  | calls {n v : Node} {a : String} {c : Ctx} {args : List Node} : n.kind = .call → n.kids = v :: args → v.fld = .func → v.kind = .name a c → v.kids = [] →
      (∀ k ∈ args, Plain k) → Spelt n .call a []
  /-- `[..]` -/
  | display {n : Node} {a : String} : Brackets n a → (∀ k ∈ n.kids, Plain k) → Spelt n .display a []
  /-- `e.b` -/
  | attr {n v : Node} {k : Base} {a b : String} {bs : List String} : n.kind = .attribute b → n.kids = [v] → v.fld = .value → Spelt v k a bs →
      (k = .display → b ∉ valueTypes) → Spelt n k a (bs ++ [b])
  /-- `e.b(..)` -/
  | call {n v : Node} {k : Base} {a b : String} {bs : List String} {args : List Node} : n.kind = .call → n.kids = v :: args → v.fld = .func →
      v.kind = .attribute b → Spelt v k a bs → (∀ k ∈ args, Plain k) → Spelt n k a bs

/-- The attribute is spelt `a.b.c` with the names `b`, `c`: also `a.b(1).c`. -/
def Path (n : Node) (a : String) (bs : List String) : Prop := (∃ b, n.kind = .attribute b) ∧ Spelt n .name a bs

theorem Chain.spelt {n : Node} {a : String} {bs : List String} (h : Chain n a bs) : Spelt n .name a bs := by
  induction h with
  | one h1 h2 h3 h4 h5 => exact .name h1 h2 h3 h4 h5
  | more h1 h2 h3 _ ih => exact .attr h1 h2 h3 ih nofun
theorem Chain.path {n : Node} {a : String} {bs : List String} (h : Chain n a bs) : Path n a bs := by
  refine ⟨?_, h.spelt⟩
  cases h with
  | one h => exact ⟨_, h⟩
  | more h => exact ⟨_, h⟩

/-- The expression is the name `a` or spelt `a.b.c` with the names `b`, `c`. -/
def Names (n : Node) (a : String) (bs : List String) : Prop := (∃ c, n.kind = .name a c ∧ bs = []) ∨ Path n a bs

/-- An attribute of a constant: `"".b` -/
def OfLiteral (n : Node) (t b : String) : Prop :=
  ∃ v c, n.kind = .attribute b ∧ n.kids = [v] ∧ v.fld = .value ∧ v.kind = .const c ∧ v.kids = [] ∧ Literal c t ∧ b ∉ valueTypes

/-- The part gives a name to an attribute whose expression it is in: its own name, the name that it is an attribute or a call of (which may be renamed by
`import m as y`), or the type of a literal. -/
inductive Contributes (renames : Py.Dict String String) (m : Node) : Option String → Prop
  | attr {a : String} : m.kind = .attribute a → Contributes renames m (some a)
  | value {v : Node} {a x : String} : m.kind = .attribute a → m.field .value = some v → IsName v x →
      Contributes renames m (some ((Py.Dict.get? renames x).getD x))
  | func {v : Node} {x : String} : m.kind = .call → m.field .func = some v → IsName v x → Contributes renames m (some x)
  | display {t : String} : Brackets m t → Contributes renames m (some t)
  | literal {c : Const} {t : String} : m.kind = .const c → Literal c t → Contributes renames m (some t)
  /-- complex numbers -/
  | complex {t : String} : m.kind = .const (.complex t) → Contributes renames m none

/-- `full` are the names that an expression is read as, the first one first: `a.b.c` is read as that, if `a` is not renamed, and the names of any other
expression are those of its parts. -/
structure Reads (renames : Table) (n : Node) (full : List (Option String)) : Prop where
  parts : ∀ x ∈ full, ∃ m, In m n ∧ Contributes renames m x
  own : ∀ b, n.kind = .attribute b → full.getLast? = some (some b)
  spelt : ∀ b k a bs, n.kind = .attribute b → Spelt n k a bs → full = some (if k = .name then (Py.Dict.get? renames a).getD a else a) :: bs.map some
  literal : ∀ t b, OfLiteral n t b → full = [some t, some b]

/-- The text of names, with dots between them -/
def fullText (full : List (Option String)) : String :=
  match full.filterMap id with
  | [] => ""
  | a :: bs => dottedText a bs

/-- The text is `p.q.r` with the names `q`, `r`, none of which has dots. -/
def DotParts (t p : String) (qs : List String) : Prop := '.' ∉ p.toList ∧ (∀ q ∈ qs, '.' ∉ q.toList) ∧ t = dottedText p qs

end Vermin.Spec
