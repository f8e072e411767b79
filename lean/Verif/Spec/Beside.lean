import Verif.Spec.Constructs
/-
Specification of parts of a program that have nothing to do with each other.
-/
namespace Vermin.Spec
open Vermin

/-- A dotted name has the word. -/
def HasWord (x w : String) : Prop := w.toList ∈ Py.splitOn (· == '.') x.toList

/-- The identifiers in a node itself. -/
def _root_.Vermin.Kind.identifiers : Kind → List String
  | .functionDef x => [x]
  | .asyncFunctionDef x => [x]
  | .classDef x => [x]
  | .importFrom m _ => m.toList
  | .attribute a => [a]
  | .name x _ => [x]
  | .exceptHandler x => x.toList
  | .arg a => [a]
  | .keyword a => a.toList
  | .alias x y => x :: y.toList
  | _ => []

/-- Those that are single names: all but the names of modules. -/
def _root_.Vermin.Kind.ownNames : Kind → List String
  | .importFrom _ _ => []
  | .alias _ y => y.toList
  | k => k.identifiers

/-- A node gives a meaning to a name: it defines it, assigns something to it, loops over its values, or imports it. -/
inductive GivesMeaning (n : Node) (x : String) : Prop
  | define : Defines n x → GivesMeaning n x
  | assign {v : Node} : AssignsTo n v x → GivesMeaning n x
  | loop {t : Node} {c : Ctx} : n.kind = .for ∨ n.kind = .asyncFor → n.field .target = some t → t.kind = .name x c → GivesMeaning n x
  | name {a : Node} {m : String} : n.kind = .importFrom (some m) 0 → a ∈ n.fields .names → (∃ y, a.kind = .alias x y) → x ≠ "*" → GivesMeaning n x
  | as {a : Node} {k : String} : a ∈ n.fields .names → a.kind = .alias k (some x) → GivesMeaning n x

/-- Part of a name that the statements give a meaning to. -/
def Taken (ps : List Node) (w : String) : Prop := ∃ k ∈ ps, ∃ n x, In n k ∧ GivesMeaning n x ∧ HasWord x w

/-- The names Vermin itself gives to values, and the empty one. -/
def valueWords : List String := ["", "dict", "set", "list", "str", "int", "float", "bytes", "None"]

/-- The second statements use no name that the first give a meaning to, and these give none to the names of values.  Literals `...` are different
objects.  The names of imports are aliases, as is the case for programs that are parsed. -/
structure Strangers (ps qs : List Node) : Prop where
  names : ∀ k ∈ qs, ∀ n, In n k → ∀ x ∈ n.kind.identifiers, ∀ w, HasWord x w → ¬ Taken ps w
  values : ∀ w ∈ valueWords, ¬ Taken ps w
  aliases : ∀ k ∈ ps, ∀ n, In n k → ∀ a ∈ n.fields .names, ∃ x y, a.kind = .alias x y
  objects : ∀ k ∈ qs, ∀ n, In n k → n.kind = .const .ellipsis → ∀ l ∈ ps, ∀ e, In e l → e.kind = .const .ellipsis → e.info.uid ≠ n.info.uid

/-- Part of the name of a module that the statements import. -/
def Imported (ps : List Node) (w : String) : Prop :=
  ∃ k ∈ ps, ∃ n m, In n k ∧ ((n.kind = .import ∧ ∃ a ∈ n.fields .names, ∃ y, a.kind = .alias m y) ∨ n.kind = .importFrom (some m) 0) ∧ HasWord m w

/-- Besides, the second use no part of the name of a module that the first import.  Their names, other than those of modules, are single ones, as is the
case for programs that are parsed. -/
structure Unrelated (ps qs : List Node) : Prop extends Strangers ps qs where
  modules : ∀ k ∈ qs, ∀ n, In n k → ∀ x ∈ n.kind.identifiers, ∀ w, HasWord x w → ¬ Imported ps w
  others : ∀ w ∈ valueWords, ¬ Imported ps w
  single : ∀ k ∈ qs, ∀ n, In n k → ∀ x ∈ n.kind.ownNames, '.' ∉ x.toList

end Vermin.Spec
