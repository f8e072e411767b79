import Verif.Spec.Nodes
/-
What trees are like that come from Python's parser, and programs that cannot make the visitor raise.
-/
namespace Vermin.Spec
open Vermin

/-- The fields that cannot be missing, by class (the grammar of the `ast` module). -/
def required : Kind → List Fld
  | .comprehension _ => [.target, .iter]
  | .keyword _ => [.value]
  | .call => [.func]
  | .binOp => [.left, .op, .right]
  | .unaryOp => [.op, .operand]
  | .boolOp => [.op]
  | .ifExp => [.test, .ifBody, .ifOrelse]
  | .listComp => [.elt]
  | .setComp => [.elt]
  | .generatorExp => [.elt]
  | .dictComp => [.key, .value]
  | .compare => [.left]
  | .subscript => [.value, .slice]
  | .index => [.value]
  | .formattedValue => [.value]
  | _ => []

/-- A node as the parser makes it: no required field is missing, the keys of a dict are those that are not `**`, and numbers
have no sign (a sign is an operator). -/
structure Shaped (n : Node) : Prop where
  fields : ∀ f ∈ required n.kind, n.field f ≠ none
  keys : ∀ l, n.kind = .dict l → (n.fields .keys).length = (l.filter (!·)).length
  numbers : ∀ i, n.kind = .const (.int i) → 0 ≤ i

/-- A tree as the parser makes it -/
def Parsed (n : Node) : Prop := ∀ m, In m n → Shaped m

/-- Is a complex number -/
def IsComplex (n : Node) : Prop := ∃ t, n.kind = .const (.complex t)

/-- There is a complex number in it. -/
def HasComplex (n : Node) : Prop := ∃ m, In m n ∧ IsComplex m

/-- There is a dict with `**mapping` in it. -/
def HasDictUnpack (n : Node) : Prop := ∃ m l, In m n ∧ m.kind = .dict l ∧ true ∈ l

/-- Constants given to `.strftime` and `.strptime` are strings. -/
def StrftimeOk (n : Node) : Prop :=
  ∀ f a c, n.kind = .call → n.field .func = some f → (f.kind = .attribute "strftime" ∨ f.kind = .attribute "strptime") →
    a ∈ n.fields .args → a.kind = .const c → ∃ t, c = .str t

/-- No annotation of a parameter has a complex number in it. -/
def AnnotationsOk (n : Node) : Prop := IsFunction n → ∀ a, ParamAnn n a → ¬ HasComplex a

/-- When looking for self-documenting f-strings, no expression in an f-string has a complex number or `**` in a dict. -/
def FstringsOk (env : Env) (n : Node) : Prop :=
  env.cfg.hasFeature "fstring-self-doc" = true → n.kind = .joinedStr → ∀ v ∈ n.fields .values, v.kind = .formattedValue →
    ¬ HasComplex v ∧ ¬ HasDictUnpack v

/-- Programs without the constructs that the visitor cannot cope with. -/
structure Tame (env : Env) (n : Node) : Prop where
  strftime : ∀ m, In m n → StrftimeOk m
  annotations : ∀ m, In m n → AnnotationsOk m
  fstrings : ∀ m, In m n → FstringsOk env m

end Vermin.Spec
