import Verif.Spec.Nodes
/-
How expressions are written, without white space and parentheses.
-/
namespace Vermin.Spec
open Vermin

/-- White space that is left out of f-strings -/
def Blank (c : Char) : Prop := c = ' ' ∨ c = '\t' ∨ c = '\n' ∨ c = '\r' ∨ c = '\x0c' ∨ c = '\x0b'
instance (c : Char) : Decidable (Blank c) := by unfold Blank; infer_instance

/-- The text without white space and parentheses -/
def compact (t : List Char) : List Char := t.filter fun c => !decide (Blank c) && c != '(' && c != ')'

/-- How the operator is written, without white space -/
def symbol : Op → String
  | .add => "+" | .sub => "-" | .mult => "*" | .div => "/" | .floorDiv => "//" | .mod => "%" | .pow => "**" | .matMult => "@"
  | .bitOr => "|" | .bitXor => "^" | .bitAnd => "&" | .lShift => "<<" | .rShift => ">>"
  | .not => "not" | .uSub => "-" | .uAdd => "+" | .invert => "~"
  | .and => "and" | .or => "or"
  | .eq => "==" | .notEq => "!=" | .lt => "<" | .ltE => "<=" | .gt => ">" | .gtE => ">="
  | .is => "is" | .isNot => "isnot" | .in => "in" | .notIn => "notin"

/-- How the constant is written -/
inductive WrittenConst : Const → String → Prop
  | none : WrittenConst .none "None"
  | true : WrittenConst (.bool true) "True"
  | false : WrittenConst (.bool false) "False"
  | int (n : Nat) : WrittenConst (.int n) (toString n)
  | float (t) : WrittenConst (.float t) t
  | str (t) : WrittenConst (.str t) ("\"" ++ t ++ "\"")

/-- The texts with a separator between them -/
def sepBy (sep : List Char) (ts : List (List Char)) : List Char := (ts.intersperse sep).flatten

/-- The expression is written `t` if white space and parentheses are left out. -/
inductive Written (p : Node) : Node → List Char → Prop
  | name {n : Node} {a : String} {c : Ctx} : n.kind = .name a c → n.kids = [] → Written p n (compact a.toList)
  | const {n : Node} {c : Const} {t : String} : n.kind = .const c → n.kids = [] → WrittenConst c t → Written p n (compact t.toList)
  /-- `a.b`, for names of modules that are not renamed by `import` -/
  | attr {n : Node} {a : String} {bs : List String} : Chain n a bs → (∀ k m, In k p → ¬ ImportsAs k m a) → Written p n (compact (dottedText a bs).toList)
  | binOp {n l o r : Node} {op : Op} {a b : List Char} : n.kind = .binOp → n.field .left = some l → n.field .op = some o → o.kind = .op op → o.kids = [] →
      n.field .right = some r → Written p l a → Written p r b → Written p n (a ++ (symbol op).toList ++ b)
  | unaryOp {n o e : Node} {op : Op} {a : List Char} : n.kind = .unaryOp → n.field .op = some o → o.kind = .op op → o.kids = [] →
      n.field .operand = some e → Written p e a → Written p n ((symbol op).toList ++ a)
  | boolOp {n o : Node} {op : Op} {ts : List (List Char)} : n.kind = .boolOp → n.field .op = some o → o.kind = .op op → o.kids = [] →
      (n.fields .values).length = ts.length → (∀ q ∈ (n.fields .values).zip ts, Written p q.1 q.2) → Written p n (sepBy (symbol op).toList ts)
  /-- `a < b <= c` -/
  | compare {n l : Node} {a : List Char} {ops : List Op} {ts : List (List Char)} : n.kind = .compare → n.field .left = some l → Written p l a →
      (n.fields .ops).length = ops.length → (∀ q ∈ (n.fields .ops).zip ops, q.1.kind = .op q.2 ∧ q.1.kids = []) →
      (n.fields .comparators).length = ts.length → (∀ q ∈ (n.fields .comparators).zip ts, Written p q.1 q.2) →
      Written p n (a ++ ((ops.zip ts).map fun q => (symbol q.1).toList ++ q.2).flatten)
  | ifExp {n b c e : Node} {s t u : List Char} : n.kind = .ifExp → n.field .ifBody = some b → n.field .test = some c → n.field .ifOrelse = some e →
      Written p b s → Written p c t → Written p e u → Written p n (s ++ "if".toList ++ t ++ "else".toList ++ u)
  /-- `(a, b)` -/
  | tuple {n : Node} {c : Ctx} {ts : List (List Char)} : n.kind = .tuple c → (n.fields .elts).length = ts.length →
      (∀ q ∈ (n.fields .elts).zip ts, Written p q.1 q.2) → Written p n (sepBy [','] ts)
  | list {n : Node} {c : Ctx} {ts : List (List Char)} : n.kind = .list c → (n.fields .elts).length = ts.length →
      (∀ q ∈ (n.fields .elts).zip ts, Written p q.1 q.2) → Written p n ('[' :: sepBy [','] ts ++ [']'])
  | set {n : Node} {ts : List (List Char)} : n.kind = .set → (n.fields .elts).length = ts.length →
      (∀ q ∈ (n.fields .elts).zip ts, Written p q.1 q.2) → Written p n ('{' :: sepBy [','] ts ++ ['}'])
  | dict {n : Node} {nulls : List Bool} {ks vs : List (List Char)} : n.kind = .dict nulls → (∀ b ∈ nulls, b = false) → nulls.length = ks.length →
      (n.fields .keys).length = ks.length → (∀ q ∈ (n.fields .keys).zip ks, Written p q.1 q.2) →
      (n.fields .values).length = vs.length → (∀ q ∈ (n.fields .values).zip vs, Written p q.1 q.2) →
      Written p n ('{' :: sepBy [','] ((ks.zip vs).map fun q => q.1 ++ ':' :: q.2) ++ ['}'])
  /-- `a[b]` -/
  | subscript {n v s : Node} {a b : List Char} : n.kind = .subscript → n.field .value = some v → n.field .slice = some s → Written p v a → Written p s b →
      Written p n (a ++ '[' :: b ++ [']'])
  /-- `[e for x in i]` -/
  | listComp {n g x i e : Node} {t u v : List Char} : n.kind = .listComp → n.field .elt = some e → Written p e t → n.fields .generators = [g] →
      g.kind = .comprehension false → g.field .target = some x → Written p x u → g.field .iter = some i → Written p i v → g.fields .ifs = [] →
      Written p n ('[' :: t ++ "for".toList ++ u ++ "in".toList ++ v ++ [']'])
  | setComp {n g x i e : Node} {t u v : List Char} : n.kind = .setComp → n.field .elt = some e → Written p e t → n.fields .generators = [g] →
      g.kind = .comprehension false → g.field .target = some x → Written p x u → g.field .iter = some i → Written p i v → g.fields .ifs = [] →
      Written p n ('{' :: t ++ "for".toList ++ u ++ "in".toList ++ v ++ ['}'])
  | dictComp {n g x i k e : Node} {r t u v : List Char} : n.kind = .dictComp → n.field .key = some k → Written p k r → n.field .value = some e → Written p e t →
      n.fields .generators = [g] →
      g.kind = .comprehension false → g.field .target = some x → Written p x u → g.field .iter = some i → Written p i v → g.fields .ifs = [] →
      Written p n ('{' :: r ++ ':' :: t ++ "for".toList ++ u ++ "in".toList ++ v ++ ['}'])
  | generatorExp {n g x i e : Node} {t u v : List Char} : n.kind = .generatorExp → n.field .elt = some e → Written p e t → n.fields .generators = [g] →
      g.kind = .comprehension false → g.field .target = some x → Written p x u → g.field .iter = some i → Written p i v → g.fields .ifs = [] →
      Written p n (t ++ "for".toList ++ u ++ "in".toList ++ v)
  /-- `f()` -/
  | call {n f : Node} {a : List Char} : n.kind = .call → n.field .func = some f → n.fields .args = [] → n.fields .keywords = [] → Written p f a → Written p n a
  /-- `f(e)` where `e` is neither an attribute nor a call -/
  | callArg {n f e : Node} {x : String} {c : Ctx} {a : List Char} : n.kind = .call → n.kids = [f, e] → f.fld = .func → e.fld = .args → f.kind = .name x c → f.kids = [] →
      Written p e a → (∀ b, e.kind ≠ .attribute b) → e.kind ≠ .call → Written p n (compact x.toList ++ a)
  /-- `f(k=e)` -/
  | callKeyword {n f w e : Node} {x k : String} {c : Ctx} {a : List Char} : n.kind = .call → n.kids = [f, w] → f.fld = .func → w.fld = .keywords →
      f.kind = .name x c → f.kids = [] → w.kind = .keyword (some k) → w.field .value = some e → Written p e a →
      Written p n (compact x.toList ++ compact k.toList ++ '=' :: a)

/-- `y` is a text for the expression: if it is written as above, this is how. -/
def Renders (renames : Table) (n : Node) (y : String) : Prop :=
  ∀ p t, (∀ a, (∀ k m, In k p → ¬ ImportsAs k m a) → Py.Dict.get? renames a = none) → Written p n t → compact y.toList = t

/-- Two consecutive parts of an f-string: the text ends with the expression and `=`. -/
def SelfDoc (p t e : Node) : Prop :=
  ∃ v txt u w ws, t.kind = .const (.str txt) ∧ e.kind = .formattedValue ∧ e.field .value = some v ∧ txt.toList = u ++ w ++ '=' :: ws ∧ (∀ c ∈ ws, Blank c) ∧
    compact w ≠ [] ∧ Written p v (compact w)

end Vermin.Spec
