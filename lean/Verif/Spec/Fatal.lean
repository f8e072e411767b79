import Verif.Spec.Nodes
import Verif.Spec.Walks
/-
The parts of programs that make the analysis crash.
-/
namespace Vermin.Spec
open Vermin

/-- Nodes that say nothing about the name of an expression they are in. -/
def Nameless (n : Node) : Prop :=
  match n.kind with
  | .attribute _ | .call | .dict _ | .set | .list _ | .const (.str _) | .const (.int _) | .const (.float _) | .const (.complex _) | .const (.bytes _) => False
  | _ => True

/-- In the order of `ast.walk`, a complex number comes before all that says something about the name of the expression. -/
def ComplexFirst (e : Node) : Prop :=
  ∃ pre c post t, Queue (fun _ => False) [e] (pre ++ c :: post) ∧ (∀ m ∈ pre, Nameless m) ∧ c.kind = .const (.complex t)

/-- The expression of an f-string cannot be written out: it is a dict with `**`, or the real or imaginary part of a complex number. -/
def Unwritable (e : Node) : Prop :=
  (∃ l, e.kind = .dict l ∧ true ∈ l) ∨ ∃ a v t, e.kind = .attribute a ∧ (a = "real" ∨ a = "imag") ∧ e.kids = [v] ∧ v.kind = .const (.complex t) ∧ v.kids = []

/-- Parts of programs that make the visit raise. -/
inductive Fatal (env : Env) (n : Node) : Prop
  /-- a constant other than a string is given to an attribute `strftime` or `strptime` -/
  | strftime {f a : Node} {x : String} {c : Const} : n.kind = .call → n.field .func = some f → f.kind = .attribute x → x = "strftime" ∨ x = "strptime" →
      a ∈ n.fields .args → a.kind = .const c → (∀ t, c ≠ .str t) → Fatal env n
  /-- the first annotated parameter of a function without annotation of its result has a complex number in its annotation -/
  | annotation {g : String} {ps a e : Node} {pre post : List Node} : n.kind = .functionDef g ∨ n.kind = .asyncFunctionDef g → n.field .returns = none →
      n.field .args = some ps → ps.fields .args = pre ++ a :: post → (∀ b ∈ pre, b.field .annotation = none) → a.field .annotation = some e →
      ¬ AnnIs e "Literal" → ComplexFirst e → Fatal env n
  /-- an f-string starts with text that ends with `=` and an expression that cannot be written out -/
  | fstring {a b e : Node} {rest : List Node} {t : String} {u w : List Char} : env.cfg.hasFeature "fstring-self-doc" = true → n.kind = .joinedStr →
      n.fields .values = a :: b :: rest → a.kind = .const (.str t) → t.toList = u ++ '=' :: w → (∀ c ∈ w, Py.isSpace c = true) → b.kind = .formattedValue →
      b.field .value = some e → Unwritable e → Fatal env n

end Vermin.Spec
