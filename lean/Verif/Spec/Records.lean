import Verif.Spec.Settled
/-
Directives, typecodes, arguments of functions that deal with encodings, and decorators, independent of the visitor.
-/
namespace Vermin.Spec
open Vermin

/-! ### What is called -/

/-- The function an expression stands for, given the statements before: written out as `a.b`, by a name that is imported from a module, by
another name of an import, or as an attribute of such a name. -/
inductive Stands (env : Env) (p : Node) (l : List Node) (e : Node) : String → Prop
  | chain {a : String} {bs : List String} : Chain e a bs → Unrenamed p a → Stands env p l e (dottedText a bs)
  | origin {x m : String} : IsName e x → FromVar env p l x m → Stands env p l e (m ++ "." ++ x)
  | name {y m : String} : IsName e y → RenVar env p l y m → NotFrom p y → y ≠ "" → Stands env p l e m
  | renamed {y m : String} {bs : List String} : Chain e y bs → RenVar env p l y m → Stands env p l e (dottedText m bs)

/-- What is recorded of a part of a program, apart from features and names. -/
inductive Record where
  | strftime (d : String)
  | bytes (d : String)
  | typecode (t : String)
  | errorHandler (c : Const)
  | encoding (c : Const)
  | decorator (u : String)

/-- The record is among those of the state. -/
def Record.In (r : Record) (s : S) : Prop :=
  match r with
  | .strftime d => d ∈ s.strftime
  | .bytes d => d ∈ s.bytesDirs
  | .typecode t => t ∈ s.typecodes
  | .errorHandler c => c ∈ s.codecsErr
  | .encoding c => c ∈ s.codecsEnc
  | .decorator u => u ∈ s.userFuncDecos

/-- The parts that give rise to records: `l` are the statements before. -/
inductive Gives (env : Env) (p : Node) (l : List Node) (n : Node) : Record → Prop
  /-- a string given to `.strftime` or `.strptime` -/
  | strftime {f a : Node} {t : String} {d : Char} : n.kind = .call → n.field .func = some f →
      f.kind = .attribute "strftime" ∨ f.kind = .attribute "strptime" → a ∈ n.fields .args → a.kind = .const (.str t) → Directive t.toList d →
      Gives env p l n (.strftime (String.ofList [d]))
  /-- bytes -/
  | bytes {t : String} {d : Char} : n.kind = .const (.bytes t) → Directive t.toList d → Gives env p l n (.bytes (String.ofList [d]))
  /-- a string given to `array` -/
  | array {a : Node} {t : String} : CallsName n "array" → a ∈ n.fields .args → a.kind = .const (.str t) → Gives env p l n (.typecode t)
  /-- a string given to `array.array`, however it is called -/
  | typecode {a f : Node} {t : String} : n.kind = .call → n.field .func = some f → Stands env p l f "array.array" → ¬ IsName f "print" →
      a ∈ n.fields .args → a.kind = .const (.str t) → Gives env p l n (.typecode t)
  /-- the positional argument for the error handler of a function of `codecs` -/
  | errorHandler {f a : Node} {g : String} {i : Nat} {c : Const} : n.kind = .call → n.field .func = some f → Stands env p l f g →
      env.tables.errorsIndex g = some i → (n.fields .args)[i]? = some a → a.kind = .const c → env.cfg.isExcludedErrorHandler c.text = false →
      Gives env p l n (.errorHandler c)
  /-- the keyword argument for it -/
  | errors {f : Node} {g : String} {i : Nat} {c : Const} : n.kind = .call → n.field .func = some f → Stands env p l f g →
      env.tables.errorsIndex g = some i → ConstKeyword n ["errors"] c → env.cfg.isExcludedErrorHandler c.text = false →
      Gives env p l n (.errorHandler c)
  /-- the positional argument for the encoding -/
  | encoding {f a : Node} {g : String} {is : List Nat} {i : Nat} {c : Const} : n.kind = .call → n.field .func = some f → Stands env p l f g →
      env.tables.encodingsIndices g = some is → i ∈ is → (n.fields .args)[i]? = some a → a.kind = .const c →
      env.cfg.isExcludedEncoding c.text = false → Gives env p l n (.encoding c)
  /-- the keyword argument for it, if some positional argument is not excluded -/
  | encodingKeyword {f : Node} {g : String} {is : List Nat} {i : Nat} {c : Const} : n.kind = .call → n.field .func = some f → Stands env p l f g →
      env.tables.encodingsIndices g = some is → i ∈ is →
      (∀ a c', (n.fields .args)[i]? = some a → a.kind = .const c' → env.cfg.isExcludedEncoding c'.text = false) →
      ConstKeyword n ["encoding", "data_encoding", "file_encoding"] c → env.cfg.isExcludedEncoding c.text = false → Gives env p l n (.encoding c)
  /-- a decorator of a function -/
  | decorator {d : Node} {u : String} : IsFunction n → d ∈ n.fields .decoratorList → d.line ∉ env.noLines → Stands env p l d u →
      ((∃ a, d.kind = .attribute a) → NotFrom p u ∧ Unrenamed p u) → u ≠ "" → Undefined p u → env.cfg.isExcluded u = false →
      (env.tables.deco u).isSome = true → Gives env p l n (.decorator u)
  /-- a decorator by a name that is not imported -/
  | decoratorName {d : Node} {x : String} : IsFunction n → d ∈ n.fields .decoratorList → d.line ∉ env.noLines → IsName d x → NotFrom p x →
      Unrenamed p x → x ≠ "" → Undefined p x → env.cfg.isExcluded x = false → (env.tables.deco x).isSome = true → Gives env p l n (.decorator x)

end Vermin.Spec
