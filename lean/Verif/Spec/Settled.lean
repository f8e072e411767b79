import Verif.Spec.Chains
import Verif.Spec.Written
/-
Constructs of language features that depend on names or on what is around them, together with what settles the matter,
independent of the visitor.
-/
namespace Vermin.Spec
open Vermin

/-- The program imports nothing by the name. -/
def Unrenamed (p : Node) (x : String) : Prop := ∀ k m, In k p → ¬ ImportsAs k m x

/-- The variable `x` is only ever given values named `y`, and it is given one by one of the statements `l`. -/
def ValVar (env : Env) (p : Node) (l : List Node) (x y : String) : Prop :=
  Always p x y ∧ ∃ i ∈ l, i.line ∉ env.noLines ∧ ∃ v, AssignsTo i v x ∧ Denotes p v y

/-- The variable is only ever given dictionaries, and it is given one by one of the statements `l`. -/
def DictVar (env : Env) (p : Node) (l : List Node) (x : String) : Prop := ValVar env p l x "dict"

/-- The name is imported from the module `m` by one of the statements `l`, and from no other module in the program. -/
def FromVar (env : Env) (p : Node) (l : List Node) (x m : String) : Prop :=
  Identifier x ∧ x ≠ "*" ∧ (∀ k m', In k p → ImportsFrom k m' x → m' = m) ∧ ∃ i ∈ l, ImportsFrom i m x ∧ i.line ∉ env.noLines

/-- `m` is imported by the name `y` by one of the statements `l`, and nothing else is in the program. -/
def RenVar (env : Env) (p : Node) (l : List Node) (y m : String) : Prop :=
  (∀ k m', In k p → ImportsAs k m' y → m' = m) ∧ ∃ i ∈ l, ImportsAs i m y ∧ i.line ∉ env.noLines

/-- The expression is a dictionary: a display, a call of `dict`, a variable that is one, the result `(lambda: e)()`, or the element of a display that is
picked by `[.., e, ..][i]`. -/
inductive PlainDict (env : Env) (p : Node) (l : List Node) : Node → Prop
  | display {e : Node} {ks : List Bool} : e.kind = .dict ks → PlainDict env p l e
  | call {e : Node} : CallsName e "dict" → PlainDict env p l e
  | var {e : Node} {x : String} : IsName e x → DictVar env p l x → PlainDict env p l e
  | lambda {e f b : Node} : e.kind = .call → e.field .func = some f → f.kind = .lambda → f.field .lamBody = some b → PlainDict env p l b → PlainDict env p l e
  | item {e v k : Node} {j : Nat} : e.kind = .subscript → e.field .value = some v → HasIndex e j →
      (v.kids.filter fun k => k.fld = .elts ∨ k.fld = .values)[j]? = some k → PlainDict env p l k → PlainDict env p l e

/-- The expression is `y`, `y()`, or `a.b` for `y` = `a.b`. -/
def Refers (p e : Node) (y : String) : Prop :=
  IsName e y ∨ CallsName e y ∨ ∃ a bs, Chain e a bs ∧ Unrenamed p a ∧ y = dottedText a bs

/-- The variable `y` is only ever given values named `z`, or `y` is no variable and `z` is the same name. -/
def ValueOf (env : Env) (p : Node) (l : List Node) (y z : String) : Prop := ValVar env p l y z ∨ (Unassigned p y ∧ z = y)

/-- The full name of `z`: its own unless it is imported. -/
inductive FullName (env : Env) (p : Node) (l : List Node) (z : String) : String → Prop
  | own : z ≠ "" → Unrenamed p z → NotFrom p z → FullName env p l z z
  | origin {m : String} : Unrenamed p z → FromVar env p l z m → FullName env p l z (m ++ "." ++ z)
  | renamed {m : String} : RenVar env p l z m → FullName env p l z m

/-- The expression is an object of one of the types, or one of the objects, of these full names. -/
def OneOf (env : Env) (p : Node) (l : List Node) (e : Node) (ws : List String) : Prop :=
  ∃ y z w, Refers p e y ∧ ValueOf env p l y z ∧ FullName env p l z w ∧ w ∈ ws

/-- The expression is a dictionary, or of a type that supports `|` like dictionaries. -/
def DictExpr (env : Env) (p : Node) (l : List Node) (e : Node) : Prop := PlainDict env p l e ∨ OneOf env p l e env.tables.dictUnion

/-- The target of `t |= v` is a dictionary or of a type that supports `|=` like dictionaries, or it is a variable, which becomes a dictionary. -/
def MergesInto (env : Env) (p : Node) (l : List Node) (t v : Node) : Prop :=
  PlainDict env p l t ∨ OneOf env p l t env.tables.dictUnionMerge ∨ ((∃ x, IsName t x) ∧ ((∃ ks, v.kind = .dict ks) ∨ CallsName v "dict"))

/-- One of the statements `l` gives the variable `x` the type `y` as value, or is the class `x`. -/
def GivenType (env : Env) (l : List Node) (x y : String) : Prop :=
  ∃ i ∈ l, i.line ∉ env.noLines ∧ ((∃ v, AssignsTo i v x ∧ TypeName v y) ∨ (i.kind = .classDef x ∧ y = x))

/-- The variable is given two types. -/
def GivenTypes (env : Env) (l : List Node) (x : String) : Prop := ∃ y z, y ≠ z ∧ GivenType env l x y ∧ GivenType env l x z

/-- A name, or names separated by dots, that the program neither defines nor assigns. -/
inductive FreeRef (env : Env) (p : Node) (l : List Node) (e : Node) : Prop
  | name {x : String} : IsName e x → Undefined p x → Unassigned p x → FreeRef env p l e
  | attr {a : String} {bs : List String} : Chain e a bs → Unrenamed p a → Undefined p (dottedText a bs) → Unassigned p (dottedText a bs) → FreeRef env p l e
  | renamed {a m : String} {bs : List String} : Chain e a bs → RenVar env p l a m → Undefined p (dottedText m bs) → Unassigned p (dottedText m bs) →
      FreeRef env p l e

/-- A type in a union: `None`, a name that the program neither defines nor assigns, a class, or a variable that is given a type. -/
def FreeType (env : Env) (p : Node) (l : List Node) (e : Node) : Prop :=
  e.kind = .const .none ∨ IsName e "None" ∨ FreeRef env p l e ∨ ∃ x y, IsName e x ∧ GivenType env l x y

/-- The variable is only ever given names as values. -/
def TypeVar (p : Node) (x : String) : Prop :=
  (∀ k v, In k p → AssignsTo k v x → ∃ y c, v.kind = .name y c) ∧
  ∀ k t c, In k p → k.kind = .for ∨ k.kind = .asyncFor → k.field .target = some t → t.kind ≠ .name x c

/-- The variable of `x |= v`: it is only ever given names, or it is given two types (the merge gives it one). -/
def MergeTarget (env : Env) (p : Node) (l : List Node) (x : String) (v : Node) : Prop :=
  (TypeVar p x ∧ ∃ y, IsName v y) ∨ GivenTypes env l x ∨ ∃ y z, y ≠ z ∧ GivenType env l x y ∧ TypeName v z

/-- The value of `x |= v`: a free name, or a variable that is only ever given names and is given two types. -/
def MergeValue (env : Env) (p : Node) (l : List Node) (v : Node) : Prop :=
  FreeRef env p l v ∨ ∃ y, IsName v y ∧ TypeVar p y ∧ GivenTypes env l y

/-- The annotation is `Literal` or `Literal[..]`, or spelled `typing.Literal`. -/
def IsLiteral (p a : Node) : Prop := AnnIs a "Literal" ∨ (Chain a "typing" ["Literal"] ∧ Unrenamed p "typing")

/-- The first parameters of a function before one with the annotation `a`. -/
def LiteralParam (p n : Node) : Prop := IsFunction n ∧ n.field .returns = none ∧ ∃ a, ParamAnn n a ∧ IsLiteral p a

/-- A subscript of a type that is generic since 3.9: of a built-in name, of a name that is imported from its module, or of a variable that is given
such a type. -/
def GenericSubscript (env : Env) (p : Node) (l : List Node) (n : Node) : Prop :=
  n.kind = .subscript ∧ ∃ v x, n.field .value = some v ∧ IsName v x ∧
    ((x ∈ env.tables.genericTypes ∧ Undefined p x) ∨
     (x ∉ env.tables.genericTypes ∧ ∃ m, FromVar env p l x m ∧ m ++ "." ++ x ∈ env.tables.genericTypes ∧ Undefined p (m ++ "." ++ x)) ∨
     (x ∉ env.tables.genericTypes ∧ NotFrom p x ∧ x ≠ "" ∧ (∀ ts, ∀ t ∈ ts, t ∈ env.order ts) ∧
       ∃ t, GivenType env l x t ∧ t ∈ env.tables.genericTypes ∧ Undefined p t))

/-- `m` is looked at along with `n`, through no function and no clause of a comprehension. -/
inductive Within (env : Env) : Node → Node → Prop
  | self (n) : Within env n n
  | kid {n k m : Node} : Visits env n k → ¬ Counted n.kind → Within env m k → Within env m n

/-- A part of `n` of that kind that is looked at, in no function or clause of a comprehension within `n`. -/
def Contains (env : Env) (n : Node) (k : Kind) : Prop := ∃ c m, Visits env n c ∧ Within env m c ∧ m.kind = k ∧ ¬ Marked env m

/-- The constructs, with what settles that they are ones: `l` are statements before them. -/
inductive Settled (env : Env) (p : Node) (l : List Node) (n : Node) : Flag → Prop
  | long : IsName n "long" → env.cfg.isExcluded "long" = false → Undefined p "long" → Settled env p l n .longv2
  | pow : Construct env .modInversePow n → (∀ k, In k p → ¬ ImportsAs k "array.array" "pow") → Settled env p l n .modInversePow
  | super : Construct env .superNoArgs n → (∀ k, In k p → ¬ ImportsAs k "array.array" "super") → Settled env p l n .superNoArgs
  | literalVar {a : Node} : n.kind = .annAssign → n.field .annotation = some a → AnnIs a "Literal" → Settled env p l n .literalAnnotations
  | literalParam : env.cfg.evalAnnotations = true → LiteralParam p n → Settled env p l n .literalAnnotations
  | maybeVar : env.cfg.evalAnnotations = false → n.kind = .annAssign → Settled env p l n .maybeAnnotations
  | maybeParam : env.cfg.evalAnnotations = false → LiteralParam p n → Settled env p l n .maybeAnnotations
  | maybeGeneric : env.cfg.evalAnnotations = false → GenericSubscript env p l n → Settled env p l n .maybeAnnotations
  | generic : env.cfg.evalAnnotations = true → GenericSubscript env p l n → Settled env p l n .builtinGenericTypeAnnotations
  | dictUnion {a b : Node} : n.kind = .binOp → HasOp n .bitOr → n.field .left = some a → n.field .right = some b → DictExpr env p l a →
      DictExpr env p l b → Settled env p l n .dictUnion
  | dictMerge {t v : Node} : n.kind = .augAssign → HasOp n .bitOr → n.field .target = some t → n.field .value = some v →
      PlainDict env p l v → MergesInto env p l t v → Settled env p l n .dictUnionMerge
  | union {a b : Node} : env.cfg.hasFeature "union-types" = true → n.kind = .binOp → HasOp n .bitOr → n.field .left = some a → n.field .right = some b →
      FreeType env p l a → FreeType env p l b → Settled env p l n .unionTypes
  | unionMerge {t v : Node} {x : String} : env.cfg.hasFeature "union-types" = true → n.kind = .augAssign → HasOp n .bitOr →
      n.field .target = some t → n.field .value = some v → t.kind = .name x .store → MergeTarget env p l x v → MergeValue env p l v →
      Settled env p l n .unionTypes
  | asyncGenerator {name : String} : n.kind = .asyncFunctionDef name → Contains env n .yield → Contains env n .await → Settled env p l n .asyncGenerator
  | awaitInComprehension {b : Bool} : n.kind = .comprehension b → Contains env n .await → Settled env p l n .awaitInComprehension
  | ellipsis : n.kind = .const .ellipsis → (∀ k e, In k p → InSlice k e → e.info.uid ≠ n.info.uid) → Settled env p l n .ellipsisOutOfSlices
  | selfDoc {xs ys : List Node} {t e : Node} : env.cfg.hasFeature "fstring-self-doc" = true → n.kind = .joinedStr →
      n.fields .values = xs ++ t :: e :: ys → SelfDoc p t e → Settled env p l n .fstringsSelfDoc
  | withParentheses {line a ws b : List Char} : n.kind = .with ∨ n.kind = .asyncWith → 2 ≤ (n.fields .items).length → SourceLine env n.line line →
      (∀ c ∈ ws, Space c ∨ c = '\\') → line = a ++ "with".toList ++ ws ++ '(' :: b → Settled env p l n .withParentheses

end Vermin.Spec
