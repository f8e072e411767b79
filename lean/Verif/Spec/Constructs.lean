import Verif.Spec.Directives
import Verif.Spec.Spelt
import Verif.Spec.Written
import Verif.Spec.Parsed
/-
What the syntax of a program gives rise to, independent of how the visitor finds it: for each language feature its
constructs, and for every other finding the nodes it can come from.
-/
namespace Vermin.Spec
open Vermin

/-- The annotation is `Literal` or `Literal[..]`, or is read as that. -/
def LiteralAnn (a : Node) : Prop := AnnIs a "Literal" ∨ ∃ ms full, Reads ms a full ∧ (fullText full = "Literal" ∨ fullText full = "typing.Literal")

/-- An occurrence of `{}` that is not within more braces. -/
def AutoField (t : List Char) : Prop :=
  ∃ a b, t = a ++ '{' :: '}' :: b ∧ a.getLast? ≠ some '{' ∧ b.head? ≠ some '}'

/-- Expressions that can be seen to be dictionaries: displays, names, calls, subscripts and attributes. -/
def DictLike (n : Node) : Prop :=
  (∃ l, n.kind = .dict l) ∨ (∃ x c, n.kind = .name x c) ∨ n.kind = .call ∨ n.kind = .subscript ∨ (∃ a, n.kind = .attribute a)
/-- Expressions that can be types in a union: names, attributes and None. -/
def TypeLike (n : Node) : Prop :=
  (∃ x c, n.kind = .name x c) ∨ (∃ a, n.kind = .attribute a) ∨ n.kind = .const .none

/-- The `i`-th line of the source (from 1) is `l`. -/
def SourceLine (env : Env) (i : Nat) (l : List Char) : Prop := ∃ t ls, env.source = some t ∧ Lines t ls ∧ 1 ≤ i ∧ ls[i - 1]? = some l

/-- From the column on, the line of the source reads `except` and, after white space, `*`. -/
def ExceptStarText (env : Env) (line col : Nat) : Prop :=
  ∃ l ws rest, SourceLine env line l ∧ (∀ c ∈ ws, Space c) ∧ l.drop col = "except".toList ++ ws ++ '*' :: rest

/-- Somewhere from the line on, the source has the text `with` and, after white space and backslashes, `(`. -/
def WithParenText (env : Env) (line : Nat) : Prop :=
  ∃ a ws b ls, (∀ c ∈ ws, Space c ∨ c = '\\') ∧ (∀ l ∈ ls, ∃ i, line ≤ i ∧ SourceLine env i l) ∧
    Py.join ['\n'] ls = a ++ "with".toList ++ ws ++ '(' :: b

/-- What is considered of a decorator: the function of a call, else the expression itself. -/
def DecoratorExpr (d r : Node) : Prop :=
  (d.kind = .call ∧ d.field .func = some r) ∨ ((d.kind ≠ .call ∨ d.field .func = none) ∧ r = d)

/-- A function of a package: `__dir__()` or `__getattr__(name)`, with positional parameters only. -/
def ModuleFunction (n : Node) (name : String) (params : Nat) : Prop :=
  DefinesFunction n name ∧ ∃ a, n.field .args = some a ∧ a.fields .posonlyargs = [] ∧ a.fields .kwonlyargs = [] ∧ a.field .kwarg = none ∧
    (a.fields .args).length = params

/-- The constructs of the language features. -/
def Construct (env : Env) : Flag → Node → Prop
  | .printv2, _ => False
  | .printv3, n => CallsName n "print"
  | .format27, n => ∃ e t, CallsAttr n e "format" ∧ e.kind = .const (.str t) ∧ AutoField t.toList
  | .longv2, n => IsName n "long" ∧ env.cfg.isExcluded "long" = false
  | .bytesv3, n => ∃ t, n.kind = .const (.bytes t)
  | .fstrings, n => n.kind = .joinedStr
  | .fstringsSelfDoc, n => env.cfg.hasFeature "fstring-self-doc" = true ∧ n.kind = .joinedStr ∧ ∃ t v, t ∈ n.fields .values ∧ v ∈ n.fields .values ∧ v.kind = .formattedValue ∧
      ∃ x, t.kind = .const (.str x) ∧ '=' ∈ x.toList
  | .boolConst, n => (∃ b, n.kind = .const (.bool b)) ∨ IsName n "True" ∨ IsName n "False"
  | .annotations, n => n.kind = .annAssign ∨ (IsFunction n ∧ ((∃ r, n.field .returns = some r) ∨ ∃ a, ParamAnn n a))
  | .varAnnotations, n => n.kind = .annAssign
  | .finalAnnotations, n => n.kind = .annAssign ∧ ∃ a, n.field .annotation = some a ∧ AnnIs a "Final"
  | .literalAnnotations, n => (n.kind = .annAssign ∧ ∃ a, n.field .annotation = some a ∧ AnnIs a "Literal") ∨
      (IsFunction n ∧ env.cfg.evalAnnotations = true ∧ ∃ a, ParamAnn n a ∧ LiteralAnn a)
  | .coroutines, n => (∃ name, n.kind = .asyncFunctionDef name) ∨ n.kind = .await
  | .asyncGenerator, n => (∃ name, n.kind = .asyncFunctionDef name) ∧ (∃ y, In y n ∧ y.kind = .yield) ∧ ∃ w, In w n ∧ w.kind = .await
  | .asyncComprehension, n => n.kind = .comprehension true
  | .awaitInComprehension, n => (∃ a, n.kind = .comprehension a) ∧ ∃ w, In w n ∧ w.kind = .await
  | .asyncFor, n => n.kind = .asyncFor
  | .namedExprs, n => n.kind = .namedExpr
  | .kwOnlyArgs, n => n.kind = .arguments ∧ ∃ a, a ∈ n.fields .kwonlyargs
  | .posOnlyArgs, n => n.kind = .arguments ∧ ∃ a, a ∈ n.fields .posonlyargs
  | .nonlocalStmt, n => n.kind = .nonlocal
  | .yieldFrom, n => n.kind = .yieldFrom
  | .raiseCause, n => n.kind = .raise ∧ ∃ c, n.field .cause = some c
  | .raiseFromNone, n => n.kind = .raise ∧ ∃ c, n.field .cause = some c ∧ (c.kind = .const .none ∨ IsName c "None")
  | .setLiterals, n => n.kind = .set
  | .setComp, n => n.kind = .setComp
  | .dictComp, n => n.kind = .dictComp
  | .matMult, n => n.kind = .op .matMult
  | .continueInFinally, n => n.kind = .continue
  | .modInversePow, n => CallsName n "pow" ∧ ∃ a b c, n.fields .args = [a, b, c] ∧ IsIntLit a ∧ IsNegIntLit b ∧ IsIntLit c
  | .withStatement, n => n.kind = .with
  | .asyncWithStatement, n => n.kind = .asyncWith
  | .multiWithitem, n => (n.kind = .with ∨ n.kind = .asyncWith) ∧ 2 ≤ (n.fields .items).length
  | .withParentheses, n => (n.kind = .with ∨ n.kind = .asyncWith) ∧ 2 ≤ (n.fields .items).length ∧ WithParenText env n.line
  | .generalizedUnpacking, n =>
      (n.kind = .call ∧ (UnpacksArgs (n.fields .args) IsUnpacked ∨ UnpacksArgs (n.fields .keywords) fun k => ¬ ∃ x, k.kind = .keyword (some x))) ∨
      (((∃ c, n.kind = .tuple c) ∨ (∃ c, n.kind = .list c) ∨ n.kind = .set) ∧ ∃ e ∈ n.fields .elts, IsUnpacked e) ∨
      (∃ l, n.kind = .dict l ∧ true ∈ l)
  | .unpackingAssignment, n => n.kind = .starred .store
  | .ellipsisOutOfSlices, n => n.kind = .const .ellipsis
  | .typeAliasStatement, n => n.kind = .typeAlias
  | .bytesFormat, n => n.kind = .binOp ∧ HasOp n .mod ∧ ∃ l t, n.field .left = some l ∧ l.kind = .const (.bytes t)
  | .bytearrayFormat, n => n.kind = .binOp ∧ HasOp n .mod ∧ ∃ l, n.field .left = some l ∧ CallsName l "bytearray"
  | .dictUnion, n => n.kind = .binOp ∧ HasOp n .bitOr ∧ ∃ l r, n.field .left = some l ∧ n.field .right = some r ∧ DictLike l ∧ DictLike r
  | .dictUnionMerge, n => n.kind = .augAssign ∧ HasOp n .bitOr ∧ ∃ l r, n.field .target = some l ∧ n.field .value = some r ∧ DictLike l ∧ DictLike r
  | .builtinGenericTypeAnnotations, n => n.kind = .subscript ∧ env.cfg.evalAnnotations = true ∧
      ∃ v, n.field .value = some v ∧ ((∃ x c, v.kind = .name x c) ∨ ∃ a, v.kind = .attribute a)
  | .functionDecorators, n => IsFunction n ∧ ∃ d, d ∈ n.fields .decoratorList ∧ d.line ∉ env.noLines
  | .classDecorators, n => (∃ name, n.kind = .classDef name) ∧ ∃ d, d ∈ n.fields .decoratorList ∧ d.line ∉ env.noLines
  | .relaxedDecorators, n => (IsFunction n ∨ ∃ name, n.kind = .classDef name) ∧ ∃ d r m, d ∈ n.fields .decoratorList ∧ d.line ∉ env.noLines ∧
      DecoratorExpr d r ∧ In m r ∧ ¬ ((∃ x c, m.kind = .name x c) ∨ ∃ a, m.kind = .attribute a)
  | .patternMatching, n => n.kind = .match
  | .unionTypes, n => env.cfg.hasFeature "union-types" = true ∧ HasOp n .bitOr ∧
      ((n.kind = .binOp ∧ ∃ l r, n.field .left = some l ∧ n.field .right = some r ∧ TypeLike l ∧ TypeLike r) ∨
       (n.kind = .augAssign ∧ ∃ l r, n.field .target = some l ∧ n.field .value = some r ∧ TypeLike l ∧ TypeLike r))
  | .superNoArgs, n => CallsName n "super" ∧ n.fields .args = []
  | .exceptStar, n => (∃ name, n.kind = .exceptHandler name) ∧ ExceptStarText env n.line n.col
  | .metaclassClassKeyword, n => (∃ name, n.kind = .classDef name) ∧ ∃ k ∈ n.fields .keywords, k.kind = .keyword (some "metaclass")
  | .moduleDirFunc, n => ModuleFunction n "__dir__" 0 ∧ env.isInitFile = true
  | .moduleGetattrFunc, n => ModuleFunction n "__getattr__" 1 ∧ env.isInitFile = true
  | .maybeAnnotations, n => env.cfg.evalAnnotations = false ∧ (n.kind = .annAssign ∨ (IsFunction n ∧ ∃ a, ParamAnn n a) ∨ n.kind = .subscript)

/-- What the visitor can do at a node that is of interest: findings, and what it learns about names. -/
inductive Event where
  | flag (f : Flag)
  | module (m : String)
  | member (m : String)
  | kwarg (f : String) (k : Option String)
  | deco (u : String)
  | strftime (d : String)
  | bytesDir (d : String)
  | typecode (t : String)
  | errorHandler (c : Const)
  | encoding (c : Const)
  | yield
  | await
  | raise (e : Py.Err)
  /-- a definition of a name -/
  | define (x : String)
  /-- the variable `x` is assigned a value named `y` -/
  | value (x y : String)
  /-- the variable `x` is assigned the type `y` -/
  | type (x y : String)
  /-- the imported `y` is named `x` -/
  | rename (x y : String)
  /-- `x` is imported from the module `m` -/
  | origin (x m : String)
  /-- the arguments of a call of `f` -/
  | call (f : String)
  /-- an ellipsis in a slice: the node with the number `u` -/
  | slice (u : Nat)

/-- The name of an alias node -/
def AliasName (a : Node) (m : String) : Prop := (∃ as, a.kind = .alias m as) ∨ (m = "" ∧ ∀ x y, a.kind ≠ .alias x y)

/-- How a name or an attribute is spelled, given the names of imports. -/
def Spells (ms : Py.Dict String String) (e : Node) (f : String) : Prop :=
  (∃ c, e.kind = .name f c) ∨ ((∃ a, e.kind = .attribute a) ∧ ∃ full, Reads ms e full ∧ f = fullText full)

/-- A call of what is spelled `f` -/
def CallsSpelled (ms : Py.Dict String String) (n : Node) (f : String) : Prop := n.kind = .call ∧ ∃ e, n.field .func = some e ∧ Spells ms e f

/-- The name of the value of an expression: what is called, an attribute, or the type of a display or a constant. -/
def ValueName (ms : Py.Dict String String) (v : Node) (y : String) : Prop :=
  CallsSpelled ms v y ∨ ((∃ a, v.kind = .attribute a) ∧ ∃ full, Reads ms v full ∧ y = fullText full) ∨
  ((∃ l, v.kind = .dict l) ∧ y = "dict") ∨ (v.kind = .set ∧ y = "set") ∨ ((∃ c, v.kind = .list c) ∧ y = "list") ∨
  ((∃ t, v.kind = .const (.str t)) ∧ y = "str") ∨ ((∃ i, v.kind = .const (.int i)) ∧ y = "int") ∨
  ((∃ t, v.kind = .const (.float t)) ∧ y = "float") ∨ ((∃ t, v.kind = .const (.bytes t)) ∧ y = "bytes") ∨
  ((∃ b, v.kind = .const (.bool b)) ∧ y = "int")

/-- The type an expression can be. -/
def TypeName (v : Node) (y : String) : Prop := (∃ c, v.kind = .name y c) ∨ (v.kind = .const .none ∧ y = "None")

/-- Assignment of an expression to a variable -/
def AssignsTo (n v : Node) (x : String) : Prop :=
  (n.kind = .assign ∨ n.kind = .augAssign ∨ n.kind = .annAssign) ∧ n.field .value = some v ∧
  ∃ t ∈ n.kids, (t.fld = .targets ∨ t.fld = .target) ∧ ∃ c, t.kind = .name x c

/-- A target of an assignment binds a name: it is the name, or has it as a part other than through `a.b` and `a[b]`. -/
inductive Binds : Node → String → Prop
  | name {n : Node} {x : String} : n.kind = .name x .store → Binds n x
  | part {n k : Node} {x : String} : n.kind ≠ .subscript → (∀ a, n.kind ≠ .attribute a) → k ∈ n.kids → Binds k x → Binds n x

/-- Everything that defines a name. -/
def Defines (n : Node) (x : String) : Prop :=
  DefinesFunction n x ∨ n.kind = .classDef x ∨
  ((n.kind = .import ∨ ∃ m, n.kind = .importFrom (some m) 0) ∧ ∃ a ∈ n.fields .names, ∃ y, a.kind = .alias y (some x)) ∨
  (n.kind = .assign ∧ ∃ t ∈ n.fields .targets, Binds t x) ∨
  ((n.kind = .augAssign ∨ n.kind = .annAssign ∨ n.kind = .namedExpr) ∧ ∃ t, n.field .target = some t ∧ t.kind = .name x .store) ∨
  ((n.kind = .for ∨ n.kind = .asyncFor) ∧ ∃ t, n.field .target = some t ∧ Binds t x) ∨
  ((n.kind = .with ∨ n.kind = .asyncWith) ∧ ∃ w ∈ n.fields .items, ∃ t, w.field .optionalVars = some t ∧ Binds t x) ∨
  ((n.kind = .listComp ∨ n.kind = .generatorExp ∨ n.kind = .setComp ∨ n.kind = .dictComp) ∧
    ∃ c ∈ n.fields .generators, ∃ t, c.field .target = some t ∧ Binds t x) ∨
  n.kind = .exceptHandler (some x) ∨
  (n.kind = .arguments ∧ ∃ a ∈ n.kids, a.kind = .arg x ∧
    (a.fld = .args ∨ a.fld = .posonlyargs ∨ a.fld = .kwonlyargs ∨ a.fld = .vararg ∨ a.fld = .kwarg))

/-- What the parts `x.b.c` of an attribute can refer to: itself, a member of the module `x` is imported from, or, if `x` is a
variable, a member of its value, which is followed up to two times. -/
def MemberName (origins values : Table) (full : List (Option String)) (m : String) : Prop :=
  m = fullText full ∨
  ∃ x, full.head? = some (some x) ∧
    ((∃ mod, Py.Dict.get? origins x = some mod ∧ m = fullText (some mod :: full)) ∨
     ∃ v, Py.Dict.get? values x = some v ∧
      (m = fullText (some v :: full.drop 1) ∨
       (∃ mod, Py.Dict.get? origins v = some mod ∧ m = fullText (some mod :: some v :: full.drop 1)) ∨
       ∃ p ps w, DotParts v p ps ∧ Py.Dict.get? values p = some w ∧ m = fullText (some w :: (ps.map some ++ full.drop 1))))

/-- The function a keyword argument of a call of `g` can belong to. -/
def KeywordOwner (origins values : Table) (g f : String) : Prop :=
  f = g ∨ ∃ p ps, DotParts g p ps ∧
    ((∃ mod, (Py.Dict.get? origins g = some mod ∨ Py.Dict.get? origins p = some mod) ∧ f = mod ++ "." ++ g) ∨
     ∃ v, Py.Dict.get? values p = some v ∧
      (f = dottedText v ps ∨ ∃ mod, Py.Dict.get? origins v = some mod ∧ f = dottedText mod (v :: ps)))

/-- What a decorator spelled `d` refers to. -/
def DecoratorName (origins renames : Table) (d u : String) : Prop :=
  u = d ∨ (∃ mod, Py.Dict.get? origins d = some mod ∧ u = mod ++ "." ++ d) ∨ Py.Dict.get? renames d = some u

/-- The function a call refers to, as far as calls of functions that deal with encodings are concerned. -/
def CallsFunction (s : S) (n : Node) (f : String) : Prop :=
  (∃ x, CallsName n x ∧ ((∃ mod, Py.Dict.get? s.importMemMod x = some mod ∧ f = mod ++ "." ++ x) ∨ Py.Dict.get? s.moduleAs x = some f)) ∨
  (n.kind = .call ∧ ∃ e a, n.field .func = some e ∧ e.kind = .attribute a ∧ ∃ full, Reads s.moduleAs e full ∧ f = fullText full)

/-- `e` is the expression `sl`, or an element of it if that is a tuple. -/
def SelfOrElement (sl e : Node) : Prop := e = sl ∨ ((∃ c, sl.kind = .tuple c) ∧ e ∈ sl.fields .elts)

/-- `e` is the index or slice of the subscript `n`, or an element of it.  Up to Python 3.8 an index is within `ast.Index`, and
several of which one is a slice are within `ast.ExtSlice`. -/
def InSlice (n e : Node) : Prop :=
  n.kind = .subscript ∧ ∃ sl, n.field .slice = some sl ∧
    ((sl.kind = .index ∧ ∃ v, sl.field .value = some v ∧ SelfOrElement v e) ∨
     (sl.kind = .extSlice ∧ e ∈ sl.fields .dims) ∨
     (sl.kind ≠ .index ∧ sl.kind ≠ .extSlice ∧ SelfOrElement sl e))

/-- A constant that is passed as one of the keywords -/
def ConstKeyword (n : Node) (kws : List String) (c : Const) : Prop :=
  ∃ k ∈ n.fields .keywords, (∃ x ∈ kws, k.kind = .keyword (some x)) ∧ ∃ v, k.field .value = some v ∧ v.kind = .const c

/-- The index `i` of a list is that of `x`: from the start, or from the end if it is negative. -/
def Item {α : Type} (l : List α) (i : Int) (x : α) : Prop := ∃ a b, l = a ++ x :: b ∧ (i = a.length ∨ i = -(b.length + 1 : Int))

/-- The constant is the integer `i`; so are the constants `True` and `False`. -/
def IsIndex (c : Const) (i : Int) : Prop := c = .int i ∨ (c = .bool true ∧ i = 1) ∨ (c = .bool false ∧ i = 0)

/-- The index of a subscript is `i`.  Within `ast.Index` (up to Python 3.8) `True` and `False` do not count. -/
def HasIndex (e : Node) (i : Int) : Prop :=
  ∃ sl, e.field .slice = some sl ∧ ((∃ c, sl.kind = .const c ∧ IsIndex c i) ∨
    (sl.kind = .index ∧ ∃ v, sl.field .value = some v ∧ v.kind = .const (.int i)))

/-- The elements of a display -/
def Elements (n : Node) : List Node := n.kids.filter fun k => decide (k.fld = .elts) || decide (k.fld = .values)

/-- The value of an expression is a dictionary, given the values of variables: it is a display, a variable that is one, a call of `dict`, a call of
a lambda with such a body, or a display that has one at the index. -/
inductive DictValue (values : Table) : Node → Prop
  | display {e : Node} {l : List Bool} : e.kind = .dict l → DictValue values e
  | var {e : Node} {x : String} : IsName e x → Py.Dict.get? values x = some "dict" → DictValue values e
  | call {e : Node} : CallsName e "dict" → DictValue values e
  | lambda {e f b : Node} : e.kind = .call → e.field .func = some f → f.kind = .lambda → f.field .lamBody = some b → DictValue values b → DictValue values e
  | item {e l x : Node} {i : Int} : e.kind = .subscript → HasIndex e i → e.field .value = some l → Item (Elements l) i x → DictValue values x → DictValue values e

/-- What a name, an attribute or a call of a name refers to: the value of the variable if it has one, by its full name. -/
def RefersTo (renames origins values : Table) (e : Node) (m : String) : Prop :=
  ∃ x y, (IsName e x ∨ CallsName e x ∨ ((∃ a, e.kind = .attribute a) ∧ ∃ full, Reads renames e full ∧ x = fullText full)) ∧
    (Py.Dict.get? values x = some y ∨ (Py.Dict.get? values x = none ∧ y = x)) ∧
    (Py.Dict.get? renames y = some m ∨ (∃ mod, Py.Dict.get? origins y = some mod ∧ m = mod ++ "." ++ y) ∨ m = y)

/-- The expression is a dictionary, or refers to one of the classes of dictionaries. -/
def DictOperand (classes : List String) (s : S) (e : Node) : Prop :=
  DictValue s.nameRes e ∨ ∃ m ∈ classes, RefersTo s.moduleAs s.importMemMod s.nameRes e m

/-- The name is that of no variable that has a value, and not defined. -/
def Free (s : S) (x : String) : Prop := Py.Dict.get? s.nameRes x = none ∧ x ∉ s.userDefs

/-- The name is that of a variable that has types as values, or of a class. -/
def HasType (s : S) (x : String) : Prop := ∃ ts, Py.Dict.get? s.nameResType x = some ts

/-- A type in a union: `None`, a free name, or one that stands for types. -/
def TypeOperand (s : S) (e : Node) : Prop :=
  e.kind = .const .none ∨ IsName e "None" ∨ ∃ x, Spells s.moduleAs e x ∧ (Free s x ∨ HasType s x)

/-- A type in `a |= b`: a free name, one that stands for several types, or a class. -/
def TypeTarget (s : S) (e : Node) : Prop :=
  ∃ x, Spells s.moduleAs e x ∧ (Free s x ∨ (∃ ts, Py.Dict.get? s.nameResType x = some ts ∧ 1 < ts.length) ∨
    (Py.Dict.get? s.nameRes x = none ∧ HasType s x))

/-- A subscript of the generic type `t`: of its name, of a name imported from its module, or of a variable that stands for it (the names are known
in the one state, the rest in the other). -/
def SubscriptOf (env : Env) (s s' : S) (n : Node) (t : String) : Prop :=
  t ∈ env.tables.genericTypes ∧ n.kind = .subscript ∧ ∃ v x, n.field .value = some v ∧ Spells s.moduleAs v x ∧
    (t = x ∨ (∃ mod, Py.Dict.get? s'.importMemMod x = some mod ∧ t = mod ++ "." ++ x) ∨
     (Py.Dict.get? s'.importMemMod x = none ∧ ∃ ts, Py.Dict.get? s'.nameResType x = some ts ∧ t ∈ env.order ts))

/-- Some part of an f-string is a text that ends with what the next part, an expression, reads, and `=`; blanks and parentheses are ignored. -/
def SelfDocumented (s : S) (n : Node) : Prop :=
  ∃ xs t e ys txt v y, n.fields .values = xs ++ t :: e :: ys ∧ t.kind = .const (.str txt) ∧ e.kind = .formattedValue ∧ e.field .value = some v ∧
    Renders s.moduleAs v y ∧ compact y.toList ≠ [] ∧ (compact y.toList ++ ['=']) <:+ compact txt.toList

/-- The constructs of the language features, with what the visitor knows in states satisfying `I`. -/
def ConstructIn (env : Env) (I : S → Prop) (n : Node) : Flag → Prop
  | .longv2 => Construct env .longv2 n ∧ ∃ s, I s ∧ "long" ∉ s.userDefs
  | .ellipsisOutOfSlices => Construct env .ellipsisOutOfSlices n ∧ ∃ s, I s ∧ n.info.uid ∉ s.ellipsisInSlices
  | .moduleDirFunc => Construct env .moduleDirFunc n ∧ ∃ s, I s ∧ s.depth = 1
  | .moduleGetattrFunc => Construct env .moduleGetattrFunc n ∧ ∃ s, I s ∧ s.depth = 1
  | .fstringsSelfDoc => Construct env .fstringsSelfDoc n ∧ ∃ s, I s ∧ SelfDocumented s n
  | .dictUnion => Construct env .dictUnion n ∧ ∃ s l r, I s ∧ n.field .left = some l ∧ n.field .right = some r ∧
      DictOperand env.tables.dictUnion s l ∧ DictOperand env.tables.dictUnion s r
  | .dictUnionMerge => Construct env .dictUnionMerge n ∧ ∃ s l r, I s ∧ n.field .target = some l ∧ n.field .value = some r ∧
      DictOperand env.tables.dictUnionMerge s l ∧ DictValue s.nameRes r
  | .unionTypes => Construct env .unionTypes n ∧ ∃ s l r, I s ∧
      ((n.kind = .binOp ∧ n.field .left = some l ∧ n.field .right = some r ∧ TypeOperand s l ∧ TypeOperand s r) ∨
       (n.kind = .augAssign ∧ n.field .target = some l ∧ n.field .value = some r ∧ TypeTarget s l ∧ TypeTarget s r ∧ ¬ DictValue s.nameRes r))
  | .builtinGenericTypeAnnotations => Construct env .builtinGenericTypeAnnotations n ∧ ∃ s s' s'' t, I s ∧ I s' ∧ I s'' ∧ SubscriptOf env s s' n t ∧
      t ∉ s''.userDefs
  | .maybeAnnotations => Construct env .maybeAnnotations n ∧ (n.kind = .subscript → ∃ s s' t, I s ∧ I s' ∧ SubscriptOf env s s' n t)
  | f => Construct env f n

/-- The nodes at which something can be found or learnt, with what the visitor knows in states satisfying `I`. -/
def EmitsIn (env : Env) (I : S → Prop) (n : Node) : Event → Prop
  | .flag f => ConstructIn env I n f
  | .module m =>
      (n.kind = .import ∧ ∃ a ∈ n.fields .names, AliasName a m) ∨
      (∃ x, n.kind = .importFrom (some x) 0 ∧ (m = x ∨ ∃ a ∈ n.fields .names, ∃ y, AliasName a y ∧ y ≠ "*" ∧ m = x ++ "." ++ y)) ∨
      ((∃ a, n.kind = .attribute a) ∧ ∃ s s' full x, I s ∧ I s' ∧ Reads s.moduleAs n full ∧ m = fullText full ∧
        full.head? = some (some x) ∧ x ∈ s'.modules)
  | .member m =>
      (n.kind = .import ∧ ∃ a ∈ n.fields .names, AliasName a m) ∨
      (∃ x, n.kind = .importFrom (some x) 0 ∧ ∃ a ∈ n.fields .names, ∃ y, AliasName a y ∧ y ≠ "*" ∧ (m = x ++ "." ++ y ∨ m = y)) ∨
      CallsName n m ∨
      ((∃ a, n.kind = .attribute a) ∧ ∃ s s' full, I s ∧ I s' ∧ Reads s.moduleAs n full ∧ MemberName s'.importMemMod s'.nameRes full m) ∨
      (n.kind = .raise ∧ ∃ e x, (n.field .exc = some e ∨ n.field .cause = some e) ∧ In x e ∧ IsName x m) ∨
      ((∃ name, n.kind = .exceptHandler name) ∧ ∃ e x, n.field .type = some e ∧ In x e ∧ IsName x m)
  | .kwarg f k => n.kind = .keyword k ∧ ∃ s g, I s ∧ g ∈ s.fnStack ∧ KeywordOwner s.importMemMod s.nameRes g f
  | .deco u => IsFunction n ∧ ∃ d ∈ n.fields .decoratorList, d.line ∉ env.noLines ∧
      ∃ s x, I s ∧ Spells s.moduleAs d x ∧ DecoratorName s.importMemMod s.moduleAs x u
  | .strftime d => ∃ f a t, n.kind = .call ∧ n.field .func = some f ∧ (f.kind = .attribute "strftime" ∨ f.kind = .attribute "strptime") ∧
      a ∈ n.fields .args ∧ a.kind = .const (.str t) ∧ ∃ c, d = String.ofList [c] ∧ Directive t.toList c
  | .bytesDir d => ∃ t, n.kind = .const (.bytes t) ∧ ∃ c, d = String.ofList [c] ∧ Directive t.toList c
  | .typecode t => n.kind = .call ∧ (∃ a ∈ n.fields .args, a.kind = .const (.str t)) ∧
      (CallsName n "array" ∨ ∃ s, I s ∧ ((∃ x, CallsName n x ∧ Py.Dict.get? s.moduleAs x = some "array.array") ∨ CallsSpelled s.moduleAs n "array.array"))
  | .errorHandler c => n.kind = .call ∧ ∃ s f i, I s ∧ CallsFunction s n f ∧ env.tables.errorsIndex f = some i ∧
      ((∃ a, (n.fields .args)[i]? = some a ∧ a.kind = .const c) ∨ ConstKeyword n ["errors"] c)
  | .encoding c => n.kind = .call ∧ ∃ s f is, I s ∧ CallsFunction s n f ∧ env.tables.encodingsIndices f = some is ∧
      ((∃ i ∈ is, ∃ a, (n.fields .args)[i]? = some a ∧ a.kind = .const c) ∨ ConstKeyword n ["encoding", "data_encoding", "file_encoding"] c)
  | .yield => n.kind = .yield
  | .await => n.kind = .await
  | .raise e =>
      (e = .typeError ∧ ∃ f a c, n.kind = .call ∧ n.field .func = some f ∧ (f.kind = .attribute "strftime" ∨ f.kind = .attribute "strptime") ∧
        a ∈ n.fields .args ∧ a.kind = .const c ∧ ∀ t, c ≠ .str t) ∨
      (IsFunction n ∧ ∃ a, ParamAnn n a ∧ HasComplex a) ∨
      (n.kind = .joinedStr ∧ env.cfg.hasFeature "fstring-self-doc" = true ∧ ∃ v ∈ n.fields .values, v.kind = .formattedValue ∧
        (¬ Parsed v ∨ HasComplex v ∨ HasDictUnpack v)) ∨
      (n.kind = .binOp ∧ HasOp n .bitOr ∧ ∃ x, (n.field .left = some x ∨ n.field .right = some x) ∧ ¬ Parsed x) ∨
      (n.kind = .augAssign ∧ HasOp n .bitOr ∧ ∃ x, (n.field .target = some x ∨ n.field .value = some x) ∧ ¬ Parsed x) ∨
      ((n.kind = .for ∨ n.kind = .asyncFor) ∧ ∃ it x, n.field .iter = some it ∧ x ∈ it.kids ∧ ¬ Parsed x)
  | .define x => Defines n x
  | .value x y => (∃ v s, AssignsTo n v x ∧ I s ∧ ValueName s.moduleAs v y) ∨
      ((n.kind = .for ∨ n.kind = .asyncFor) ∧ y = "dict" ∧ (∃ t c, n.field .target = some t ∧ t.kind = .name x c) ∧
        ∃ it e s, n.field .iter = some it ∧ e ∈ Elements it ∧ I s ∧ DictValue s.nameRes e)
  | .type x y => (∃ v, AssignsTo n v x ∧ TypeName v y) ∨ (n.kind = .classDef x ∧ y = x)
  | .rename x y => ∃ a ∈ n.fields .names, ∃ k, a.kind = .alias k (some x) ∧
      ((n.kind = .import ∧ y = k) ∨ ∃ m, n.kind = .importFrom (some m) 0 ∧ y = m ++ "." ++ k)
  | .origin x m => n.kind = .importFrom (some m) 0 ∧ x ≠ "*" ∧ ∃ a ∈ n.fields .names, AliasName a x
  | .call f => ∃ s, I s ∧ CallsSpelled s.moduleAs n f
  | .slice u => ∃ e, InSlice n e ∧ e.kind = .const .ellipsis ∧ e.info.uid = u

/-- The nodes at which something can be found, whatever is known. -/
abbrev Emits (env : Env) (n : Node) : Event → Prop := EmitsIn env (fun _ => True) n

end Vermin.Spec
