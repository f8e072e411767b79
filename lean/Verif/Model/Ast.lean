import Verif.Model.Py
/-
Python's abstract syntax as seen through the `ast` module of CPython 3.8 - 3.13 (not part of the repository): a tree of
nodes with a class, attributes that are no nodes, a position, and child nodes in the order of `_fields`.

Simplifications: expression contexts are attributes of `Name`, `Starred`, `List` and `Tuple` instead of child nodes
(`visit_Load` and `visit_Store` do nothing; for `Del` only the line of --dump is lost); attributes the program never
looks at (docstrings, type comments, names of global statements, ..) are left out.
-/
namespace Vermin
open Py

/-- Values of `ast.Constant`.  Numbers other than integers and bytes carry their `str()`. -/
inductive Const where
  | none
  | bool (b : Bool)
  | int (n : Int)
  | float (text : String)
  | complex (text : String)
  | str (s : String)
  | bytes (text : String)
  | ellipsis
  deriving DecidableEq, Repr

/-- Expression contexts. -/
inductive Ctx where
  | load | store | del
  deriving DecidableEq, Repr

/-- Operators; those the program treats alike are one constructor. -/
inductive Op where
  | add | sub | mult | div | floorDiv | matMult | mod | pow | bitXor | bitOr | bitAnd | lShift | rShift
  | not | uSub | uAdd | invert
  | and | or
  | eq | notEq | lt | ltE | gt | gtE | is | isNot | in | notIn
  deriving DecidableEq, Repr

/-- Node classes with the attributes that are no nodes. -/
inductive Kind where
  | module
  | functionDef (name : String)
  | asyncFunctionDef (name : String)
  | classDef (name : String)
  | ret | delete | assign | typeAlias | augAssign | annAssign | for | asyncFor | while | if | with | asyncWith | «match»
  | raise | try | tryStar | assert
  | import
  | importFrom (module : Option String) (level : Nat)
  | global | nonlocal | expr | pass | break | continue
  | boolOp | namedExpr | binOp | unaryOp | lambda | ifExp
  /-- for each key, whether it is `None` (`**mapping`); the other keys are child nodes -/
  | dict (nullKeys : List Bool)
  | set | listComp | setComp | dictComp | generatorExp | await | yield | yieldFrom | compare | call
  | formattedValue | joinedStr
  | const (c : Const)
  | attribute (attr : String)
  | subscript
  | starred (ctx : Ctx)
  | name (id : String) (ctx : Ctx)
  | list (ctx : Ctx)
  | tuple (ctx : Ctx)
  | slice
  /-- `ast.Index`, around subscripts that are not slices, up to Python 3.8 -/
  | index
  /-- `ast.ExtSlice`, several subscripts of which one is a slice, up to Python 3.8 -/
  | extSlice
  | comprehension (isAsync : Bool)
  | exceptHandler (name : Option String)
  | arguments
  | arg (arg : String)
  | keyword (arg : Option String)
  | alias (name : String) (asname : Option String)
  | withItem
  | matchCase
  /-- patterns of `match` -/
  | pattern
  /-- type parameters -/
  | typeParam
  | op (o : Op)
  deriving DecidableEq, Repr

/-- The field of the parent a node is in.  The expression bodies of lambdas and conditional expressions have labels of
their own. -/
inductive Fld where
  | body | orelse | finalbody | handlers | cases
  | decoratorList | returns | names | value | values | func | args | posonlyargs | kwonlyargs | vararg | kwarg | keywords
  | targets | target | op | left | right | operand | keys | elts | elt | key | generators | iter | ifs | slice | dims | annotation
  | exc | cause | type | items | optionalVars | contextExpr | test | lamBody | ifBody | ifOrelse | ops | comparators | bases
  | typeParams | defaults | kwDefaults | subject | pattern | guard | other
  deriving DecidableEq, Repr

structure Info where
  fld : Fld
  kind : Kind
  /-- `lineno`, for classes that have a position -/
  line : Option Nat
  /-- `col_offset` -/
  col : Nat
  /-- object identity -/
  uid : Nat
  deriving DecidableEq, Repr

inductive Node where
  | mk (info : Info) (kids : List Node)

namespace Node

def info : Node → Info
  | .mk i _ => i
def kids : Node → List Node
  | .mk _ ks => ks
def fld (n : Node) : Fld := n.info.fld
def kind (n : Node) : Kind := n.info.kind
/-- `node.lineno`; nodes of classes that have a position have one. -/
def line (n : Node) : Nat := n.info.line.getD 0
def col (n : Node) : Nat := n.info.col

/-- A field holding a list of nodes. -/
def fields (n : Node) (f : Fld) : List Node := n.kids.filter fun k => decide (k.fld = f)
/-- A field holding a node or `None`. -/
def field (n : Node) (f : Fld) : Option Node := n.kids.find? fun k => decide (k.fld = f)

/-- `ast.Name` -/
def nameId (n : Node) : Option String :=
  match n.kind with
  | .name id _ => some id
  | _ => none
/-- `ast.Attribute` -/
def attrName (n : Node) : Option String :=
  match n.kind with
  | .attribute a => some a
  | _ => none
/-- `ast.Constant`; `.s` and `.value` -/
def constVal (n : Node) : Option Const :=
  match n.kind with
  | .const c => some c
  | _ => none
/-- `isinstance(node, ast.Str)`: `.s` -/
def strVal (n : Node) : Option String :=
  match n.kind with
  | .const (.str s) => some s
  | _ => none
/-- the operator of a `Node` of an operator class -/
def opOf (n : Node) : Option Op :=
  match n.kind with
  | .op o => some o
  | _ => none
/-- `isinstance(node, ast.Call)` -/
def isCall (n : Node) : Bool := decide (n.kind = .call)

end Node

/-! ### `ast.walk` -/

/-- Appends the levels of two forests. -/
def mergeLevels {α : Type} : List (List α) → List (List α) → List (List α)
  | [], ys => ys
  | xs, [] => xs
  | x :: xs, y :: ys => (x ++ y) :: mergeLevels xs ys

mutual
/-- The nodes by depth, not descending into nodes that are `stop`, nor including them. -/
def levels (stop : Node → Bool) : Node → List (List Node)
  | .mk i ks => if stop (.mk i ks) then [] else [.mk i ks] :: levelsList stop ks
def levelsList (stop : Node → Bool) : List Node → List (List Node)
  | [] => []
  | k :: ks => mergeLevels (levels stop k) (levelsList stop ks)
end

/-- `ast.walk(node)`: breadth first, children in the order of their fields. -/
def walk (n : Node) : List Node := (levels (fun _ => false) n).flatten

/-- `isinstance(node, (ast.Subscript, ast.Attribute))` -/
def isSubOrAttr (n : Node) : Bool :=
  match n.kind with
  | .subscript => true
  | .attribute _ => true
  | _ => false

/-- `assign_target_walk(node)` (source_visitor.py:56-65) -/
def assignTargetWalk (n : Node) : List Node := (levels isSubOrAttr n).flatten

/-! ### Node tests (source_visitor.py:17-49) -/

/-- `isinstance(node, ast.Num) and isinstance(node.n, int)`; `ast.Num` does not include booleans. -/
def intConst (n : Node) : Option Int :=
  match n.kind with
  | .const (.int i) => some i
  | _ => none

/-- `is_int_node` (source_visitor.py:17-20) -/
def isIntNode (n : Node) : Bool :=
  (intConst n).isSome ||
  (decide (n.kind = .unaryOp) && ((n.field .operand).bind intConst).isSome)

/-- `is_neg_int_node` (source_visitor.py:22-25) -/
def isNegIntNode (n : Node) : Bool :=
  (match intConst n with
    | some i => decide (i < 0)
    | none => false) ||
  (decide (n.kind = .unaryOp) && decide ((n.field .op).bind Node.opOf = some .uSub) &&
    ((n.field .operand).bind intConst).isSome)

/-- `is_none_node` (source_visitor.py:27-34) -/
def isNoneNode (n : Node) : Bool :=
  match n.kind with
  | .name id _ => decide (id = "None")
  | .const c => decide (c = .none)
  | _ => false

/-- `is_ellipsis_node` (source_visitor.py:36-42) -/
def isEllipsisNode (n : Node) : Bool := decide (n.kind = .const .ellipsis)

/-- `is_valid_star_unpack` (source_visitor.py:47-49) -/
def isValidStarUnpack (n : Node) : Bool := decide (n.kind = .starred .load)

end Vermin
