import Verif.Model.Names
/-
Models the visitor methods of vermin/source_visitor.py (class `SourceVisitor`).

A visitor method becomes a state transformer that may raise.  A node is visited through the results of visiting its
children (`Child`), so that the recursion of `ast.NodeVisitor` is structural.  Methods for classes that current
interpreters never create (`visit_Print`, `visit_Bytes`, `visit_Num`, `visit_NameConstant`, `visit_TryExcept`, ..) are
left out; there is no `visit_TryStar`.
-/
namespace Vermin
open Py V

/-- A child node with `self.visit(child)` and `self.generic_visit(child)`. -/
structure Child where
  node : Node
  visit : V
  gvisit : V

/-- `[None, (3, m)]` -/
def from3 (m : Nat) : Option Req := some ⟨none, some ⟨3, m⟩⟩
/-- `[(2, m), (3, n)]` -/
def from23 (m n : Nat) : Option Req := some ⟨some ⟨2, m⟩, some ⟨3, n⟩⟩

/-- `self.__s.<flag> = True; self.__vvprint(msg, ..)` -/
def found (env : Env) (f : Flag) (msg : String) (versions : Option Req := none) (line : LineArg := .absent)
    (plural : Option Bool := none) : V :=
  setFlag f ;; vv env msg versions line plural

/-- The methods that return when the line is excluded by a comment: `if self.__is_no_line(node.lineno): return`. -/
def gate (env : Env) (n : Node) (v : V) : V := if env.isNoLine n.line then skip else v

/-- The start of `generic_visit` (source_visitor.py:902-906). -/
def genEnter (env : Env) (n : Node) : V :=
  opt n.info.line skip (fun l => upd fun s => { s with line := l }) ;;
  upd (fun s => { s with depth := s.depth + 1 }) ;;
  when env.cfg.printVisits
    (rd fun s => nprintV env (String.ofList ((List.replicate s.depth "| ".toList).flatten) ++ env.dump n))

/-- `generic_visit(node)` (source_visitor.py:901-908): the children in the order of their fields. -/
def gen (env : Env) (n : Node) (cs : List Child) : V :=
  genEnter env n ;; each Child.visit cs ;; upd fun s => { s with depth := s.depth - 1 }

/-- Saves and restores `user_defs` around an action. -/
def inScope (v : V) : V := rd fun s => v ;; restoreDefs s.userDefs

/-! ### Imports and names -/

/-- The `name` and `asname` of an alias node. -/
def aliasOf (n : Node) : String × Option String :=
  match n.kind with
  | .alias name asname => (name, asname)
  | _ => ("", none)

/-- `self.__s.module_as_name[asname] = name; self.__add_user_def(asname)` -/
def addAlias (asname name : String) : V :=
  upd (fun s => { s with moduleAs := Dict.set s.moduleAs asname name }) ;; addUserDef asname

/-- The loop body of `visit_Import` (source_visitor.py:914-921). -/
def importName (env : Env) (n a : Node) : V :=
  addModule env (aliasOf a).1 (some n.line) (some (n.col + 7)) ;;
  addMember env (aliasOf a).1 (some n.line) (some (n.col + 7)) ;;
  opt (aliasOf a).2 skip (fun asname => addAlias asname (aliasOf a).1)

/-- `visit_Import` (source_visitor.py:910-921) -/
def visitImport (env : Env) (n : Node) : V := gate env n (each (importName env n) (n.fields .names))

/-- The loop body of `visit_ImportFrom` (source_visitor.py:940-954). -/
def importFromName (env : Env) (n : Node) (module : String) (a : Node) : V :=
  when (decide ((aliasOf a).1 ≠ "*"))
    (upd (fun s => { s with importMemMod := Dict.set s.importMemMod (aliasOf a).1 module }) ;;
     addModule env (module ++ "." ++ (aliasOf a).1) (some n.line) (some (n.col + 5)) ;;
     addMember env (module ++ "." ++ (aliasOf a).1) (some n.line) (some (n.col + 5)) ;;
     addMember env (aliasOf a).1 (some n.line) (some (n.col + 5))) ;;
  opt (aliasOf a).2 skip (fun asname => addAlias asname (module ++ "." ++ (aliasOf a).1))

/-- `visit_ImportFrom` (source_visitor.py:923-954) -/
def visitImportFrom (env : Env) (n : Node) (module : Option String) (level : Nat) : V :=
  opt module skip fun m =>
    when (decide (level = 0)) (gate env n
      (addModule env m (some n.line) (some (n.col + 5)) ;; each (importFromName env n m) (n.fields .names)))

/-- `visit_Name` (source_visitor.py:956-967) -/
def visitName (env : Env) (id : String) : V :=
  if id = "long" then
    rd fun s =>
      if env.cfg.isExcluded "long" then vv env "Excluding long type"
      else if s.userDefs.contains "long" then vvvv env "Ignoring member 'long' because it's user-defined!"
      else found env .longv2 "long is a v2 feature"
  else when (decide (id = "True" ∨ id = "False"))
    (setFlag .boolConst ;; vvv env "True/False constant" (from23 3 0))

/-- `visit_Starred` (source_visitor.py:973-979) -/
def visitStarred (env : Env) (n : Node) (ctx : Ctx) (cs : List Child) : V :=
  when (decide (ctx = .store)) (found env .unpackingAssignment "unpacking assignment" (from3 0)) ;; gen env n cs

/-! ### Calls -/

/-- The positions of a list where a test holds. -/
def positions {α : Type} (p : α → Bool) (i : Nat) : List α → List Nat
  | [] => []
  | x :: xs => if p x then i :: positions p (i + 1) xs else positions p (i + 1) xs

/-- `check_gen_unp(pos, total)` (source_visitor.py:990-994) -/
def unpackPositions (pos : List Nat) (total : Nat) : Bool := decide (1 < pos.length) || pos.any fun p => decide (p + 1 < total)

/-- Whether a call uses generalized unpacking (source_visitor.py:996-1013). -/
def callUnpacks (n : Node) : Bool :=
  unpackPositions (positions isValidStarUnpack 0 (n.fields .args)) (n.fields .args).length ||
  unpackPositions (positions (fun k => (kwArg k).isNone) 0 (n.fields .keywords)) (n.fields .keywords).length

/-- The condition under which `__check_generalized_unpacking` reports (source_visitor.py:981-1025). -/
def unpacks (n : Node) : Bool :=
  match n.kind with
  | .call => callUnpacks n
  | .tuple _ => (n.fields .elts).any isValidStarUnpack
  | .set => (n.fields .elts).any isValidStarUnpack
  | .list _ => (n.fields .elts).any isValidStarUnpack
  | .dict nulls => nulls.any id
  | _ => false

/-- `__check_generalized_unpacking` (source_visitor.py:981-1025) -/
def checkUnpacking (env : Env) (n : Node) : V :=
  when (unpacks n) (found env .generalizedUnpacking "generalized unpacking" (from3 5))

/-- The typecode loop (source_visitor.py:1058-1061, 1090-1093). -/
def typecodeArgs (n : Node) (off : Nat) : V :=
  each (fun a => opt a.strVal skip fun t => addTypecode t n.line (n.col + off)) (n.fields .args)

/-- source_visitor.py:1046-1051 -/
def callCodecs (env : Env) (n : Node) (id : String) : V :=
  rd fun s =>
    match Dict.get? s.importMemMod id with
    | some m => checkCodecsFunction env (m ++ "." ++ id) n
    | none =>
      match Dict.get? s.moduleAs id with
      | some m => checkCodecsFunction env m n
      | none => skip

/-- Whether `pow(..)` has integer arguments with a negative exponent (source_visitor.py:1064-1065). -/
def isInversePow (n : Node) : Bool :=
  match n.fields .args with
  | [a, b, c] => isIntNode a && isNegIntNode b && isIntNode c
  | _ => false

/-- source_visitor.py:1053-1070 -/
def callSpecial (env : Env) (n : Node) (id : String) : V :=
  rd fun s =>
    if id = "print" then setFlag .printv3
    else if id = "array" ∨ Dict.get? s.moduleAs id = some "array.array" then typecodeArgs n 6
    else if id = "pow" ∧ (n.fields .args).length = 3 then
      when (isInversePow n) (found env .modInversePow "modular inverse pow()" (from3 8))
    else when (decide (id = "super") && (n.fields .args).isEmpty)
      (found env .superNoArgs "super() without arguments" (from3 0) .absent (some false))

/-- A call of a name (source_visitor.py:1042-1070). -/
def callName (env : Env) (n : Node) (id : String) : V :=
  pushFn id ;; addMember env id (some n.line) (some n.col) ;; callCodecs env n id ;; callSpecial env n id

/-- The directives of an argument of `strftime`: `findall` on something that is no string raises
(source_visitor.py:1082-1084). -/
def strftimeArg (n : Node) (c : Const) : V :=
  match c with
  | .str t => each (fun d => addStrftime d n.line) (directives t)
  | _ => fun _ => .error .typeError

/-- Whether the receiver of `.format` is a string with an automatically numbered field (source_visitor.py:1073-1077). -/
def isFormat27 (f : Node) : Bool :=
  match (f.field .value).bind Node.strVal with
  | some t => isSub "{}".toList t.toList && format27From none t.toList
  | none => false

/-- source_visitor.py:1071-1084 -/
def callAttrSpecial (env : Env) (n f : Node) (attr : String) : V :=
  if attr = "format" then
    when (isFormat27 f) (vv env "`\"..{}..\".format(..)`" (from23 7 0) ;; setFlag .format27)
  else when (decide (attr = "strftime" ∨ attr = "strptime"))
    (each (fun a => opt a.constVal skip (strftimeArg n)) (n.fields .args))

/-- A call of an attribute (source_visitor.py:1071-1093). -/
def callAttr (env : Env) (n f : Node) (attr : String) : V :=
  callAttrSpecial env n f attr ;;
  rd fun s => lift (dottedAttr s.moduleAs f) fun name =>
    pushFn name ;; checkCodecsFunction env name n ;; when (decide (name = "array.array")) (typecodeArgs n 12)

/-- The function of a call (source_visitor.py:1039-1093). -/
def callFunc (env : Env) (n f : Node) : V :=
  match f.kind with
  | .name id _ => callName env n id
  | .attribute attr => callAttr env n f attr
  | _ => skip

/-- `visit_Call` (source_visitor.py:1035-1097): the name is popped even if none was pushed. -/
def visitCall (env : Env) (n : Node) (cs : List Child) : V :=
  gate env n (opt (n.field .func) skip (callFunc env n) ;; checkUnpacking env n ;; gen env n cs ;; popFn)

/-- The loop body of `visit_Attribute` for the module `m` (source_visitor.py:1104-1109). -/
def attrModule (env : Env) (full : List (Option String)) (dot : String) (line : Nat) (m : String) : V :=
  rd fun s =>
    if full.head? = some (some m) then addModule env dot (some line)
    else opt ((full.head?.getD none).bind (Dict.get? s.importMemMod)) skip fun mod =>
      addMember env (dotted (some mod :: full)) (some line)

/-- The loop of `visit_Attribute` over `self.__s.modules`, which may grow by `dot` meanwhile (source_visitor.py:1104-1109);
the first number bounds the rounds, the second is the index. -/
def attrModules (env : Env) (full : List (Option String)) (dot : String) (line : Nat) : Nat → Nat → V
  | 0, _ => skip
  | k + 1, i => rd fun s => opt s.modules[i]? skip fun m =>
      attrModule env full dot line m ;; attrModules env full dot line k (i + 1)

/-- Two-tier names (source_visitor.py:1126-1129). -/
def attrTwoTier (env : Env) (s : S) (full : List (Option String)) (line : Nat) (res : String) : V :=
  match splitDots res with
  | p :: ps => opt (Dict.get? s.nameRes p) skip fun res2 =>
      addMember env (dotted (some res2 :: (ps.map some ++ full.drop 1))) (some line)
  | [] => skip

/-- Names of variables (source_visitor.py:1112-1129). -/
def attrNameRes (env : Env) (full : List (Option String)) (line : Nat) : V :=
  rd fun s => opt ((full.head?.getD none).bind (Dict.get? s.nameRes)) skip fun res =>
    opt (Dict.get? s.importMemMod res)
      (addMember env (dotted (some res :: full.drop 1)) (some line))
      (fun mod => addMember env (dotted (some mod :: some res :: full.drop 1)) (some line)) ;;
    attrTwoTier env s full line res

/-- `visit_Attribute` (source_visitor.py:1099-1130) -/
def visitAttribute (env : Env) (n : Node) (cs : List Child) : V :=
  (rd fun s => lift (attributeName s.moduleAs n) fun full =>
    when (!full.isEmpty)
      (attrModules env full (dotted full) n.line (s.modules.length + 2) 0 ;;
       addMember env (dotted full) (some n.line) ;; attrNameRes env full n.line)) ;;
  gen env n cs

/-- Indirect names of `visit_keyword` (source_visitor.py:1150-1162). -/
def kwTargetVar (s : S) (f : String) : String :=
  match Dict.get? s.nameRes ((splitDots f).headD "") with
  | some res =>
    match Dict.get? s.importMemMod res with
    | some mod => dotted (some mod :: some res :: ((splitDots f).drop 1).map some)
    | none => dotted (some res :: ((splitDots f).drop 1).map some)
  | none => f

/-- The function a keyword argument is recorded for (source_visitor.py:1136-1162). -/
def kwTarget (s : S) (f : String) : String :=
  match Dict.get? s.importMemMod f with
  | some mod => dotted [some mod, some f]
  | none =>
    match Dict.get? s.importMemMod ((splitDots f).headD "") with
    | some mod => dotted [some mod, some f]
    | none => kwTargetVar s f

/-- `visit_keyword` (source_visitor.py:1132-1166): every function on the stack is considered.  Nothing that decides
`added` changes during the loop. -/
def visitKeyword (env : Env) (n : Node) (arg : Option String) (cs : List Child) : V :=
  rd fun s =>
    each (fun f => addKwargs env (kwTarget s f) arg s.line) s.fnStack ;;
    when (s.fnStack.any fun f => kwargsAdded env s (kwTarget s f) arg) (gen env n cs)

/-! ### Operators and constants -/

/-- The name of a name or attribute (source_visitor.py:1252-1256, 1545-1549). -/
def nameOrAttr (s : S) (n : Node) : Except Err (Option String) :=
  match n.kind with
  | .name id _ => .ok (some id)
  | .attribute _ =>
    match dottedAttr s.moduleAs n with
    | .ok d => .ok (some d)
    | .error e => .error e
  | _ => .ok none

/-- source_visitor.py:1258-1259 -/
def maybeType (s : S) (name : String) : Bool :=
  (!Dict.has s.nameRes name && !s.userDefs.contains name) || Dict.has s.nameResType name

/-- `is_none_or_name(node)` (source_visitor.py:1249-1259) -/
def isNoneOrName (s : S) (n : Node) : Except Err Bool :=
  if isNoneNode n then .ok true
  else match nameOrAttr s n with
    | .ok (some name) => .ok (maybeType s name)
    | .ok none => .ok false
    | .error e => .error e

/-- `is_union_type(node)` (source_visitor.py:1544-1557) -/
def isUnionType (s : S) (n : Node) : Except Err Bool :=
  match nameOrAttr s n with
  | .ok (some name) => .ok (
      (!Dict.has s.nameRes name && !s.userDefs.contains name) ||
      (match Dict.get? s.nameResType name with
        | some ts => decide (1 < ts.length)
        | none => false) ||
      (!Dict.has s.nameRes name && s.userDefs.contains name && Dict.has s.nameResType name))
  | .ok none => .ok false
  | .error e => .error e

/-- Two tests joined by `and`. -/
def bothOk (a b : Except Err Bool) : Except Err Bool :=
  match a with
  | .ok true => b
  | .ok false => .ok false
  | .error e => .error e

/-- `self.__resolve_full_name(node) in types` -/
def resolvesTo (s : S) (types : List String) (n : Node) : Except Err Bool :=
  match resolveFullName s n with
  | .ok (some name) => .ok (types.contains name)
  | .ok none => .ok false
  | .error e => .error e

/-- Whether both operands of `|` are dictionaries (source_visitor.py:1242-1246). -/
def isDictUnion (env : Env) (s : S) (l r : Node) : Except Err Bool := do
  let leftDict ← isDict s.nameRes l
  let rightDict ← isDict s.nameRes r
  let leftSpecial ← resolvesTo s env.tables.dictUnion l
  let rightSpecial ← resolvesTo s env.tables.dictUnion r
  return (leftDict || leftSpecial) && (rightDict || rightSpecial)

/-- The `|` operator (source_visitor.py:1237-1264). -/
def binBitOr (env : Env) (n l r : Node) : V :=
  (rd fun s => lift (isDictUnion env s l r) fun b =>
    when b (found env .dictUnion "dict union (dict | dict)" (from3 9) (.at n.line))) ;;
  when (env.cfg.hasFeature "union-types")
    (rd fun s => lift (bothOk (isNoneOrName s l) (isNoneOrName s r)) fun b =>
      when b (found env .unionTypes "union types as `X | Y`" (from3 10) (.at n.line) (some true)))

/-- `isinstance(node, ast.Bytes)` -/
def isBytes (n : Node) : Bool :=
  match n.kind with
  | .const (.bytes _) => true
  | _ => false

/-- `bytearray(..)` -/
def isBytearrayCall (n : Node) : Bool := n.isCall && decide ((n.field .func).bind Node.nameId = some "bytearray")

/-- The operator of an operation. -/
def operator (n : Node) : Option Op := (n.field .op).bind Node.opOf

/-- The `%` operator (source_visitor.py:1223-1231). -/
def binMod (env : Env) (l : Node) : V :=
  when (isBytes l) (found env .bytesFormat "bytes `%` formatting or `str` synonym" (from23 6 5)) ;;
  when (isBytearrayCall l) (found env .bytearrayFormat "bytearray `%` formatting" (from3 5))

/-- `visit_BinOp` (source_visitor.py:1218-1266) -/
def visitBinOp (env : Env) (n : Node) (cs : List Child) : V :=
  when (decide (operator n = some .mod)) (opt (n.field .left) skip (binMod env)) ;;
  when (decide (operator n = some .bitOr))
    (opt (n.field .left) skip fun l => opt (n.field .right) skip fun r => binBitOr env n l r) ;;
  gen env n cs

/-- `visit_Ellipsis` (source_visitor.py:2177-2182) -/
def visitEllipsis (env : Env) (n : Node) : V :=
  rd fun s => when (!s.ellipsisInSlices.contains n.info.uid)
    (found env .ellipsisOutOfSlices "ellipsis literal (`...`) out of slices" (from3 0) .absent (some false))

/-- `visit_Constant` (source_visitor.py:1268-1284) -/
def visitConstant (env : Env) (n : Node) (c : Const) : V :=
  match c with
  | .bytes t =>
    found env .bytesv3 "byte string (b'..') or `str` synonym" (from23 6 0) ;; each (fun d => addBytesDir d n.line) (directives t)
  | .bool _ => setFlag .boolConst ;; vvv env "True/False constant" (from23 3 0)
  | .ellipsis => visitEllipsis env n
  | _ => skip

/-- Whether the text before `next` in an f-string is that of its expression followed by `=` (source_visitor.py:1512-1519). -/
def selfDocPair (s : S) (val next : Node) : Except Err Bool :=
  match val.strVal with
  | some t =>
    if endsWith ['='] (strip t.toList) && decide (next.kind = .formattedValue) then
      match next.field .value with
      | some e =>
        match extractFstring s.moduleAs e with
        | .ok x =>
          let x := trimFstring x.toList
          .ok (!x.isEmpty && endsWith (x ++ ['=']) (trimFstring t.toList))
        | .error e => .error e
      | none => .error .attributeError
    else .ok false
  | none => .ok false

/-- The loop of `visit_JoinedStr`, up to its first hit (source_visitor.py:1505-1522). -/
def selfDoc (s : S) : List Node → Except Err Bool
  | a :: b :: rest =>
    match selfDocPair s a b with
    | .ok true => .ok true
    | .ok false => selfDoc s (b :: rest)
    | .error e => .error e
  | _ => .ok false

/-- `visit_JoinedStr` (source_visitor.py:1502-1524) -/
def visitJoinedStr (env : Env) (n : Node) (cs : List Child) : V :=
  found env .fstrings "f-strings" (from3 6) ;;
  when (env.cfg.hasFeature "fstring-self-doc")
    (rd fun s => lift (selfDoc s (n.fields .values)) fun b =>
      when b (found env .fstringsSelfDoc "self-documenting fstrings" (from3 8))) ;;
  gen env n cs

/-! ### Assignments -/

/-- What an assigned value says about its targets: the name of its type (`value_name`), or that it is a type
(`type_name`) (source_visitor.py:811-852). -/
inductive AssignedName where
  | value (s : String)
  | type (s : String)
  | nothing
  deriving DecidableEq, Repr

/-- Constants (source_visitor.py:831-848) -/
def assignedConst : Const → AssignedName
  | .str _ => .value "str"
  | .int _ => .value "int"
  | .float _ => .value "float"
  | .bytes _ => .value "bytes"
  | .bool _ => .value "int"
  | .none => .type "None"
  | _ => .nothing

/-- `dotted_name(self.__get_attribute_name(node))` as a value name -/
def assignedAttr (moduleAs : Dict String String) (n : Node) : Except Err AssignedName :=
  match dottedAttr moduleAs n with
  | .ok d => .ok (.value d)
  | .error e => .error e

/-- Calls (source_visitor.py:815-819) -/
def assignedCall (moduleAs : Dict String String) (v : Node) : Except Err AssignedName :=
  match v.field .func with
  | some f =>
    match f.kind with
    | .name id _ => .ok (.value id)
    | .attribute _ => assignedAttr moduleAs f
    | _ => .ok .nothing
  | none => .ok .nothing

/-- source_visitor.py:814-852 -/
def assignedName (moduleAs : Dict String String) (v : Node) : Except Err AssignedName :=
  match v.kind with
  | .call => assignedCall moduleAs v
  | .attribute _ => assignedAttr moduleAs v
  | .dict _ => .ok (.value "dict")
  | .set => .ok (.value "set")
  | .list _ => .ok (.value "list")
  | .const c => .ok (assignedConst c)
  | .name id _ => .ok (.type id)
  | _ => .ok .nothing

/-- source_visitor.py:862-868 -/
def bindTarget (a : AssignedName) (t : Node) : V :=
  opt t.nameId skip fun id =>
    match a with
    | .value v => addNameRes id v
    | .type v => addNameResType id v
    | .nothing => skip

/-- `__add_name_res_assign_node` (source_visitor.py:807-868) -/
def addNameResAssign (n : Node) : V :=
  opt (n.field .value) skip fun v =>
    rd fun s => lift (assignedName s.moduleAs v) fun a =>
      each (bindTarget a) (n.kids.filter fun k => decide (k.fld = .targets) || decide (k.fld = .target))

/-- The names stored by a target: `for n in assign_target_walk(target): self.__add_user_def_node(n)` -/
def addTargets (t : Node) : V := each addUserDefNode (assignTargetWalk t)

/-- `visit_Assign` (source_visitor.py:1526-1534) -/
def visitAssign (env : Env) (n : Node) (cs : List Child) : V :=
  gate env n (each addTargets (n.fields .targets) ;; addNameResAssign n ;; gen env n cs)

/-- The `|=` operator (source_visitor.py:1542-1579). -/
def augBitOr (env : Env) (n t v : Node) : V :=
  rd fun s => lift (isDict s.nameRes v) fun vd =>
    if vd then
      lift (resolvesTo s env.tables.dictUnionMerge t) fun a => lift (if a then .ok true else isDict s.nameRes t) fun b =>
        when b (found env .dictUnionMerge "dict union merge (dict var |= dict)" (from3 9) (.at n.line))
    else when (env.cfg.hasFeature "union-types")
      (lift (bothOk (isUnionType s t) (isUnionType s v)) fun b =>
        when b (found env .unionTypes "union types as `a = X; a |= Y`" (from3 10) (.at n.line) (some true)))

/-- `visit_AugAssign` (source_visitor.py:1536-1581) -/
def visitAugAssign (env : Env) (n : Node) (cs : List Child) : V :=
  gate env n
    (opt (n.field .target) skip addUserDefNode ;; addNameResAssign n ;;
     when (decide (operator n = some .bitOr))
       (opt (n.field .target) skip fun t => opt (n.field .value) skip fun v => augBitOr env n t v) ;;
     gen env n cs)

/-- Whether an annotation is `X` or `X[..]` (source_visitor.py:1597-1599). -/
def isAnn (a : Node) (x : String) : Bool :=
  decide (a.nameId = some x) || (decide (a.kind = .subscript) && decide ((a.field .value).bind Node.nameId = some x))

/-- The annotation of a variable (source_visitor.py:1595-1606). -/
def annKind (env : Env) (n a : Node) : V :=
  if isAnn a "Final" then found env .finalAnnotations "final variable annotations" (from3 8) (.at n.line)
  else when (isAnn a "Literal") (found env .literalAnnotations "literal variable annotations" (from3 8) (.at n.line))

/-- `visit_AnnAssign` (source_visitor.py:1583-1606) -/
def visitAnnAssign (env : Env) (n : Node) (cs : List Child) : V :=
  gate env n
    (opt (n.field .target) skip addUserDefNode ;; addNameResAssign n ;;
     alt env.cfg.evalAnnotations (gen env n cs) (setFlag .maybeAnnotations) ;;
     setFlag .annotations ;;
     found env .varAnnotations "variable annotations" (from3 6) (.at n.line) ;;
     opt (n.field .annotation) skip (annKind env n))

/-! ### Functions and classes -/

/-- What is inspected of a decorator: the function of a call (source_visitor.py:1617). -/
def decoRoot (d : Node) : Node :=
  match d.kind with
  | .call => (d.field .func).getD d
  | _ => d

/-- `isinstance(n, (ast.Name, ast.Attribute, ast.Load))` -/
def isNameOrAttr (n : Node) : Bool :=
  match n.kind with
  | .name _ _ => true
  | .attribute _ => true
  | _ => false

/-- `__check_relaxed_decorators` (source_visitor.py:1608-1621) -/
def checkRelaxed (env : Env) (n : Node) : V :=
  each (fun d => gate env d (when ((walk (decoRoot d)).any fun m => !isNameOrAttr m)
    (found env .relaxedDecorators "relaxed decorators" (from3 9) (.at d.line)))) (n.fields .decoratorList)

/-- The full name of a decorator (source_visitor.py:1635-1638). -/
def decoName (s : S) (name : String) : String :=
  match Dict.get? s.importMemMod name with
  | some m => dotted [some m, some name]
  | none => (Dict.get? s.moduleAs name).getD name

/-- `__check_user_func_decorators` (source_visitor.py:1623-1639) -/
def checkUserFuncDecos (env : Env) (n : Node) : V :=
  each (fun d => gate env d (rd fun s => lift (nameOrAttr s d) fun name =>
    opt name skip fun name => addUserFuncDeco env (decoName s name) d.line)) (n.fields .decoratorList)

/-- The line of the first decorator that is not excluded (source_visitor.py:1668-1669, 1769-1770). -/
def decoLine (env : Env) (n : Node) : Option Nat :=
  ((n.fields .decoratorList).find? fun d => !env.isNoLine d.line).map Node.line

/-- Module-level `__dir__` and `__getattr__` (source_visitor.py:1648-1662). -/
def dirFuncs (env : Env) (n : Node) (name : String) : V :=
  opt (n.field .args) skip fun args =>
    rd fun s =>
      when (decide (s.depth = 1) && env.isInitFile && (args.fields .posonlyargs).isEmpty && (args.fields .kwonlyargs).isEmpty &&
          (args.field .kwarg).isNone)
        (if name = "__dir__" ∧ (args.fields .args).length = 0 then
          found env .moduleDirFunc "module `__dir__()` supported by `dir()` since 3.7" none (.at n.line)
        else when (decide (name = "__getattr__" ∧ (args.fields .args).length = 1))
          (found env .moduleGetattrFunc "module `__getattr__(name)` supported through lookup since 3.7" none (.at n.line)))

/-- Decorators of a function (source_visitor.py:1664-1673). -/
def funcDecos (env : Env) (n : Node) : V :=
  opt (decoLine env n) skip fun l =>
    found env .functionDecorators "function decorators" (from23 4 0) (.at l) ;; checkRelaxed env n ;; checkUserFuncDecos env n

/-- `has_ann()` (source_visitor.py:1689-1691) -/
def hasAnn (env : Env) (n : Node) : V := found env .annotations "annotations" (from3 0) (.at n.line)

/-- `has_lit_ann()` (source_visitor.py:1698-1703) -/
def hasLitAnn (env : Env) (n : Node) : V :=
  alt env.cfg.evalAnnotations (found env .literalAnnotations "literal variable annotations" (from3 8) (.at n.line))
    (setFlag .maybeAnnotations)

/-- Whether the annotation of a parameter is a `Literal` (source_visitor.py:1711-1721). -/
def isLiteralAnn (s : S) (a : Node) : Except Err Bool :=
  if isAnn a "Literal" then .ok true
  else match dottedAttr s.moduleAs a with
    | .ok d => .ok (decide (d = "Literal" ∨ d = "typing.Literal"))
    | .error e => .error e

/-- The loop over the parameters (source_visitor.py:1705-1721). -/
def argAnns (env : Env) (n : Node) : List Node → V
  | [] => skip
  | a :: as => opt (a.field .annotation) (argAnns env n as) fun ann =>
      hasAnn env n ;; rd fun s => lift (isLiteralAnn s ann) fun b => alt b (hasLitAnn env n) (argAnns env n as)

/-- The parameters `node.args.args`. -/
def paramsOf (n : Node) : List Node :=
  match n.field .args with
  | some a => a.fields .args
  | none => []

/-- Annotations of a function (source_visitor.py:1693-1723). -/
def funcAnns (env : Env) (n : Node) : V :=
  alt (n.field .returns).isSome (hasAnn env n) (argAnns env n (paramsOf n))

/-- The node with its return annotation removed if annotations are not evaluated (source_visitor.py:1677-1681). -/
def dropReturns (env : Env) (n : Node) : Node :=
  .mk n.info (n.kids.filter fun k => env.cfg.evalAnnotations || decide (k.fld ≠ .returns))

/-- The children to visit then. -/
def dropReturnsKids (env : Env) (cs : List Child) : List Child :=
  cs.filter fun c => env.cfg.evalAnnotations || decide (c.node.fld ≠ .returns)

/-- `__handle_FunctionDef` after the test of the line (source_visitor.py:1645-1723). -/
def handleFunctionDef (env : Env) (n : Node) (name : String) (cs : List Child) : V :=
  addUserDef name ;; dirFuncs env n name ;; funcDecos env n ;;
  inScope (gen env (dropReturns env n) (dropReturnsKids env cs)) ;;
  funcAnns env n

/-- `visit_FunctionDef` (source_visitor.py:1725-1729) -/
def visitFunctionDef (env : Env) (n : Node) (name : String) (cs : List Child) : V :=
  gate env n (rd fun s => handleFunctionDef env n name cs ;; upd fun s' => { s' with seenYield := s.seenYield })

/-- `visit_AsyncFunctionDef` (source_visitor.py:1731-1744) -/
def visitAsyncFunctionDef (env : Env) (n : Node) (name : String) (cs : List Child) : V :=
  gate env n (rd fun s =>
    handleFunctionDef env n name cs ;;
    found env .coroutines "coroutines (async)" (from3 5) (.at n.line) (some true) ;;
    (rd fun s' => when (decide (s.seenYield < s'.seenYield) && decide (s.seenAwait < s'.seenAwait))
      (found env .asyncGenerator "async generators (await and yield in same func)" (from3 6) (.at n.line) (some true))) ;;
    upd fun s' => { s' with seenAwait := s.seenAwait, seenYield := s.seenYield })

/-- `visit_Lambda` (source_visitor.py:1746-1749) -/
def visitLambda (env : Env) (n : Node) (cs : List Child) : V := inScope (gen env n cs)

/-- `visit_Await` (source_visitor.py:1751-1757) -/
def visitAwait (env : Env) (n : Node) (cs : List Child) : V :=
  gate env n (found env .coroutines "coroutines (await)" (from3 5) .absent (some true) ;;
    upd (fun s => { s with seenAwait := s.seenAwait + 1 }) ;; gen env n cs)

/-- Decorators of a class (source_visitor.py:1765-1773). -/
def classDecos (env : Env) (n : Node) : V :=
  opt (decoLine env n) skip fun l =>
    found env .classDecorators "class decorators" (from23 6 0) (.at l) ;; checkRelaxed env n

/-- `metaclass=` (source_visitor.py:1775-1779) -/
def metaclassKw (env : Env) (n : Node) : V :=
  each (fun k => when (decide (kwArg k = some "metaclass"))
    (found env .metaclassClassKeyword "'metaclass' class keyword" (from3 0))) (n.fields .keywords)

/-- The statements of a class body. -/
def bodyOf (cs : List Child) : List Child := cs.filter fun c => decide (c.node.fld = .body)

/-- `visit_ClassDef` (source_visitor.py:1759-1784): after the generic visit the statements of the body are visited
generically. -/
def visitClassDef (env : Env) (n : Node) (name : String) (cs : List Child) : V :=
  gate env n (addUserDef name ;; addNameResType name name ;; classDecos env n ;; metaclassKw env n ;;
    gen env n cs ;; each Child.gvisit (bodyOf cs))

/-- `visit_NamedExpr` (source_visitor.py:1791-1797) -/
def visitNamedExpr (env : Env) (n : Node) (cs : List Child) : V :=
  gate env n (opt (n.field .target) skip addUserDefNode ;; found env .namedExprs "named expressions" (from3 8) ;; gen env n cs)

/-- The name of a parameter. -/
def argName (n : Node) : Option String :=
  match n.kind with
  | .arg a => some a
  | _ => none

/-- `visit_arguments` (source_visitor.py:1799-1825) -/
def visitArguments (env : Env) (n : Node) (cs : List Child) : V :=
  when (!(n.fields .posonlyargs).isEmpty) (found env .posOnlyArgs "positional-only parameters" (from3 8)) ;;
  when (!(n.fields .kwonlyargs).isEmpty) (found env .kwOnlyArgs "keyword-only parameters" (from3 0)) ;;
  each (fun a => opt (argName a) skip addUserDef)
    (n.fields .args ++ n.fields .posonlyargs ++ n.fields .kwonlyargs ++ n.fields .vararg ++ n.fields .kwarg) ;;
  gen env n cs

/-! ### Statements -/

/-- `visit_Nonlocal` (source_visitor.py:1827-1832) -/
def visitNonlocal (env : Env) (n : Node) (cs : List Child) : V :=
  gate env n (found env .nonlocalStmt "`nonlocal`" (from3 0) ;; gen env n cs)

/-- `visit_YieldFrom` (source_visitor.py:1834-1839) -/
def visitYieldFrom (env : Env) (n : Node) (cs : List Child) : V :=
  gate env n (found env .yieldFrom "`yield from`" (from3 3) ;; gen env n cs)

/-- `visit_Yield` (source_visitor.py:1841-1845) -/
def visitYield (env : Env) (n : Node) (cs : List Child) : V :=
  gate env n (upd (fun s => { s with seenYield := s.seenYield + 1 }) ;; gen env n cs)

/-- The names within an expression are used members (source_visitor.py:1867-1869, 1891-1893). -/
def namesAsMembers (env : Env) (e : Node) : V :=
  each (fun m => opt m.nameId skip fun id => addMember env id (some m.line) (some m.col)) (walk e)

/-- The cause of `raise` (source_visitor.py:1850-1855). -/
def raiseCauseOf (env : Env) (n c : Node) : V :=
  found env .raiseCause "exception cause" (from3 0) (.at n.line) ;;
  when (isNoneNode c) (found env .raiseFromNone "raise ... from None" (from3 3) (.at n.line))

/-- `visit_Raise` (source_visitor.py:1847-1871) -/
def visitRaise (env : Env) (n : Node) (cs : List Child) : V :=
  gate env n (opt (n.field .cause) skip (raiseCauseOf env n) ;;
    opt (n.field .exc) skip (namesAsMembers env) ;; opt (n.field .cause) skip (namesAsMembers env) ;; gen env n cs)

/-- `__get_source_line(line)` (source_visitor.py:261-271) -/
def sourceLine (env : Env) (line : Nat) : Option (List Char) :=
  match env.source with
  | none => none
  | some t => if line = 0 then none else (splitlines t)[line - 1]?

/-- `__get_source_lines(line_begin, amount)` (source_visitor.py:273-279) -/
def sourceLines (env : Env) (first amount : Nat) : List Char :=
  join ['\n'] ((List.range (amount + 1)).filterMap fun i => sourceLine env (first + i))

/-- Whether the source of a handler starts with `except*` (source_visitor.py:1877-1878). -/
def isExceptStar (env : Env) (n : Node) : Bool :=
  match sourceLine env n.line with
  | some l => startsWith "except".toList (l.drop n.col) && startsWith ['*'] (lstrip ((l.drop n.col).drop 6))
  | none => false

/-- `visit_ExceptHandler` (source_visitor.py:1873-1896) -/
def visitExceptHandler (env : Env) (n : Node) (name : Option String) (cs : List Child) : V :=
  gate env n (when (isExceptStar env n) (found env .exceptStar "`except*`" (from3 11) (.at n.line)) ;;
    inScope (opt name skip addUserDef ;; opt (n.field .type) skip (namesAsMembers env) ;; gen env n cs))

/-- `__handle_comprehensions` (source_visitor.py:1903-1909) -/
def compTargets (n : Node) : V := each (fun c => opt (c.field .target) skip addTargets) (n.fields .generators)

/-- `visit_ListComp`, `visit_GeneratorExp` (source_visitor.py:1911-1914, 1924-1927) -/
def visitComp (env : Env) (n : Node) (cs : List Child) : V := inScope (compTargets n ;; gen env n cs)

/-- `visit_SetComp` (source_visitor.py:1916-1922) -/
def visitSetComp (env : Env) (n : Node) (cs : List Child) : V :=
  found env .setComp "set comprehensions" (from23 7 0) ;; visitComp env n cs

/-- `visit_DictComp` (source_visitor.py:1929-1935) -/
def visitDictComp (env : Env) (n : Node) (cs : List Child) : V :=
  found env .dictComp "dict comprehensions" (from23 7 0) ;; visitComp env n cs

/-- `visit_comprehension` (source_visitor.py:1937-1949) -/
def visitComprehension (env : Env) (n : Node) (isAsync : Bool) (cs : List Child) : V :=
  when isAsync (found env .asyncComprehension "async comprehensions" (from3 7)) ;;
  rd fun s =>
    gen env n cs ;;
    (rd fun s' => when (decide (s.seenAwait < s'.seenAwait)) (found env .awaitInComprehension "await in comprehensions" (from3 7))) ;;
    upd fun s' => { s' with seenAwait := s.seenAwait }

/-- Whether `continue` is in a `finally` without an inner loop (source_visitor.py:1960-1962). -/
def inFinally (s : S) : Bool :=
  match s.tryFinally with
  | (f, w) :: _ => decide (f = s.seenFor) && decide (w = s.seenWhile)
  | [] => false

/-- `visit_Continue` (source_visitor.py:1958-1964) -/
def visitContinue (env : Env) (n : Node) : V :=
  rd fun s => when (inFinally s) (found env .continueInFinally "continue in finally block" (from3 8) (.at n.line))

/-- Whether the parenthesised form is used (source_visitor.py:2000-2002). -/
def isWithParen (env : Env) (n : Node) : Bool :=
  let lines := sourceLines env n.line (n.line + 10)
  match withParenStart 0 lines with
  | some i =>
    match splitlines lines with
    | l :: _ => decide (i < l.length)
    | [] => false
  | none => false

/-- Several items (source_visitor.py:1977-2003). -/
def multiWith (env : Env) (n : Node) : V :=
  found env .multiWithitem "multiple context expressions in a `with` statement" (from23 7 1) (.at n.line) (some true) ;;
  when (isWithParen env n)
    (found env .withParentheses "multiple context expressions in a `with` statement with parentheses" (from3 9) (.at n.line))

/-- `__handle_with` (source_visitor.py:1966-2013) -/
def handleWith (env : Env) (n : Node) (cs : List Child) : V :=
  inScope (each (fun w => opt (w.field .optionalVars) skip addTargets) (n.fields .items) ;;
    when (decide (1 < (n.fields .items).length)) (multiWith env n) ;; gen env n cs)

/-- `visit_With` (source_visitor.py:2015-2020) -/
def visitWith (env : Env) (n : Node) (cs : List Child) : V :=
  gate env n (found env .withStatement "`with`" (from23 5 0) (.at n.line) ;; handleWith env n cs)

/-- `visit_AsyncWith` (source_visitor.py:2022-2027) -/
def visitAsyncWith (env : Env) (n : Node) (cs : List Child) : V :=
  gate env n (found env .asyncWithStatement "`async with`" (from3 5) (.at n.line) ;; handleWith env n cs)

/-- `visit_Dict`, `visit_Tuple`, `visit_List` (source_visitor.py:2029-2039) -/
def visitDisplay (env : Env) (n : Node) (cs : List Child) : V := checkUnpacking env n ;; gen env n cs

/-- `visit_Set` (source_visitor.py:2041-2045) -/
def visitSet (env : Env) (n : Node) (cs : List Child) : V :=
  found env .setLiterals "set literals" (from23 7 0) (.at n.line) ;; visitDisplay env n cs

/-- `match(name)` (source_visitor.py:2052-2061) -/
def genericType (env : Env) (name : String) : V :=
  alt env.cfg.evalAnnotations
    (rd fun s => if s.userDefs.contains name then vvvv env ("Ignoring type '" ++ name ++ "' because it's user-defined!")
      else found env .builtinGenericTypeAnnotations ("builtin generic type annotation (" ++ name ++ "[..])") (from3 9))
    (setFlag .maybeAnnotations)

/-- source_visitor.py:2066-2075 -/
def subscriptName (env : Env) (coll : String) : V :=
  rd fun s =>
    if env.tables.genericTypes.contains coll then genericType env coll
    else opt (Dict.get? s.importMemMod coll)
      (opt (Dict.get? s.nameResType coll) skip fun ts =>
        each (fun t => when (env.tables.genericTypes.contains t) (genericType env t)) (env.order ts))
      fun m => when (env.tables.genericTypes.contains (dotted [some m, some coll])) (genericType env (dotted [some m, some coll]))

/-- `self.__s.ellipsis_nodes_in_slices.add(node)` if it is an ellipsis -/
def markEllipsis (n : Node) : V :=
  when (isEllipsisNode n) (upd fun s => { s with ellipsisInSlices := s.ellipsisInSlices ++ [n.info.uid] })

/-- A subscript that is not an `ast.ExtSlice` (source_visitor.py:2085-2090). -/
def markSubscript (sl : Node) : V :=
  markEllipsis sl ;;
  match sl.kind with
  | .tuple _ => each markEllipsis (sl.fields .elts)
  | _ => skip

/-- The slice (source_visitor.py:2077-2090). -/
def markSlice (sl : Node) : V :=
  match sl.kind with
  | .extSlice => each markEllipsis (sl.fields .dims)
  | .index => opt (sl.field .value) skip markSubscript
  | _ => markSubscript sl

/-- `visit_Subscript` (source_visitor.py:2047-2092) -/
def visitSubscript (env : Env) (n : Node) (cs : List Child) : V :=
  gate env n
    (opt (n.field .value) skip (fun v => rd fun s => lift (nameOrAttr s v) fun name => opt name skip (subscriptName env)) ;;
     opt (n.field .slice) skip markSlice ;; gen env n cs)

/-- `visit_Match` (source_visitor.py:2094-2099) -/
def visitMatch (env : Env) (n : Node) (cs : List Child) : V :=
  gate env n (found env .patternMatching "pattern matching" (from3 10) (.at n.line) ;; gen env n cs)

/-- `visit_If`, `visit_IfExp`, `visit_BoolOp` (source_visitor.py:2103-2109, 2173-2175) -/
def visitGated (env : Env) (n : Node) (cs : List Child) : V := gate env n (gen env n cs)

/-- The elements of a display (source_visitor.py:2125-2127). -/
def eltsOf (n : Node) : List Node := n.kids.filter fun k => decide (k.fld = .elts) || decide (k.fld = .values)

/-- The target of a loop over dictionaries is a dictionary (source_visitor.py:2120-2129). -/
def forDict (n : Node) : V :=
  opt ((n.field .target).bind Node.nameId) skip fun id => opt (n.field .iter) skip fun it =>
    rd fun s => lift (anyDict s.nameRes (eltsOf it)) fun b => when b (addNameRes id "dict")

/-- `__handle_for` (source_visitor.py:2111-2136).  `old_name_res` is not a copy, so restoring it changes nothing. -/
def handleFor (env : Env) (n : Node) (cs : List Child) : V :=
  gate env n (upd (fun s => { s with seenFor := s.seenFor + 1 }) ;;
    inScope (opt (n.field .target) skip addTargets ;; forDict n ;; gen env n cs ;;
      upd fun s => { s with seenFor := s.seenFor - 1 }))

/-- `visit_AsyncFor` (source_visitor.py:2141-2146) -/
def visitAsyncFor (env : Env) (n : Node) (cs : List Child) : V :=
  gate env n (found env .asyncFor "async for-loops" (from3 5) (.at n.line) ;; handleFor env n cs)

/-- `visit_While` (source_visitor.py:2148-2152) -/
def visitWhile (env : Env) (n : Node) (cs : List Child) : V :=
  gate env n (upd (fun s => { s with seenWhile := s.seenWhile + 1 }) ;; gen env n cs ;;
    upd fun s => { s with seenWhile := s.seenWhile - 1 })

/-- The statements of a `finally` block. -/
def finalOf (cs : List Child) : List Child := cs.filter fun c => decide (c.node.fld = .finalbody)

/-- `__handle_Try` (source_visitor.py:2154-2162): the statements of `finally` are visited first and then once more. -/
def visitTry (env : Env) (n : Node) (cs : List Child) : V :=
  gate env n (upd (fun s => { s with tryFinally := (s.seenFor, s.seenWhile) :: s.tryFinally }) ;;
    each Child.visit (finalOf cs) ;; upd (fun s => { s with tryFinally := s.tryFinally.drop 1 }) ;; gen env n cs)

/-- `visit_TypeAlias` (source_visitor.py:2184-2189) -/
def visitTypeAlias (env : Env) (n : Node) (cs : List Child) : V :=
  gate env n (found env .typeAliasStatement "type alias statement (`type X = SomeType`)" (from3 12) .absent (some false) ;; gen env n cs)

/-- Operators: `visit_MatMult` (source_visitor.py:1953-1956) and the ignored ones (source_visitor.py:2208-2254). -/
def visitOp (env : Env) (n : Node) (o : Op) (cs : List Child) : V :=
  match o with
  | .matMult => found env .matMult "infix matrix multiplication" (from3 5) ;; gen env n cs
  | .not | .add | .sub | .mult | .div | .bitAnd | .or | .bitOr | .eq | .notEq | .lt | .gt | .in | .is | .mod => skip
  | _ => gen env n cs

/-- `self.visit(node)`: the method for the class of the node, or `generic_visit`. -/
def visitAlg (env : Env) (n : Node) (cs : List Child) : V :=
  match n.kind with
  | .import => visitImport env n
  | .importFrom m l => visitImportFrom env n m l
  | .name id _ => visitName env id
  | .starred ctx => visitStarred env n ctx cs
  | .call => visitCall env n cs
  | .attribute _ => visitAttribute env n cs
  | .keyword a => visitKeyword env n a cs
  | .binOp => visitBinOp env n cs
  | .const c => visitConstant env n c
  | .joinedStr => visitJoinedStr env n cs
  | .assign => visitAssign env n cs
  | .augAssign => visitAugAssign env n cs
  | .annAssign => visitAnnAssign env n cs
  | .functionDef name => visitFunctionDef env n name cs
  | .asyncFunctionDef name => visitAsyncFunctionDef env n name cs
  | .lambda => visitLambda env n cs
  | .await => visitAwait env n cs
  | .classDef name => visitClassDef env n name cs
  | .namedExpr => visitNamedExpr env n cs
  | .arguments => visitArguments env n cs
  | .nonlocal => visitNonlocal env n cs
  | .yieldFrom => visitYieldFrom env n cs
  | .yield => visitYield env n cs
  | .raise => visitRaise env n cs
  | .exceptHandler name => visitExceptHandler env n name cs
  | .listComp => visitComp env n cs
  | .generatorExp => visitComp env n cs
  | .setComp => visitSetComp env n cs
  | .dictComp => visitDictComp env n cs
  | .comprehension a => visitComprehension env n a cs
  | .continue => visitContinue env n
  | .with => visitWith env n cs
  | .asyncWith => visitAsyncWith env n cs
  | .dict _ => visitDisplay env n cs
  | .tuple _ => visitDisplay env n cs
  | .list _ => visitDisplay env n cs
  | .set => visitSet env n cs
  | .subscript => visitSubscript env n cs
  | .match => visitMatch env n cs
  | .if => visitGated env n cs
  | .ifExp => visitGated env n cs
  | .boolOp => visitGated env n cs
  | .for => handleFor env n cs
  | .asyncFor => visitAsyncFor env n cs
  | .while => visitWhile env n cs
  | .try => visitTry env n cs
  | .typeAlias => visitTypeAlias env n cs
  | .op o => visitOp env n o cs
  | .alias _ _ => skip
  | .pass => skip
  | .break => skip
  | _ => gen env n cs

mutual
/-- `self.visit(node)` and `self.generic_visit(node)`. -/
def visitNode (env : Env) : Node → V × V
  | .mk i ks => (visitAlg env (.mk i ks) (visitKids env ks), gen env (.mk i ks) (visitKids env ks))
def visitKids (env : Env) : List Node → List Child
  | [] => []
  | k :: ks => ⟨k, (visitNode env k).1, (visitNode env k).2⟩ :: visitKids env ks
end

/-- `self.visit(node)` -/
def visit (env : Env) (n : Node) : V := (visitNode env n).1
/-- `self.generic_visit(node)` -/
def genericVisit (env : Env) (n : Node) : V := (visitNode env n).2

/-- One user definition in `__after_visit_all` (source_visitor.py:886-894): one line for each removed name. -/
def removeDef (env : Env) (u : String) : V :=
  rd fun s =>
    each (fun _ => vvvv env ("Ignoring module '" ++ u ++ "' because it's user-defined!")) (s.modules.filter (· == u)) ;;
    upd (fun s => { s with modules := s.modules.filter (· != u) }) ;;
    each (fun _ => vvvv env ("Ignoring member '" ++ u ++ "' because it's user-defined!")) (s.members.filter (· == u)) ;;
    upd (fun s => { s with members := s.members.filter (· != u) })

/-- `__after_visit_all` (source_visitor.py:882-894) -/
def afterVisitAll (env : Env) : V := rd fun s => each (removeDef env) (env.order s.userDefs)

/-- `tour(node)` (source_visitor.py:896-899) -/
def tour (env : Env) (n : Node) : V := visit env n ;; afterVisitAll env

end Vermin
