import Verif.Model.Ast
import Verif.Model.Formats
import Verif.Model.RulesMod
import Verif.Model.RulesMem
import Verif.Model.RulesKw
import Verif.Model.RulesSmall
/-
Models vermin/source_state.py and the helpers of vermin/source_visitor.py that only record findings or print.
-/
namespace Vermin
open Py

/-- The boolean attributes of `SourceState` (source_state.py:47-152). -/
inductive Flag where
  | printv2 | printv3 | format27 | longv2 | bytesv3 | fstrings | fstringsSelfDoc | boolConst | annotations | varAnnotations
  | finalAnnotations | literalAnnotations | coroutines | asyncGenerator | asyncComprehension | awaitInComprehension
  | asyncFor | namedExprs | kwOnlyArgs | posOnlyArgs | nonlocalStmt | yieldFrom | raiseCause | raiseFromNone | setLiterals
  | setComp | dictComp | matMult | continueInFinally | modInversePow | withStatement | asyncWithStatement | multiWithitem
  | withParentheses | generalizedUnpacking | unpackingAssignment | ellipsisOutOfSlices | typeAliasStatement | bytesFormat
  | bytearrayFormat | dictUnion | dictUnionMerge | builtinGenericTypeAnnotations | functionDecorators | classDecorators
  | relaxedDecorators | patternMatching | unionTypes | superNoArgs | exceptStar | metaclassClassKeyword
  | moduleDirFunc | moduleGetattrFunc | maybeAnnotations
  deriving DecidableEq, Repr

/-- Keys of `line_col_entities`. -/
inductive Ent where
  | name (s : String)
  | kw (f : String) (k : Option String)
  | const (c : Const)
  deriving DecidableEq, Repr

/-- The key of a constant: strings are the same key as names. -/
def Ent.ofConst : Const → Ent
  | .str s => .name s
  | c => .const c

/-- `SourceState` (source_state.py:11-152), the part that changes.  `tryFinally` has its top first; `fnStack` has its top
last; sets are lists of which only membership is observed (an enumeration goes through `Env.order`). -/
structure S where
  depth : Nat
  line : Nat
  out : List String
  lineCol : Dict Ent (Nat × Option Nat)
  modules : List String
  members : List String
  flags : List Flag
  seenYield : Nat
  seenAwait : Nat
  seenFor : Nat
  seenWhile : Nat
  tryFinally : List (Nat × Nat)
  functionName : Option String
  fnStack : List String
  kwargs : List (String × Option String)
  userFuncDecos : List String
  strftime : List String
  bytesDirs : List String
  codecsErr : List Const
  codecsEnc : List Const
  importMemMod : Dict String String
  nameRes : Dict String String
  nameResType : Dict String (List String)
  userDefs : List String
  typecodes : List String
  moduleAs : Dict String String
  infoVersions : Refs
  ellipsisInSlices : List Nat
  deriving DecidableEq, Repr

/-- `SourceState.__init__` (source_state.py:11-152) -/
def S.init : S :=
  { depth := 0, line := 1, out := [], lineCol := [], modules := [], members := [], flags := [], seenYield := 0, seenAwait := 0,
    seenFor := 0, seenWhile := 0, tryFinally := [], functionName := none, fnStack := [], kwargs := [], userFuncDecos := [],
    strftime := [], bytesDirs := [], codecsErr := [], codecsEnc := [], importMemMod := [], nameRes := [], nameResType := [],
    userDefs := [], typecodes := [], moduleAs := [], infoVersions := [], ellipsisInSlices := [] }

/-- The rule tables the visitor consults (rules.py). -/
structure Tables where
  mod : String → Option Req
  mem : String → Option Req
  kw : String × Option String → Option Req
  strftime : String → Option Req
  bytes : String → Option Req
  typecode : String → Option Req
  errorHandler : String → Option Req
  encodings : List (EncKey × Req)
  deco : String → Option Req
  errorsIndex : String → Option Nat
  encodingsIndices : String → Option (List Nat)
  genericTypes : List String
  dictUnion : List String
  dictUnionMerge : List String

/-- The tables of rules.py under the configured backports (source_state.py:150-152). -/
def Tables.std (cfg : Config) : Tables :=
  { mod := fun k => (Dict.get? (dictDisplay Data.modReqs) k).map (·.eval cfg.backports)
    mem := fun k => (Dict.get? (dictDisplay Data.memReqs) k).map (·.eval cfg.backports)
    kw := fun (f, k) => match k with
      | some k => (Dict.get? (dictDisplay Data.kwReqs) (f, k)).map (·.eval cfg.backports)
      | none => none
    strftime := fun k => Dict.get? (dictDisplay Data.strftimeReqs) k
    bytes := fun k => Dict.get? (dictDisplay Data.bytesReqs) k
    typecode := fun k => Dict.get? (dictDisplay Data.arrayTypecodeReqs) k
    errorHandler := fun k => Dict.get? (dictDisplay Data.codecsErrorHandlers) k
    encodings := Data.codecsEncodings
    deco := fun k => Dict.get? (dictDisplay Data.decoratorUserFunctions) k
    errorsIndex := fun k => Dict.get? (dictDisplay Data.codecsErrorsIndices) k
    encodingsIndices := fun k => Dict.get? (dictDisplay Data.codecsEncodingsIndices) k
    genericTypes := Data.builtinGenericAnnotationTypes
    dictUnion := Data.dictUnionSupportedTypes
    dictUnionMerge := Data.dictUnionMergeSupportedTypes }

/-- What does not change during a visit. -/
structure Env where
  cfg : Config
  path : String
  /-- the decoded source text -/
  source : Option (List Char)
  noLines : List Nat
  tables : Tables
  /-- `ast.dump` -/
  dump : Node → String
  /-- the order in which a set of strings is enumerated -/
  order : List String → List String

/-- An action of the visitor: it changes the state or raises. -/
abbrev V := S → Except Err S

namespace V
def skip : V := fun s => .ok s
def seq (a b : V) : V := fun s =>
  match a s with
  | .ok s' => b s'
  | .error e => .error e
def upd (f : S → S) : V := fun s => .ok (f s)
/-- reads the state -/
def rd (f : S → V) : V := fun s => f s s
def when (c : Bool) (a : V) : V := if c then a else skip
def alt (c : Bool) (a b : V) : V := if c then a else b
/-- binds the result of a computation that may raise -/
def lift {α : Type} (x : Except Err α) (k : α → V) : V :=
  match x with
  | .ok a => k a
  | .error e => fun _ => .error e
/-- binds an optional value -/
def opt {α : Type} (x : Option α) (a : V) (k : α → V) : V :=
  match x with
  | some v => k v
  | none => a
/-- a loop over a list -/
def each {α : Type} (f : α → V) : List α → V
  | [] => skip
  | x :: xs => seq (f x) (each f xs)
end V

infixl:55 " ;; " => V.seq
open V

/-- `self.__is_no_line(line)` (source_visitor.py:879-880) -/
def Env.isNoLine (env : Env) (line : Nat) : Bool := env.noLines.contains line

/-- `self.__s.is_init_file` (source_state.py:26) -/
def Env.isInitFile (env : Env) : Bool :=
  decide ((env.path.toList.reverse.takeWhile (· != '/')).reverse = "__init__.py".toList)

/-- `versions[i] is None or versions[i] > targets[i]` for a target that is not None (source_visitor.py:298) -/
def above (v : Option Ver) (t : Ver) : Bool :=
  match v with
  | none => true
  | some v => decide (t < v)

/-- `__violates_target_versions` (source_visitor.py:284-300).  Without targets `targets[0]` raises; more than two targets
cannot be configured. -/
def violates (env : Env) (versions : Option Req) : Except Err Bool :=
  match versions with
  | none => .ok true
  | some v =>
    if !env.cfg.onlyShowViolations then .ok true
    else match env.cfg.targets with
      | [] => .error .indexError
      | [(_, t)] => if t.major < 3 then .ok (above v.py2 t) else .ok (above v.py3 t)
      | (_, t0) :: (_, t1) :: _ => .ok (above v.py2 t0 || above v.py3 t1)

/-- The `line` argument of the print functions: absent, -1 or a number. -/
inductive LineArg where
  | absent
  | hide
  | at (n : Nat)
  deriving DecidableEq, Repr

/-- The text appended by `__verbose_print` (source_visitor.py:584-602). -/
def verboseLine (env : Env) (s : S) (msg : String) (ent : Option Ent) (line : LineArg) (versions : Option Req)
    (plural : Option Bool) : String :=
  let level := env.cfg.verbose
  let found := if level > 2 then ent.bind (Dict.get? s.lineCol) else none
  let (line, col) : LineArg × Option Nat := match found with
    | some (l, c) => (.at l, c)
    | none => (line, none)
  let line : Option Nat := match line with
    | .hide => none
    | .absent => if level > 2 then some s.line else none
    | .at n => some n
  formatLine env.cfg msg (some env.path) line col versions plural

/-- `__verbose_print` (source_visitor.py:577-602) -/
def verbosePrint (env : Env) (level : Nat) (msg : String) (ent : Option Ent) (line : LineArg) (versions : Option Req)
    (plural : Option Bool) : V :=
  lift (violates env versions) fun show_ =>
    when (show_ && !(skipOutputLine env.cfg || decide (env.cfg.verbose < level)))
      (upd fun s => { s with out := s.out ++ [verboseLine env s msg ent line versions plural] })

/-- `__vvprint(msg)` (source_visitor.py:604-605) -/
def vv (env : Env) (msg : String) (versions : Option Req := none) (line : LineArg := .absent) (plural : Option Bool := none)
    (ent : Option Ent := none) : V :=
  verbosePrint env 2 msg ent line versions plural
/-- `__vvvprint(msg)` (source_visitor.py:607-608) -/
def vvv (env : Env) (msg : String) (versions : Option Req := none) : V := verbosePrint env 3 msg none .absent versions none
/-- `__vvvvprint(msg)` (source_visitor.py:610-612) -/
def vvvv (env : Env) (msg : String) : V := verbosePrint env 4 msg none .absent none none

/-- `__nprint(msg)` (source_visitor.py:573-575) -/
def nprintV (env : Env) (msg : String) : V := when (!env.cfg.quiet) (upd fun s => { s with out := s.out ++ [msg] })

/-- `self.__s.<flag> = True` -/
def S.set (s : S) (f : Flag) : S := { s with flags := if s.flags.contains f then s.flags else s.flags ++ [f] }
def setFlag (f : Flag) : V := upd (·.set f)
/-- `self.__s.<flag>` -/
def S.has (s : S) (f : Flag) : Bool := s.flags.contains f

/-- `__add_line_col(entity, line, col)` (source_visitor.py:870-872) -/
def S.addLineCol (s : S) (e : Ent) (line : Option Nat) (col : Option Nat) : S :=
  match line with
  | some l => { s with lineCol := Dict.set s.lineCol e (l, col) }
  | none => s

/-- `__add_module` (source_visitor.py:614-625) -/
def addModule (env : Env) (m : String) (line : Option Nat) (col : Option Nat := none) : V :=
  rd fun s =>
    if s.userDefs.contains m then vvvv env ("Ignoring module '" ++ m ++ "' because it's user-defined!")
    else if env.cfg.isExcluded m then vv env ("Excluding module: " ++ m)
    else when (!s.modules.contains m) (upd fun s => { s with modules := s.modules ++ [m] }.addLineCol (.name m) line col)

/-- `__add_member` (source_visitor.py:627-639) -/
def addMember (env : Env) (m : String) (line : Option Nat) (col : Option Nat := none) : V :=
  rd fun s =>
    if s.userDefs.contains m then vvvv env ("Ignoring member '" ++ m ++ "' because it's user-defined!")
    else if env.cfg.isExcluded m then vv env ("Excluding member: " ++ m)
    else when (env.tables.mem m).isSome
      (upd fun s => { s with members := s.members ++ [m] }.addLineCol (.name m) line col)

/-- `"{}".format(keyword)` -/
def kwText : Option String → String
  | some k => k
  | none => "None"

/-- Whether `__add_kwargs` returns True (source_visitor.py:641-654). -/
def kwargsAdded (env : Env) (s : S) (f : String) (k : Option String) : Bool :=
  !s.userDefs.contains f && !env.cfg.isExcludedKwarg f (kwText k)

/-- `__add_kwargs` (source_visitor.py:641-654) -/
def addKwargs (env : Env) (f : String) (k : Option String) (line : Nat) : V :=
  rd fun s =>
    if s.userDefs.contains f then vvvv env ("Ignoring function '" ++ f ++ "' because it's user-defined!")
    else if env.cfg.isExcludedKwarg f (kwText k) then vv env ("Excluding kwarg: " ++ f ++ "(" ++ kwText k ++ ")")
    else when (!s.kwargs.contains (f, k))
      (upd fun s => { s with kwargs := s.kwargs ++ [(f, k)] }.addLineCol (.kw f k) (some line) none)

/-- `__add_user_func_deco` (source_visitor.py:656-668) -/
def addUserFuncDeco (env : Env) (u : String) (line : Nat) : V :=
  rd fun s =>
    if s.userDefs.contains u then vvvv env ("Ignoring user function decorator '" ++ u ++ "' because it's user-defined!")
    else if env.cfg.isExcluded u then vv env ("Excluding user function decorator: " ++ u)
    else when (env.tables.deco u).isSome
      (upd fun s => { s with userFuncDecos := s.userFuncDecos ++ [u] }.addLineCol (.name u) (some line) none)

/-- `__add_strftime_directive` (source_visitor.py:670-672) -/
def addStrftime (d : String) (line : Nat) : V :=
  upd fun s => { s with strftime := s.strftime ++ [d] }.addLineCol (.name d) (some line) none
/-- `__add_bytes_directive` (source_visitor.py:674-676) -/
def addBytesDir (d : String) (line : Nat) : V :=
  upd fun s => { s with bytesDirs := s.bytesDirs ++ [d] }.addLineCol (.name d) (some line) none
/-- `__add_array_typecode` (source_visitor.py:874-877) -/
def addTypecode (t : String) (line : Nat) (col : Nat) : V :=
  rd fun s => when (!s.typecodes.contains t)
    (upd fun s => { s with typecodes := s.typecodes ++ [t] }.addLineCol (.name t) (some line) (some col))

/-- `str(value)` of a constant -/
def Const.text : Const → String
  | .none => "None"
  | .bool true => "True"
  | .bool false => "False"
  | .int n => String.ofList (strInt n)
  | .float t => t
  | .complex t => t
  | .str s => s
  | .bytes t => t
  | .ellipsis => "Ellipsis"

/-- Adds one error handler (source_visitor.py:686-691, 696-701). -/
def addErrorHandler (env : Env) (c : Const) (line : Nat) : V :=
  if env.cfg.isExcludedErrorHandler c.text then vv env ("Excluding codecs error handler: " ++ c.text)
  else upd fun s => { s with codecsErr := s.codecsErr ++ [c] }.addLineCol (Ent.ofConst c) (some line) none

/-- Adds one encoding (source_visitor.py:710-715, 720-725). -/
def addEncoding (env : Env) (c : Const) (line : Nat) : V :=
  if env.cfg.isExcludedEncoding c.text then vv env ("Excluding codecs encoding: " ++ c.text)
  else upd fun s => { s with codecsEnc := s.codecsEnc ++ [c] }.addLineCol (Ent.ofConst c) (some line) none

/-- `kw.value` if it is a constant -/
def kwConst (kw : Node) : Option Const := (kw.field .value).bind Node.constVal

/-- the `arg` of a keyword node -/
def kwArg (kw : Node) : Option String :=
  match kw.kind with
  | .keyword a => a
  | _ => none

/-- `__add_codecs_error_handler` (source_visitor.py:678-701) -/
def addCodecsErrorHandler (env : Env) (func : String) (n : Node) : V :=
  opt (env.tables.errorsIndex func) skip fun idx =>
    opt (((n.fields .args)[idx]?).bind Node.constVal) skip (fun c => addErrorHandler env c n.line) ;;
    each (fun kw => when (decide (kwArg kw = some "errors")) (opt (kwConst kw) skip fun c => addErrorHandler env c n.line))
      (n.fields .keywords)

/-- `codecs_encodings_kwargs` (source_state.py:103) -/
def encodingKwargs : List String := ["encoding", "data_encoding", "file_encoding"]

/-- Whether a keyword names an encoding. -/
def isEncodingKw (kw : Node) : Bool :=
  match kwArg kw with
  | some a => encodingKwargs.contains a
  | none => false

/-- The keyword loop of `__add_codecs_encoding` (source_visitor.py:718-725) -/
def addCodecsEncodingKws (env : Env) (n : Node) : V :=
  each (fun kw => when (isEncodingKw kw) (opt (kwConst kw) skip fun c => addEncoding env c n.line)) (n.fields .keywords)

/-- One round of the index loop of `__add_codecs_encoding` (source_visitor.py:706-725): an excluded positional encoding
skips the keywords. -/
def addCodecsEncodingIdx (env : Env) (n : Node) (idx : Nat) : V :=
  opt (((n.fields .args)[idx]?).bind Node.constVal) (addCodecsEncodingKws env n) fun c =>
    if env.cfg.isExcludedEncoding c.text then addEncoding env c n.line
    else addEncoding env c n.line ;; addCodecsEncodingKws env n

/-- `__add_codecs_encoding` (source_visitor.py:703-725) -/
def addCodecsEncoding (env : Env) (func : String) (n : Node) : V :=
  opt (env.tables.encodingsIndices func) skip fun idxs => each (addCodecsEncodingIdx env n) idxs

/-- `__check_codecs_function` (source_visitor.py:727-729) -/
def checkCodecsFunction (env : Env) (func : String) (n : Node) : V :=
  addCodecsErrorHandler env func n ;; addCodecsEncoding env func n

/-- `__add_user_def` (source_visitor.py:731-732) -/
def addUserDef (name : String) : V := upd fun s => { s with userDefs := addSet s.userDefs name }

/-- `__add_user_def_node(node)` for a node (source_visitor.py:734-736) -/
def addUserDefNode (n : Node) : V :=
  match n.kind with
  | .name id .store => addUserDef id
  | _ => skip

/-- `__add_name_res` (source_visitor.py:740-741) -/
def addNameRes (source target : String) : V := upd fun s => { s with nameRes := Dict.set s.nameRes source target }

/-- `__add_name_res_type` (source_visitor.py:743-750) -/
def addNameResType (source target : String) : V :=
  upd fun s => { s with nameResType := Dict.set s.nameResType source (addSet ((Dict.get? s.nameResType source).getD []) target) }

/-- Restores the copy of `user_defs`. -/
def restoreDefs (u : List String) : V := upd fun s => { s with userDefs := u }

/-- `dotted_name` of strings and None. -/
def dotted (l : List (Option String)) : String := String.ofList (join ['.'] (l.filterMap fun o => o.map String.toList))

/-- `str.split(".")` -/
def splitDots (s : String) : List String := (splitOn (· == '.') s.toList).map String.ofList

/-- `__push_function_name` (source_visitor.py:1027-1029) -/
def pushFn (f : String) : V := upd fun s => { s with functionName := some f, fnStack := s.fnStack ++ [f] }
/-- `__pop_function_name` (source_visitor.py:1031-1033) -/
def popFn : V := upd fun s => { s with functionName := s.fnStack.getLast?, fnStack := s.fnStack.dropLast }

end Vermin
