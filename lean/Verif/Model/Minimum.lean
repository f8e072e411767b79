import Verif.Model.Visitor
/-
Models `minimum_versions` and `output_text` of vermin/source_visitor.py.
-/
namespace Vermin
open Py V

/-- A language feature in `minimum_versions`: its flag, its requirement and the text recorded for conflicts. -/
structure Feature where
  flag : Flag
  req : Req
  info : Option String

def only3 (m : Nat) : Req := ⟨none, some ⟨3, m⟩⟩
def both23 (m n : Nat) : Req := ⟨some ⟨2, m⟩, some ⟨3, n⟩⟩

/-- The features after `print` in the order of `minimum_versions` (source_visitor.py:333-492). -/
def features : List Feature :=
  [⟨.format27, both23 7 0, some "`\"..{}..\".format(..)`"⟩,
   ⟨.longv2, ⟨some ⟨2, 0⟩, none⟩, none⟩,
   ⟨.bytesv3, both23 6 0, some "'bytes' type"⟩,
   ⟨.fstrings, only3 6, some "fstrings"⟩,
   ⟨.fstringsSelfDoc, only3 8, some "self-documenting fstrings"⟩,
   ⟨.boolConst, both23 3 0, some "'bool' constant"⟩,
   ⟨.annotations, only3 0, some "annotations"⟩,
   ⟨.varAnnotations, only3 6, some "variable annotations"⟩,
   ⟨.finalAnnotations, only3 8, some "Final annotations"⟩,
   ⟨.literalAnnotations, only3 8, some "Literal annotations"⟩,
   ⟨.coroutines, only3 5, some "coroutines"⟩,
   ⟨.asyncGenerator, only3 6, some "async generators"⟩,
   ⟨.asyncComprehension, only3 7, some "async comprehensions"⟩,
   ⟨.awaitInComprehension, only3 7, some "await in comprehension"⟩,
   ⟨.asyncFor, only3 5, some "async for-loop"⟩,
   ⟨.namedExprs, only3 8, some "named expressions"⟩,
   ⟨.kwOnlyArgs, only3 0, some "keyword-only arguments"⟩,
   ⟨.posOnlyArgs, only3 8, some "position only arguments"⟩,
   ⟨.nonlocalStmt, only3 0, some "'nonlocal' statement"⟩,
   ⟨.yieldFrom, only3 3, some "yield from"⟩,
   ⟨.raiseCause, only3 0, some "exception cause"⟩,
   ⟨.raiseFromNone, only3 3, some "raise ... from None"⟩,
   ⟨.setLiterals, both23 7 0, some "set literals"⟩,
   ⟨.setComp, both23 7 0, some "set comprehension"⟩,
   ⟨.dictComp, both23 7 0, some "dict comprehension"⟩,
   ⟨.matMult, only3 5, some "infix matrix multiplication"⟩,
   ⟨.continueInFinally, only3 8, some "'continue' in 'finally'"⟩,
   ⟨.modInversePow, only3 8, some "modular inverse 'pow()'"⟩,
   ⟨.withStatement, both23 5 0, some "'with' statement"⟩,
   ⟨.asyncWithStatement, only3 5, some "'async with' statement"⟩,
   ⟨.multiWithitem, both23 7 1, some "multiple context expressions in a 'with' statement"⟩,
   ⟨.withParentheses, only3 9, some "multiple context expressions in a `with` statement with parentheses"⟩,
   ⟨.generalizedUnpacking, only3 5, some "generalized unpacking"⟩,
   ⟨.unpackingAssignment, only3 0, some "unpacking assignment"⟩,
   ⟨.ellipsisOutOfSlices, only3 0, some "ellipsis literal (`...`) out of slices"⟩,
   ⟨.typeAliasStatement, only3 12, some "type alias statement (`type X = SomeType`)"⟩,
   ⟨.bytesFormat, both23 6 5, some "bytes format"⟩,
   ⟨.bytearrayFormat, only3 5, some "bytearray format"⟩,
   ⟨.dictUnion, only3 9, some "dict union"⟩,
   ⟨.dictUnionMerge, only3 9, some "dict union merge"⟩,
   ⟨.builtinGenericTypeAnnotations, only3 9, some "builtin generic type annotations"⟩,
   ⟨.functionDecorators, both23 4 0, some "function decorators"⟩,
   ⟨.classDecorators, both23 6 0, some "class decorators"⟩,
   ⟨.relaxedDecorators, only3 9, some "relaxed decorators"⟩,
   ⟨.patternMatching, only3 10, some "pattern matching"⟩,
   ⟨.unionTypes, only3 10, some "union types as `X | Y`"⟩,
   ⟨.superNoArgs, only3 0, some "super() without arguments"⟩,
   ⟨.exceptStar, only3 11, some "`except*`"⟩,
   ⟨.metaclassClassKeyword, only3 0, some "'metaclass' class keyword"⟩]

/-- The state and `mins`. -/
abbrev MState := S × Req
/-- A step of `minimum_versions`. -/
abbrev M := MState → Except Err MState

/-- `self.__s.info_versions[versions].append(info)` (source_visitor.py:309-312) -/
def S.addInfo (s : S) (r : Req) (info : String) : S :=
  { s with infoVersions := Dict.set s.infoVersions r ((Dict.get? s.infoVersions r).getD [] ++ [info]) }

/-- The part of `__add_versions_entity` that records and prints (source_visitor.py:307-314). `ent` is given when
`vvprint=True`; `plural` is only used there and is then None. -/
def infoStep (env : Env) (r : Req) (info : Option String) (ent : Option Ent) : V :=
  lift (violates env (some r)) fun show_ =>
    when show_ (opt info skip fun i =>
      upd (fun s => s.addInfo r i) ;; opt ent skip (fun e => vv env i (some r) .absent none (some e)))

/-- `__add_versions_entity` (source_visitor.py:302-315) -/
def addEntity (env : Env) (r : Req) (info : Option String) (ent : Option Ent) : M := fun (s, mins) =>
  match infoStep env r info ent s with
  | .ok s' =>
    match combineVersions env.cfg.ignoreIncomp mins r (some s'.infoVersions) with
    | .ok m => .ok (s', m)
    | .error e => .error e
  | .error e => .error e

/-- A loop. -/
def eachM {α : Type} (f : α → M) : List α → M
  | [], x => .ok x
  | a :: as, x =>
    match f a x with
    | .ok y => eachM f as y
    | .error e => .error e

/-- Then. -/
def thenM (f g : M) : M := fun x =>
  match f x with
  | .ok y => g y
  | .error e => .error e

/-- `print` statements and functions (source_visitor.py:320-331). -/
def printM (env : Env) : M := fun (s, mins) =>
  let mins : Req := if s.has .printv2 then ⟨some ⟨2, 0⟩, mins.py3⟩ else mins
  if s.has .printv3 then
    match (vv env "print(expr)" (from23 0 0) .hide : V) s with
    | .ok s' => addEntity env (both23 0 0) none none (s', mins)
    | .error e => .error e
  else .ok (s, mins)

/-- One feature. -/
def featureM (env : Env) (f : Feature) : M := fun (s, mins) =>
  if s.has f.flag then addEntity env f.req f.info none (s, mins) else .ok (s, mins)

/-- An entity with a rule in a table. -/
def ruleM (env : Env) (rule : Option Req) (info : String) (ent : Ent) : M := fun x =>
  match rule with
  | some r => addEntity env r (some info) (some ent) x
  | none => .ok x

/-- `"'{}'".format(name)` behind a text -/
def quoted (pre name post : String) : String := pre ++ "'" ++ name ++ "'" ++ post

/-- `name in CODECS_ERROR_HANDLERS`: only strings are keys (source_visitor.py:513-517). -/
def errorHandlerM (env : Env) (c : Const) : M :=
  match c with
  | .str n => ruleM env (env.tables.errorHandler n) (quoted "codecs error handler name " n "") (.name n)
  | _ => fun x => .ok x

/-- The encoding in lower case -/
def lowerStr (s : String) : String := String.ofList (lower s.toList)

/-- One entry of `CODECS_ENCODINGS` (source_visitor.py:520-523): only strings and bytes have `lower`, and bytes cannot be
searched in a string. -/
def encodingEntryM (env : Env) (c : Const) (e : EncKey × Req) : M := fun x =>
  match c with
  | .str n => if e.1.contains (lowerStr n) then addEntity env e.2 (some (quoted "codecs encoding " n "")) (some (.name n)) x else .ok x
  | .bytes _ =>
    match e.1 with
    | .text _ => .error .typeError
    | .names _ => .ok x
  | _ => .error .attributeError

/-- Encodings (source_visitor.py:519-523). -/
def encodingM (env : Env) (c : Const) : M := eachM (encodingEntryM env c) env.tables.encodings

/-- Keyword arguments (source_visitor.py:539-544). -/
def kwargM (env : Env) (k : String × Option String) : M :=
  ruleM env (env.tables.kw k) ("'" ++ k.1 ++ "(" ++ kwText k.2 ++ ")'") (.kw k.1 k.2)

/-- The findings that have rule tables (source_visitor.py:494-551), of the state `s`. -/
def entitiesM (env : Env) (s : S) : M :=
  thenM (eachM (fun d => ruleM env (env.tables.strftime d) (quoted "strftime directive " d "") (.name d)) s.strftime) <|
  thenM (eachM (fun d => ruleM env (env.tables.bytes d) (quoted "bytes directive " d "") (.name d)) s.bytesDirs) <|
  thenM (eachM (fun d => ruleM env (env.tables.typecode d) (quoted "array typecode " d "") (.name d)) s.typecodes) <|
  thenM (eachM (errorHandlerM env) s.codecsErr) <|
  thenM (eachM (encodingM env) s.codecsEnc) <|
  thenM (eachM (fun m => ruleM env (env.tables.mod m) (quoted "" m " module") (.name m)) s.modules) <|
  thenM (eachM (fun m => ruleM env (env.tables.mem m) (quoted "" m " member") (.name m)) s.members) <|
  thenM (eachM (kwargM env) s.kwargs)
    (eachM (fun u => ruleM env (env.tables.deco u) (quoted "" u " user function decorator") (.name u)) s.userFuncDecos)

/-- `minimum_versions()` (source_visitor.py:317-552): the state afterwards and the result. -/
def minimumVersions (env : Env) (s : S) : Except Err (S × Req) :=
  thenM (printM env) (thenM (eachM (featureM env) features) (fun x => entitiesM env x.1 x)) (s, Req.unknown)

/-- `lines.sort(..)` of the format (default_format.py:41-47, parsable_format.py:37-39). -/
def sortOutputLines (cfg : Config) (lines : List String) : List String :=
  match cfg.format with
  | .default =>
    if cfg.verbose > 2 && !cfg.printVisits then
      sort (fun a b => decide (sortLineColumn a.toList ≤ sortLineColumn b.toList)) lines
    else sort leStr lines
  | .parsable => sort (fun a b => decide (sortLineColumnParsable a.toList ≤ sortLineColumnParsable b.toList)) lines

/-- The distinct elements, in the order of their first occurrence. -/
def distinct : List String → List String
  | [] => []
  | x :: xs => x :: (distinct xs).filter (· != x)

/-- The lines of `output_text()` (source_visitor.py:557-560): `list(set(text))` enumerates the distinct lines in any order. -/
def outputLines (env : Env) (s : S) : List String :=
  sortOutputLines env.cfg (if env.cfg.printVisits then s.out else env.order (distinct s.out))

/-- `output_text()` (source_visitor.py:554-565) -/
def outputText (env : Env) (s : S) : String :=
  let text := join ['\n'] ((outputLines env s).map String.toList)
  String.ofList (if text.length > 0 then text ++ ['\n'] else text)

/-- The state after `output_text()`, which stores the sorted lines. -/
def S.afterOutput (env : Env) (s : S) : S := { s with out := outputLines env s }

end Vermin
