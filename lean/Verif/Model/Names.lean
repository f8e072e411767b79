import Verif.Model.State
/-
Models the name resolution helpers of vermin/source_visitor.py and the regular expressions it uses.
-/
namespace Vermin
open Py

/-! ### Regular expressions (source_visitor.py:12-15) -/

/-- `[-\.\d#\s\+]` -/
def isDirectiveMod (c : Char) : Bool := c == '-' || c == '.' || isDigit c || c == '#' || isSpace c || c == '+'

/-- The machine equivalent to `%(?:[-\.\d#\s\+])*(\w)`: outside a directive (`none`), or inside with the last digit seen,
which is what backtracking falls back to. -/
def directivesFrom : Option (Option Char) → List Char → List String
  | none, [] => []
  | some none, [] => []
  | some (some d), [] => [String.ofList [d]]
  | none, c :: cs => if c == '%' then directivesFrom (some none) cs else directivesFrom none cs
  | some cand, c :: cs =>
    if isDirectiveMod c then directivesFrom (some (if isDigit c then some c else cand)) cs
    else if isWord c then String.ofList [c] :: directivesFrom none cs
    else (match cand with
      | some d => [String.ofList [d]]
      | none => []) ++ (if c == '%' then directivesFrom (some none) cs else directivesFrom none cs)

/-- `STRFTIME_DIRECTIVE_REGEX.findall` / `BYTES_DIRECTIVE_REGEX.findall` (source_visitor.py:12-13) -/
def directives (s : String) : List String := directivesFrom none s.toList

/-- `STR_27_FORMAT_REGEX.search`: `(?<!{){}(?!})` (source_visitor.py:14); the first argument is the character before. -/
def format27From : Option Char → List Char → Bool
  | prev, '{' :: '}' :: cs =>
    (decide (prev ≠ some '{') && decide (cs.head? ≠ some '}')) || format27From (some '{') ('}' :: cs)
  | _, c :: cs => format27From (some c) cs
  | _, [] => false

/-- The tail `[\s\\]*\(` of `WITH_PAREN_REGEX` (source_visitor.py:15). -/
def parenFollows (s : List Char) : Bool := (s.dropWhile fun c => isSpace c || c == '\\').head? == some '('

/-- `WITH_PAREN_REGEX.search(..).start()` (source_visitor.py:15) -/
def withParenStart (i : Nat) : List Char → Option Nat
  | [] => none
  | c :: cs =>
    if startsWith "with".toList (c :: cs) && parenFollows ((c :: cs).drop 4) then some i
    else withParenStart (i + 1) cs

/-! ### Attribute names -/

/-- `self.__s.builtin_types` (source_state.py:106) -/
def builtinTypes : List String := ["dict", "set", "list", "unicode", "str", "int", "float", "long", "bytes"]

/-- `__is_builtin_type(full_name[0])`, when there is a first name (source_visitor.py:768) -/
def headBuiltin : List (Option String) → Bool
  | some f :: _ => builtinTypes.contains f
  | _ => false

/-- `len(full_name) == 0 or (full_name[0] != name and full_name[-1] != name)` (source_visitor.py:779) -/
def freshEnds (full : List (Option String)) (name : String) : Bool :=
  full.isEmpty || (decide (full.head? ≠ some (some name)) && decide (full.getLast? ≠ some (some name)))

/-- `len(full_name) == 0 or (full_name[0] != name and len(full_name) == 1)` (source_visitor.py:789) -/
def freshOne (full : List (Option String)) (name : String) : Bool :=
  full.isEmpty || (decide (full.head? ≠ some (some name)) && decide (full.length = 1))

/-- `__resolve_module_name` (source_visitor.py:755-756) -/
def resolveModuleName (moduleAs : Dict String String) (name : String) : String := (Dict.get? moduleAs name).getD name

/-- A constant in the walk of `__get_attribute_name` (source_visitor.py:787-803).  For a complex number `name` is None and
operator precedence makes an empty list raise. -/
def attrConst (full : List (Option String)) : Const → Except Err (List (Option String))
  | .str _ => .ok (if freshOne full "str" then full ++ [some "str"] else full)
  | .int _ => .ok (if freshOne full "int" then full ++ [some "int"] else full)
  | .float _ => .ok (if freshOne full "float" then full ++ [some "float"] else full)
  | .complex _ =>
    match full with
    | [] => .error .indexError
    | f :: fs => .ok (if decide (f ≠ none) && fs.isEmpty then (f :: fs) ++ [none] else f :: fs)
  | .bytes _ => .ok (if freshOne full "bytes" then full ++ [some "bytes"] else full)
  | _ => .ok full

/-- What an attribute node contributes (source_visitor.py:770-774). -/
def attrNames (moduleAs : Dict String String) (a : Node) (attr : String) : List (Option String) :=
  some attr :: (match (a.field .value).bind Node.nameId with
    | some id => [some (resolveModuleName moduleAs id)]
    | none => [])

/-- What a call contributes (source_visitor.py:775-777). -/
def callNames (a : Node) : List (Option String) :=
  match (a.field .func).bind Node.nameId with
  | some id => [some id]
  | none => []

/-- The body of the loop of `__get_attribute_name` (source_visitor.py:767-803). -/
def attrStep (moduleAs : Dict String String) (full : List (Option String)) (primi : Bool) (a : Node) :
    Except Err (List (Option String)) :=
  match a.kind with
  | .attribute attr => .ok (full ++ attrNames moduleAs a attr)
  | .call => .ok (full ++ callNames a)
  | .dict _ => .ok (if !primi && freshEnds full "dict" then full ++ [some "dict"] else full)
  | .set => .ok (if !primi && freshEnds full "set" then full ++ [some "set"] else full)
  | .list _ => .ok (if !primi && freshEnds full "list" then full ++ [some "list"] else full)
  | .const c => if primi then .ok full else attrConst full c
  | _ => .ok full

/-- The loop of `__get_attribute_name` (source_visitor.py:765-803). -/
def attrLoop (moduleAs : Dict String String) : List (Option String) → Bool → List Node → Except Err (List (Option String))
  | full, _, [] => .ok full
  | full, primi, a :: as =>
    let primi := primi || headBuiltin full
    match attrStep moduleAs full primi a with
    | .ok full => attrLoop moduleAs full primi as
    | .error e => .error e

/-- `__get_attribute_name(node)` (source_visitor.py:758-805) -/
def attributeName (moduleAs : Dict String String) (n : Node) : Except Err (List (Option String)) :=
  match attrLoop moduleAs [] false (walk n) with
  | .ok full => .ok full.reverse
  | .error e => .error e

/-- `dotted_name(self.__get_attribute_name(node))` -/
def dottedAttr (moduleAs : Dict String String) (n : Node) : Except Err String :=
  match attributeName moduleAs n with
  | .ok l => .ok (dotted l)
  | .error e => .error e

/-! ### `__is_dict` -/

/-- `l[n]` -/
def pyIndex {α : Type} (l : List α) (n : Int) : Option α :=
  if 0 ≤ n then l[n.toNat]? else if 0 ≤ n + l.length then l[(n + l.length).toNat]? else none

/-- `isinstance(n, int)` of a constant index (source_visitor.py:1191-1195): booleans are integers. -/
def indexOf : Const → Option Int
  | .int n => some n
  | .bool b => some (if b then 1 else 0)
  | _ => none

/-- The subscript case (source_visitor.py:1189-1199), given the results for the elements of the subscripted display. -/
def isDictAt (elems : List (Except Err Bool)) (n : Int) : Except Err Bool :=
  if n < elems.length then
    match pyIndex elems n with
    | some r => r
    | none => .error .indexError
  else .ok false

/-- Results of `__is_dict` for a node and for its children. -/
structure DictInfo where
  self : Except Err Bool
  kids : List (Fld × Except Err Bool)

/-- The results of the children of the node in field `f`. -/
def kidDicts (ks : List (Node × DictInfo)) (f : Fld) : List (Fld × Except Err Bool) :=
  match ks.find? fun k => decide (k.1.fld = f) with
  | some k => k.2.kids
  | none => []

/-- The children of `node.func` if that is a lambda. -/
def lambdaKids (n : Node) (ks : List (Node × DictInfo)) : List (Fld × Except Err Bool) :=
  if (n.field .func).any (fun f => decide (f.kind = .lambda)) then kidDicts ks .func else []

/-- The number in a subscript (source_visitor.py:1190-1195): the value of an `ast.Index` must be an `ast.Num`, which `True` and
`False` are not. -/
def subscriptIndex (n : Node) : Option Int :=
  match n.field .slice with
  | some s =>
    if s.kind = .index then
      match (s.field .value).bind Node.constVal with
      | some (.int i) => some i
      | _ => none
    else s.constVal.bind indexOf
  | none => none

/-- `__is_dict(node)` (source_visitor.py:1176-1200) from the results of the children. -/
def isDictStep (nameRes : Dict String String) (n : Node) (ks : List (Node × DictInfo)) : Except Err Bool :=
  match n.kind with
  | .dict _ => .ok true
  | .name id _ => .ok (decide (Dict.get? nameRes id = some "dict"))
  | .call =>
    if (n.field .func).bind Node.nameId = some "dict" then .ok true
    else match (lambdaKids n ks).find? fun k => decide (k.1 = .lamBody) with
      | some (_, r) => r
      | none => .ok false
  | .subscript =>
    match subscriptIndex n with
    | some i => isDictAt (((kidDicts ks .value).filter fun k => decide (k.1 = .elts) || decide (k.1 = .values)).map (·.2)) i
    | none => .ok false
  | _ => .ok false

mutual
def dictInfo (nameRes : Dict String String) : Node → DictInfo
  | .mk i ks =>
    let rs := dictInfos nameRes ks
    { self := isDictStep nameRes (.mk i ks) rs, kids := rs.map fun r => (r.1.fld, r.2.self) }
def dictInfos (nameRes : Dict String String) : List Node → List (Node × DictInfo)
  | [] => []
  | k :: ks => (k, dictInfo nameRes k) :: dictInfos nameRes ks
end

/-- `__is_dict(node)` (source_visitor.py:1176-1200) -/
def isDict (nameRes : Dict String String) (n : Node) : Except Err Bool := (dictInfo nameRes n).self

/-- `any(self.__is_dict(elm) for elm in elms)` -/
def anyDict (nameRes : Dict String String) : List Node → Except Err Bool
  | [] => .ok false
  | n :: ns =>
    match isDict nameRes n with
    | .ok true => .ok true
    | .ok false => anyDict nameRes ns
    | .error e => .error e

/-! ### `__resolve_full_name` -/

/-- The name to resolve (source_visitor.py:1205-1210); other nodes are in no dictionary. -/
def plainName (moduleAs : Dict String String) (n : Node) : Except Err (Option String) :=
  match n.kind with
  | .name id _ => .ok (some id)
  | .call => .ok ((n.field .func).bind Node.nameId)
  | .attribute _ =>
    match dottedAttr moduleAs n with
    | .ok d => .ok (some d)
    | .error e => .error e
  | _ => .ok none

/-- source_visitor.py:1211-1216 -/
def resolveName (s : S) (name : String) : String :=
  let name := (Dict.get? s.nameRes name).getD name
  match Dict.get? s.moduleAs name with
  | some m => m
  | none =>
    match Dict.get? s.importMemMod name with
    | some m => dotted [some m, some name]
    | none => name

/-- `__resolve_full_name(name)` (source_visitor.py:1202-1216) -/
def resolveFullName (s : S) (n : Node) : Except Err (Option String) :=
  match plainName s.moduleAs n with
  | .ok (some name) => .ok (some (resolveName s name))
  | .ok none => .ok none
  | .error e => .error e

/-! ### `__extract_fstring_value` -/

/-- What a node of the walk contributes: texts, whether the walk ends, whether it is a call. -/
structure FItem where
  app : List (Option String)
  brk : Bool
  call : Bool

/-- Results for a node: of the extraction from it, and the contributions of its nodes by depth. -/
structure FInfo where
  res : Except Err String
  levels : List (List (Except Err FItem))

/-- The texts of operators (source_visitor.py:1299-1384). -/
def opText : Op → String
  | .add => "+" | .sub => "-" | .div => "/" | .floorDiv => "//" | .mult => "*" | .matMult => "@" | .mod => "%" | .pow => "**"
  | .bitXor => "^" | .bitOr => "|" | .bitAnd => "&" | .not => "not " | .uSub => "-" | .uAdd => "+" | .invert => "~"
  | .lShift => "<<" | .rShift => ">>" | .in => "in " | .notIn => "not in " | .is => " is " | .isNot => " is not "
  | .or => " or " | .and => " and " | .eq => " == " | .notEq => " != " | .ltE => " <= " | .gtE => " >= " | .gt => " > "
  | .lt => " < "

def strJoin (sep : String) (l : List String) : String := String.ofList (join sep.toList (l.map String.toList))

/-- All results, or the first exception. -/
def allOk {α : Type} : List (Except Err α) → Except Err (List α)
  | [] => .ok []
  | .ok x :: xs =>
    match allOk xs with
    | .ok l => .ok (x :: l)
    | .error e => .error e
  | .error e :: _ => .error e

/-- Extraction from a field that holds a node. -/
def fOne (ks : List (Node × FInfo)) (f : Fld) : Except Err String :=
  match ks.find? fun k => decide (k.1.fld = f) with
  | some k => k.2.res
  | none => .error .attributeError

/-- Extraction from the nodes of a field. -/
def fAll (ks : List (Node × FInfo)) (f : Fld) : List (Except Err String) :=
  (ks.filter fun k => decide (k.1.fld = f)).map (·.2.res)

/-- Extraction from the keys of a dict; `ast.walk(None)` raises (source_visitor.py:1449). -/
def fKeys : List Bool → List (Except Err String) → List (Except Err String)
  | [], _ => []
  | true :: ns, rs => .error .attributeError :: fKeys ns rs
  | false :: ns, r :: rs => r :: fKeys ns rs
  | false :: ns, [] => .error .attributeError :: fKeys ns []

/-- One text, ending the walk. -/
def FItem.last (t : String) : FItem := ⟨[some t], true, false⟩

/-- The body of the loop of `__extract_fstring_value` for one node (source_visitor.py:1290-1496). -/
def fItem (moduleAs : Dict String String) (n : Node) (ks : List (Node × FInfo)) : Except Err FItem :=
  match n.kind with
  | .name id _ => .ok ⟨[some id], false, false⟩
  | .const (.str s) => .ok ⟨[some ("\"" ++ s ++ "\"")], false, false⟩
  | .const c => .ok ⟨[some c.text], false, false⟩
  | .op o => .ok ⟨[some (opText o)], false, false⟩
  | .comprehension _ => do
    let target ← fOne ks .target
    let iter ← fOne ks .iter
    return .last (target ++ " in " ++ iter)
  | .attribute _ => do
    let l ← attributeName moduleAs n
    return ⟨l, true, false⟩
  | .keyword a => do
    let val ← fOne ks .value
    return .last (kwText a ++ "=" ++ val)
  | .call =>
    if (n.fields .args).isEmpty && (n.fields .keywords).isEmpty then do
      let f ← fOne ks .func
      return ⟨[some (f ++ "()")], true, true⟩
    else .ok ⟨[], false, true⟩
  | .binOp => do
    let l ← fOne ks .left
    let o ← fOne ks .op
    let r ← fOne ks .right
    return .last (l ++ o ++ r)
  | .unaryOp => do
    let o ← fOne ks .op
    let r ← fOne ks .operand
    return .last (o ++ r)
  | .boolOp => do
    let o ← fOne ks .op
    let vs ← allOk (fAll ks .values)
    return .last (strJoin o vs)
  | .ifExp => do
    let test ← fOne ks .test
    let body ← fOne ks .ifBody
    let orelse ← fOne ks .ifOrelse
    return .last (body ++ " if " ++ test ++ " else " ++ orelse)
  | .tuple _ => do
    let es ← allOk (fAll ks .elts)
    return .last ("(" ++ strJoin "," es ++ ")")
  | .list _ => do
    let es ← allOk (fAll ks .elts)
    return .last ("[" ++ strJoin "," es ++ "]")
  | .set => do
    let es ← allOk (fAll ks .elts)
    return .last ("{" ++ strJoin "," es ++ "}")
  | .dict nulls => do
    let keys ← allOk (fKeys nulls (fAll ks .keys))
    let vals ← allOk (fAll ks .values)
    return .last ("{" ++ strJoin "," ((keys.zip vals).map fun (k, v) => k ++ ":" ++ v) ++ "}")
  | .listComp => do
    let e ← fOne ks .elt
    let gs ← allOk (fAll ks .generators)
    return .last ("[" ++ e ++ " for " ++ strJoin " " gs ++ "]")
  | .setComp => do
    let e ← fOne ks .elt
    let gs ← allOk (fAll ks .generators)
    return .last ("{" ++ e ++ " for " ++ strJoin " " gs ++ "}")
  | .dictComp => do
    let k ← fOne ks .key
    let v ← fOne ks .value
    let gs ← allOk (fAll ks .generators)
    return .last ("{" ++ k ++ ":" ++ v ++ " for " ++ strJoin " " gs ++ "}")
  | .generatorExp => do
    let e ← fOne ks .elt
    let gs ← allOk (fAll ks .generators)
    return .last ("(" ++ e ++ " for " ++ strJoin " " gs ++ ")")
  | .compare => do
    let l ← fOne ks .left
    let ops ← allOk (fAll ks .ops)
    let cs ← allOk (fAll ks .comparators)
    return .last (l ++ strJoin "" ((ops.zip cs).map fun (o, c) => o ++ " " ++ c))
  | .subscript => do
    let v ← fOne ks .value
    let s ← fOne ks .slice
    return .last (v ++ "[" ++ s ++ "]")
  | .index => do
    let val ← fOne ks .value
    return .last val
  | _ => .ok ⟨[], false, false⟩

/-- The walk over the contributions: texts, and whether a call was met. -/
def fWalk : List (Except Err FItem) → Except Err (List (Option String) × Bool)
  | [] => .ok ([], false)
  | .error e :: _ => .error e
  | .ok i :: is =>
    if i.brk then .ok (i.app, i.call)
    else match fWalk is with
      | .ok (l, c) => .ok (i.app ++ l, i.call || c)
      | .error e => .error e

/-- The result (source_visitor.py:1498-1500); `None` cannot be joined. -/
def fResult : Except Err (List (Option String) × Bool) → Except Err String
  | .error e => .error e
  | .ok (l, call) =>
    if l.any Option.isNone then .error .typeError
    else if call then
      .ok (strJoin "(" (l.filterMap id) ++ String.ofList (List.replicate (l.length - 1) ')'))
    else .ok (strJoin "." (l.filterMap id))

mutual
def fInfo (moduleAs : Dict String String) : Node → FInfo
  | .mk i ks =>
    let rs := fInfos moduleAs ks
    let lv := [fItem moduleAs (.mk i ks) rs] :: fLevels rs
    { res := fResult (fWalk lv.flatten), levels := lv }
def fInfos (moduleAs : Dict String String) : List Node → List (Node × FInfo)
  | [] => []
  | k :: ks => (k, fInfo moduleAs k) :: fInfos moduleAs ks
/-- The contributions of a forest by depth. -/
def fLevels : List (Node × FInfo) → List (List (Except Err FItem))
  | [] => []
  | k :: ks => mergeLevels k.2.levels (fLevels ks)
end

/-- `__extract_fstring_value(node)` (source_visitor.py:1286-1500) -/
def extractFstring (moduleAs : Dict String String) (n : Node) : Except Err String := (fInfo moduleAs n).res

/-- `trim_fstring_value` (source_visitor.py:51-54) with `remove_whitespace` (utility.py:104-106) -/
def trimFstring (s : List Char) : List Char := s.filter fun c => !(" \t\n\r\x0c\x0b()".toList.contains c)

end Vermin
