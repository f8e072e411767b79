import Verif.Model.Minimum
import Verif.Spec.Constructs
/-
The entries the text about a file consists of.
-/
namespace Vermin.Spec
open Vermin

/-- An entry of the text about a file: a message, its position and the requirement it states, or a visited node. -/
inductive Entry where
  | message (msg : String) (line col : Option Nat) (versions : Option Req) (plural : Option Bool)
  | node (text : String)

/-- The line of an entry. -/
def Entry.text (env : Env) : Entry → String
  | .message msg line col versions plural => formatLine env.cfg msg (some env.path) line col versions plural
  | .node text => text

/-- The entry states the requirement. -/
def Entry.states : Entry → Req → Prop
  | .message _ _ _ versions _, r => versions = some r
  | .node _, _ => False

/-- The key of what was found, its message and its requirement, for findings with a rule. -/
inductive Ruled (env : Env) (s : S) : Ent → String → Req → Prop
  | strftime {d r} : d ∈ s.strftime → env.tables.strftime d = some r → Ruled env s (.name d) ("strftime directive '" ++ d ++ "'") r
  | bytesDir {d r} : d ∈ s.bytesDirs → env.tables.bytes d = some r → Ruled env s (.name d) ("bytes directive '" ++ d ++ "'") r
  | typecode {d r} : d ∈ s.typecodes → env.tables.typecode d = some r → Ruled env s (.name d) ("array typecode '" ++ d ++ "'") r
  | errorHandler {n r} : Const.str n ∈ s.codecsErr → env.tables.errorHandler n = some r →
      Ruled env s (.name n) ("codecs error handler name '" ++ n ++ "'") r
  | encoding {n k r} : Const.str n ∈ s.codecsEnc → (k, r) ∈ env.tables.encodings → EncKey.contains (lowerStr n) k = true →
      Ruled env s (.name n) ("codecs encoding '" ++ n ++ "'") r
  | module {m r} : m ∈ s.modules → env.tables.mod m = some r → Ruled env s (.name m) ("'" ++ m ++ "' module") r
  | member {m r} : m ∈ s.members → env.tables.mem m = some r → Ruled env s (.name m) ("'" ++ m ++ "' member") r
  | kwarg {f k r} : (f, k) ∈ s.kwargs → env.tables.kw (f, k) = some r → Ruled env s (.kw f k) ("'" ++ f ++ "(" ++ k.getD "None" ++ ")'") r
  | decorator {u r} : u ∈ s.userFuncDecos → env.tables.deco u = some r →
      Ruled env s (.name u) ("'" ++ u ++ "' user function decorator") r

/-- The node `m` gives rise to what is recorded as `e`; `l` is its line or that of a node in it, except for keyword arguments. -/
inductive Recorded (env : Env) (m : Node) : Ent → Nat → Prop
  | module {x k} : Emits env m (.module x) → In k m → Recorded env m (.name x) k.line
  | member {x k} : Emits env m (.member x) → In k m → Recorded env m (.name x) k.line
  | deco {x k} : Emits env m (.deco x) → In k m → Recorded env m (.name x) k.line
  | strftime {x k} : Emits env m (.strftime x) → In k m → Recorded env m (.name x) k.line
  | bytesDir {x k} : Emits env m (.bytesDir x) → In k m → Recorded env m (.name x) k.line
  | typecode {x k} : Emits env m (.typecode x) → In k m → Recorded env m (.name x) k.line
  | errorHandler {c k} : Emits env m (.errorHandler c) → In k m → Recorded env m (Ent.ofConst c) k.line
  | encoding {c k} : Emits env m (.encoding c) → In k m → Recorded env m (Ent.ofConst c) k.line
  | kwarg {f k l} : Emits env m (.kwarg f k) → Recorded env m (.kw f k) l

end Vermin.Spec
