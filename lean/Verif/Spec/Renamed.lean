import Verif.Model.Ast
import Verif.Model.Config
import Verif.Model.RulesMod
import Verif.Model.RulesMem
import Verif.Model.RulesKw
import Verif.Model.RulesSmall
/-
Specification of programs that differ in the names they choose only.
-/
namespace Vermin.Spec
open Vermin

/-- The identifiers of a node under other names. -/
def _root_.Vermin.Kind.renamed (ρ : String → String) : Kind → Kind
  | .functionDef x => .functionDef (ρ x)
  | .asyncFunctionDef x => .asyncFunctionDef (ρ x)
  | .classDef x => .classDef (ρ x)
  | .importFrom m l => .importFrom (m.map ρ) l
  | .attribute a => .attribute (ρ a)
  | .name x c => .name (ρ x) c
  | .exceptHandler x => .exceptHandler (x.map ρ)
  | .arg a => .arg (ρ a)
  | .keyword a => .keyword (a.map ρ)
  | .alias x y => .alias (ρ x) (y.map ρ)
  | k => k

mutual
/-- The program with every identifier under its other name. -/
def _root_.Vermin.Node.renamed (ρ : String → String) : Node → Node
  | .mk i ks => .mk { i with kind := i.kind.renamed ρ } (renamedAll ρ ks)
def renamedAll (ρ : String → String) : List Node → List Node
  | [] => []
  | k :: ks => k.renamed ρ :: renamedAll ρ ks
end

/-- The words the visitor compares names with. -/
def visitorWords : List String :=
  ["*", "long", "True", "False", "print", "array", "array.array", "pow", "super", "format", "strftime", "strptime", "None", "dict", "set", "list",
   "unicode", "str", "int", "float", "bytes", "bytearray", "Final", "Literal", "typing.Literal", "__dir__", "__getattr__", "metaclass", "errors",
   "encoding", "data_encoding", "file_encoding"]

/-- The names that mean something to Vermin: the words above and the names in the rules. -/
def knownNames : List String :=
  visitorWords ++ Data.modReqs.map (·.1) ++ Data.memReqs.map (·.1) ++ Data.kwReqs.map (·.1.1) ++ Data.kwReqs.map (·.1.2) ++
    Data.decoratorUserFunctions.map (·.1) ++ Data.codecsErrorsIndices.map (·.1) ++ Data.codecsEncodingsIndices.map (·.1) ++
    Data.builtinGenericAnnotationTypes ++ Data.dictUnionSupportedTypes ++ Data.dictUnionMergeSupportedTypes

/-- A consistent choice of other names: different names stay different, dotted names are renamed word by word, and the names that mean something to Vermin, or are
    excluded on the command line, stay. -/
structure Renaming (c : Config) (ρ : String → String) : Prop where
  inj : ∀ x y, ρ x = ρ y → x = y
  empty : ρ "" = ""
  dotted : ∀ a b, ρ (a ++ "." ++ b) = ρ a ++ "." ++ ρ b
  word : ∀ x, '.' ∉ x.toList → '.' ∉ (ρ x).toList
  known : ∀ x ∈ knownNames, ρ x = x
  excluded : ∀ x ∈ c.exclusions, ρ x = x
  excludedKw : ∀ f k, f ++ "(" ++ k ++ ")" ∈ c.exclusions → ρ f = f ∧ ρ k = k

/-- A dotted name with every word renamed. -/
def wordwise (f : String → String) (x : String) : String :=
  String.ofList (Py.join ['.'] ((Py.splitOn (· == '.') x.toList).map fun w => (f (String.ofList w)).toList))

/-- Two words change places. -/
def swapped (a b w : String) : String := if w = a then b else if w = b then a else w

/-- A word that means nothing to Vermin: no word of a known name, and not in an exclusion. -/
def Unused (c : Config) (a : String) : Prop :=
  a ≠ "" ∧ '.' ∉ a.toList ∧ (∀ x ∈ knownNames, a.toList ∉ Py.splitOn (· == '.') x.toList) ∧ (∀ x ∈ c.exclusions, ¬ a.toList <:+: x.toList)

end Vermin.Spec
