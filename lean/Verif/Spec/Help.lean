import Verif.Model.Usage
import Verif.Model.Detection
/-
How the help is read: which options, names and extensions it documents, from the text alone.
-/
namespace Vermin.Spec
open Vermin Vermin.Py

/-- Cutting a text at each `sep`. -/
def cutAt (sep : List Char) : Nat → List Char → List (List Char)
  | 0, t => [t]
  | _ + 1, [] => [[]]
  | n + 1, c :: t =>
    if sep.isPrefixOf (c :: t) then [] :: cutAt sep n ((c :: t).drop sep.length)
    else match cutAt sep n t with
      | [] => [[c]]
      | l :: ls => (c :: l) :: ls

/-- The text is cut completely. -/
def cut (sep t : List Char) : List (List Char) := cutAt sep (t.length + 1) t

/-- How an option is written. -/
inductive Form where
  /-- alone -/
  | alone
  /-- `word=V` -/
  | joined
  /-- `word <value>` -/
  | followed
  /-- `word..`: with anything after it -/
  | repeated
  deriving DecidableEq, Repr

/-- A documented option. -/
structure Doc where
  word : String
  form : Form
  /-- marked as default -/
  dflt : Bool
  deriving DecidableEq, Repr

/-- The first line of a paragraph that is not empty. -/
def firstLine (p : List (List Char)) : List Char := (p.find? fun l => !l.isEmpty).getD []

/-- The header of a paragraph about options: its first line, without indentation, up to two spaces. -/
def header (line : List Char) : Option (List Char) :=
  if "  -".toList.isPrefixOf line || "  [-".toList.isPrefixOf line then (cut "  ".toList (line.drop 2)).head? else none

/-- One of the alternatives of a header. -/
def altDoc (dflt : Bool) (a : List Char) : Doc :=
  let a := a.dropWhile (· = '[')
  let word := a.takeWhile fun c => c ≠ ' ' && c ≠ '=' && c ≠ '.'
  let rest := a.drop word.length
  { word := String.ofList word
    form := if "=".toList.isPrefixOf rest then .joined else if " <".toList.isPrefixOf rest then .followed
      else if "..".toList.isPrefixOf rest then .repeated else .alone
    dflt := dflt }

/-- The options a paragraph documents. -/
def docsOf (p : List (List Char)) : List Doc :=
  match header (firstLine p) with
  | none => []
  | some h => (cut " | ".toList h).map (altDoc (" (default)".toList.isSuffixOf h))

/-- The options the full help documents. -/
def documented (cpus : Nat) : List Doc := (usage "" cpus true).flatMap docsOf

/-- The word is written as documented. -/
def Doc.Fits (d : Doc) (w : String) : Prop :=
  match d.form with
  | .alone | .followed => w = d.word
  | .joined => (d.word.toList ++ ['=']) <+: w.toList
  | .repeated => d.word.toList <+: w.toList

/-- The name a line lists: after ten spaces and before ` - `. -/
def listedName (l : List Char) : Option String :=
  let l' := l.drop 10
  let n := l'.takeWhile (· ≠ ' ')
  if List.replicate 10 ' ' = l.take 10 ∧ n ≠ [] ∧ "- ".toList.isPrefixOf ((l'.drop n.length).dropWhile (· = ' ')) then some (String.ofList n) else none

/-- The names listed in the paragraphs about the option. -/
def listed (cpus : Nat) (option : String) : List String :=
  ((usage "" cpus true).filter fun p => (docsOf p).any (·.word = option)).flatMap fun p => p.filterMap listedName

/-- The names in quotes of a line: what is between the first quote and the second, the third and the fourth, etc. -/
def quoted (l : List Char) : List String :=
  (((cut ['\''] l).zipIdx).filter fun p => p.2 % 2 = 1).map fun p => String.ofList p.1

/-- The names in quotes of the lines satisfying `P`, in the paragraph that begins with a text. -/
def quotedIn (cpus : Nat) (first : String) (P : List Char → Bool) : List String :=
  ((usage "" cpus true).filter fun p => first.toList.isPrefixOf (firstLine p)).flatMap fun p => (p.filter P).flatMap quoted

/-- The word means nothing to either loop over the arguments. -/
def Meaningless (env : ArgEnv) (w : String) : Prop :=
  (∀ next st, argStep env w next st = .ok st) ∧ ∀ rest p, preArgs env (w :: rest) p = preArgs env rest p

/-- The word ends the arguments and needs another one after it. -/
def Wants (env : ArgEnv) (w : String) : Prop :=
  (∀ p, preArgs env [w] p = .error .error) ∨ ∀ st, argStep env w none st = .error .error

/-- The settings all runs start with. -/
def untouched (cpus : Nat) : ArgState := { cfg := Config.init cpus, pathPos := 0, versions := false, fmt := none }

/-- The word changes none of the settings all runs start with. -/
def AsDefault (env : ArgEnv) (cpus : Nat) (w : String) : Prop :=
  (∀ p, preArgs env [w] p = .ok p) ∧ ∃ n, argStep env w none (untouched cpus) = .ok { untouched cpus with pathPos := n }

end Vermin.Spec
