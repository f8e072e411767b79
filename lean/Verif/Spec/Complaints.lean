import Verif.Model.Messages
import Verif.Spec.Text
import Verif.Props.ArgValues
import Verif.Props.Rules
import Verif.Props.Targets
/-
What is wrong with a command line, and what is said about it: in terms of the words of the command line.
-/
namespace Vermin.Spec
open Vermin Vermin.Py Vermin.Props

/-- `v` is what follows the first `=` of a word, up to the next `=` if there is one. -/
def EqValue (w v : String) : Prop :=
  '=' ∉ v.toList ∧ ∃ o : List Char, '=' ∉ o ∧ (w.toList = o ++ '=' :: v.toList ∨ ∃ r : List Char, w.toList = o ++ '=' :: (v.toList ++ '=' :: r))

/-- The words that give a target. -/
def GivesTarget (w : String) : Prop := "-t=".toList <+: w.toList ∨ "--target=".toList <+: w.toList
instance (w : String) : Decidable (GivesTarget w) := inferInstanceAs (Decidable (_ ∨ _))

/-- How many targets there are after the words, if there are `n` before them and none is refused. -/
def targetsAfter (n : Nat) : List String → Nat
  | [] => n
  | w :: ws => targetsAfter (if w = "--no-target" then 0 else if GivesTarget w then n + 1 else n) ws

/-- A text that denotes a target (C07). -/
def IsTarget (v : String) : Prop := ∃ t : Target, TargetText v.toList t ∧ (⟨2, 0⟩ : Ver) ≤ t.2 ∧ t.2 < (⟨4, 0⟩ : Ver)

/-- What is said if an option at the end of the command line lacks its value. -/
def lackText : List (String × String) := [
  ("--format", "Format requires a name! Example: --format parsable"),
  ("-f", "Format requires a name! Example: --format parsable"),
  ("--exclude", "Exclusion requires a name! Example: --exclude email.parser.FeedParser"),
  ("--exclude-file", "Exclusion requires a file name! Example: --exclude-file '~/exclusions.txt'"),
  ("--exclude-regex", "Exclusion requires a regex! Example: --exclude-regex '\\.pyi$'"),
  ("--backport", "Requires a backport name! Example: --backport typing"),
  ("--feature", "Requires a feature name! Example: --feature fstring-self-doc")]

/-- `b` is the name of a backport without `==<version>`. -/
def Unversioned (name b : String) : Prop :=
  (b ≠ "" ∧ (∀ c ∈ b.toList, WordChar c ∨ c = '.') ∧ ∃ v : String, v ≠ "" ∧ v.toList.head? ≠ some '\n' ∧ name = b ++ "==" ++ v) ∨
  ((∀ b' v : String, b' ≠ "" → (∀ c ∈ b'.toList, WordChar c ∨ c = '.') → v ≠ "" → v.toList.head? ≠ some '\n' → name ≠ b' ++ "==" ++ v) ∧ b = name)

/-- The line about a backport: its name in a column as wide as the longest name, its link and its requirement. -/
def BackportLine (r : BackportRow × String) (line : List Char) : Prop :=
  ∃ k, r.1.1.toList.length + k = 22 ∧ line = "  ".toList ++ r.1.1.toList ++ List.replicate k ' ' ++ " - ".toList ++ r.2.toList ++ " (".toList ++ (reqString r.1.2).toList ++ ")".toList

/-- What is suggested instead of an unknown backport: the variants of what it is a version of, the newest and unversioned first. -/
inductive Suggests (name : String) : List String → Prop
  | nothing {b : String} : Unversioned name b → (∀ r ∈ backportInfos, ¬ Variant r.1.1 b) → Suggests name []
  | these {b t : String} {rows : List (BackportRow × String)} {lines : List (List Char)} : Unversioned name b →
      rows.reverse.Sublist backportInfos → (∀ r ∈ backportInfos, r ∈ rows ↔ Variant r.1.1 b) → rows ≠ [] →
      lines.length = rows.length → (∀ p ∈ rows.zip lines, BackportLine p.1 p.2) → t.toList = join ['\n'] lines →
      Suggests name ["Did you mean one of the following?", t]

/-- The word `w`, followed by `next`, is refused with these messages, if there are `n` targets before it. -/
inductive Mistake (n : Nat) (w : String) : Option String → List String → Prop
  | lacks {m : String} : (w, m) ∈ lackText → Mistake n w none [m]
  | format {v : String} : w ∈ ["--format", "-f"] → String.ofList (lower v.toList) ∉ ["default", "parsable"] →
      Mistake n w (some v) ["Unknown format: " ++ String.ofList (lower v.toList)]
  | backport {v : String} {ms : List String} : w = "--backport" → (∀ r ∈ backports, r.1 ≠ v) → Suggests v ms →
      Mistake n w (some v) (["Unknown backport: " ++ v] ++ ms ++ ["Get the full list of backports via `--help`."])
  | feature {v : String} : w = "--feature" → v ∉ ["fstring-self-doc", "union-types"] → Mistake n w (some v) ["Unknown feature: " ++ v]
  | tooMany {v : String} {next : Option String} : GivesTarget w → EqValue w v → n = 2 →
      Mistake n w next ["A maximum of two targets can be specified!", "Invalid target: " ++ v]
  | target {v : String} {next : Option String} : GivesTarget w → EqValue w v → n ≠ 2 → ¬ IsTarget v → Mistake n w next ["Invalid target: " ++ v]
  | number {v : String} {next : Option String} : SetsProcesses w → EqValue w v → (∀ k, ¬ IntText v.toList k) → Mistake n w next ["Invalid value: " ++ v]
  | positive {v : String} {next : Option String} {k : Int} : SetsProcesses w → EqValue w v → IntText v.toList k → k ≤ 0 →
      Mistake n w next ["Non-positive number: " ++ toString k]

/-- A pattern that cannot be compiled: an exception ends the program. -/
def BadPattern (env : ArgEnv) (w : String) (next : Option String) : Prop := w = "--exclude-regex" ∧ ∃ v, next = some v ∧ env.validRegex v = false

/-- No word is refused or raises.  `n`: the targets before. -/
def Sound (env : ArgEnv) (n : Nat) (args rest : List String) : Prop :=
  ∀ pre w post, args = pre ++ w :: post → (∀ m, ¬ Mistake (targetsAfter n pre) w (post ++ rest).head? m) ∧ ¬ BadPattern env w (post ++ rest).head?

/-- The exclusion files that cannot be read: the text of the exception for each of them. -/
def unreadable (env : MsgEnv) : List String → List String
  | w :: v :: ws => (if w = "--exclude-file" ∧ env.args.readLines v = none then [env.readError v] else []) ++ unreadable env (v :: ws)
  | _ => []

/-- Words that make output verbose. -/
def Loud (args : List String) (c0 : Config) : Prop :=
  (∃ w ∈ args, "-v".toList <+: w.toList) ∨ 0 < c0.verbose ∨ LastFormat args none (some .parsable)

/-- Words that say where the config file is. -/
def namesFile : List String := ["--config-file", "-c"]

/-- How a command line is refused, and what is printed then. -/
inductive Refused (env : MsgEnv) (args : List String) (config : Config) : List String → Prop
  /-- the option for a config file is the last word -/
  | noFile {pre : List String} {o : String} : args = pre ++ [o] → o ∈ namesFile →
      Refused env args config ["Requires config file path! Example: --config-file /path/to/vermin.ini"]
  /-- a config file is named and forbidden -/
  | both {pre post : List String} {o v : String} : args = pre ++ o :: v :: post → o ∈ namesFile → (∀ x ∈ v :: post, x ∉ namesFile) → "--no-config-file" ∈ args →
      Refused env args config ["--config-file cannot be used together with --no-config-file!"]
  /-- the config file cannot be used -/
  | file {q : String} : FileChoice env.args args (some q) → env.args.parseFile q = none → Refused env args config (env.fileMsgs q)
  /-- a word is refused, and none before it -/
  | word {c0 : Config} {pre post : List String} {w : String} {ms : List String} : StartConfig env.args args config c0 → args = pre ++ w :: post →
      Sound env.args c0.targets.length pre (w :: post) → Mistake (targetsAfter c0.targets.length pre) w post.head? ms →
      Refused env args config (unreadable env (pre ++ [w]) ++ ms)
  /-- violations without targets -/
  | violations {c0 : Config} : StartConfig env.args args config c0 → Sound env.args c0.targets.length args [] →
      LastSays ["--violations", "--lint"] ["--no-violations", "--no-lint"] args c0.onlyShowViolations true →
      targetsAfter c0.targets.length args = 0 →
      Refused env args config (unreadable env args ++ ["Showing violations requires target(s) to be specified!"])
  /-- quiet and verbose -/
  | quiet {c0 : Config} : StartConfig env.args args config c0 → Sound env.args c0.targets.length args [] →
      LastSays ["--violations", "--lint"] ["--no-violations", "--no-lint"] args c0.onlyShowViolations false →
      LastSays ["--quiet", "-q"] ["--no-quiet"] args c0.quiet true → Loud args c0 →
      Refused env args config (unreadable env args ++ ["Cannot use quiet and verbose modes together!"])

/-! ### Config files -/

/-- A config file with a value that makes reading it raise an exception: no text, no number, or no pattern. -/
def Unusable (valid : String → Bool) (i : Ini) (s : Dict String IniVal) : Prop :=
  (∃ o ∈ ["quiet", "print_visits", "ignore_incomp", "pessimistic", "show_tips", "analyze_hidden", "eval_annotations", "only_show_violations",
    "parse_comments", "scan_symlink_folders", "make_paths_absolute", "exclusions", "exclusion_regex", "backports", "features", "targets", "format"],
    ¬ Plain i s o) ∨
  (∃ o ∈ ["verbose", "processes"], ¬ PlainUint i s o) ∨
  ∃ l, ListSpec i s "exclusion_regex" l ∧ ∃ x ∈ l, valid x = false

/-- What is wrong with a config file, and what is said about it.  `exText` is the text of an exception. -/
inductive FileFault (valid : String → Bool) (exText : Err → String) (path : String) : Option IniRead → List String → Prop
  | unopened : FileFault valid exText path none ["Could not load config file: " ++ path, exText .osError]
  | unparsed {ex : String} : FileFault valid exText path (some (.error ex)) ["Could not load config: " ++ path, ex]
  | sectionless {i : Ini} : i.sect = none → FileFault valid exText path (some (.ok i)) ["Missing `[vermin]` section in config: " ++ path]
  | raised {i : Ini} {s : Dict String IniVal} {e : Err} : i.sect = some s → Unusable valid i s →
      FileFault valid exText path (some (.ok i)) ["Could not load config file: " ++ path, exText e]
  | backport {i : Ini} {s : Dict String IniVal} {pre post : List String} {x : String} : i.sect = some s → ListSpec i s "backports" (pre ++ x :: post) →
      (∀ y ∈ pre, ∃ r ∈ backports, r.1 = y) → (∀ r ∈ backports, r.1 ≠ x) → FileFault valid exText path (some (.ok i)) ["Unknown backport: " ++ x]
  | feature {i : Ini} {s : Dict String IniVal} {pre post : List String} {x : String} : i.sect = some s → ListSpec i s "features" (pre ++ x :: post) →
      (∀ y ∈ pre, y ∈ ["fstring-self-doc", "union-types"]) → x ∉ ["fstring-self-doc", "union-types"] →
      FileFault valid exText path (some (.ok i)) ["Unknown feature: " ++ x]
  | target {i : Ini} {s : Dict String IniVal} {pre post : List String} {x : String} : i.sect = some s → ListSpec i s "targets" (pre ++ x :: post) →
      (∀ y ∈ pre, IsTarget y) → pre.length < 2 → ¬ IsTarget x → FileFault valid exText path (some (.ok i)) ["Invalid target: " ++ x]
  | tooMany {i : Ini} {s : Dict String IniVal} {a b x : String} {post : List String} : i.sect = some s → ListSpec i s "targets" (a :: b :: x :: post) →
      IsTarget a → IsTarget b → FileFault valid exText path (some (.ok i)) ["A maximum of two targets can be specified!", "Invalid target: " ++ x]
  | format {i : Ini} {s : Dict String IniVal} {t : String} : i.sect = some s → Gives i s "format" (.text t) →
      String.ofList (strip t.toList) ∉ ["default", "parsable"] → FileFault valid exText path (some (.ok i)) ["Unknown format: " ++ String.ofList (strip t.toList)]

end Vermin.Spec
