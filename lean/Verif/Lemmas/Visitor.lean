import Verif.Model.Visitor
import Verif.Spec.Constructs
import Verif.Lemmas.Directives
import Verif.Lemmas.Reads
/-
A traversal principle for the visitor: a relation between actions that holds for the elementary actions and is closed under
the ways they are put together holds between the visits of a tree under two environments that differ in display options.
-/
namespace Vermin
open Py V Spec

/-! ### Display options and rules -/

/-- The options of a configuration that do not concern which parts of a file are looked at: display options, those about finding and
processing files, whether comments are parsed (the marked lines are in the environment), exclusions and backports, with the rules the
latter lead to; and the path of the file. -/
structure Display where
  quiet : Bool
  verbose : Nat
  printVisits : Bool
  showTips : Bool
  targets : List Target
  onlyShowViolations : Bool
  format : Fmt
  processes : Nat
  pessimistic : Bool
  analyzeHidden : Bool
  exclusionRegex : List String
  makePathsAbsolute : Bool
  scanSymlinkFolders : Bool
  exclusions : List String
  backports : List String
  features : List String
  parseComments : Bool
  mod : String → Option Req
  mem : String → Option Req
  kw : String × Option String → Option Req
  /-- another path, if any -/
  path : Option String

/-- The configuration with other display options, exclusions, backports and features. -/
def Config.show (c : Config) (d : Display) : Config :=
  { c with quiet := d.quiet, verbose := d.verbose, printVisits := d.printVisits, showTips := d.showTips, targets := d.targets,
           onlyShowViolations := d.onlyShowViolations, format := d.format, processes := d.processes, pessimistic := d.pessimistic,
           analyzeHidden := d.analyzeHidden, exclusionRegex := d.exclusionRegex, makePathsAbsolute := d.makePathsAbsolute,
           scanSymlinkFolders := d.scanSymlinkFolders, exclusions := d.exclusions, backports := d.backports, features := d.features,
           parseComments := d.parseComments }

/-- The display options, exclusions, backports, features and rules of a configuration and tables. -/
def Config.display (c : Config) (t : Tables) : Display :=
  ⟨c.quiet, c.verbose, c.printVisits, c.showTips, c.targets, c.onlyShowViolations, c.format, c.processes, c.pessimistic, c.analyzeHidden,
   c.exclusionRegex, c.makePathsAbsolute, c.scanSymlinkFolders, c.exclusions, c.backports, c.features, c.parseComments, t.mod, t.mem, t.kw, none⟩
/-- The display options, exclusions, backports, features and rules. -/
def Env.display (env : Env) : Display := Config.display env.cfg env.tables

/-- The environment with other display options, exclusions, backports, features and rules. -/
def Env.show (env : Env) (d : Display) : Env :=
  { env with cfg := env.cfg.show d, path := d.path.getD env.path, tables := { env.tables with mod := d.mod, mem := d.mem, kw := d.kw } }
theorem Env.show_display (env : Env) : env.show env.display = env := rfl

/-- What has been printed and found so far, as far as exclusions and display options have an influence on it. -/
structure Findings where
  out : List String
  infoVersions : Refs
  lineCol : Dict Ent (Nat × Option Nat)
  modules : List String
  members : List String
  flags : List Flag
  kwargs : List (String × Option String)
  userFuncDecos : List String
  codecsErr : List Const
  codecsEnc : List Const

/-- The state with other findings. -/
def S.withOut (s : S) (x : Findings) : S :=
  { s with out := x.out, infoVersions := x.infoVersions, lineCol := x.lineCol, modules := x.modules, members := x.members, flags := x.flags,
           kwargs := x.kwargs, userFuncDecos := x.userFuncDecos, codecsErr := x.codecsErr, codecsEnc := x.codecsEnc }
/-- The findings of a state. -/
def S.findings (s : S) : Findings :=
  ⟨s.out, s.infoVersions, s.lineCol, s.modules, s.members, s.flags, s.kwargs, s.userFuncDecos, s.codecsErr, s.codecsEnc⟩
theorem S.withOut_self (s : S) : s.withOut s.findings = s := rfl
/-- The state with other output. -/
def S.aloud (s : S) (o : List String) (i : Refs) : S := { s with out := o, infoVersions := i }
theorem S.aloud_self (s : S) : s.aloud s.out s.infoVersions = s := rfl

theorem nameOrAttr_ok (s : S) (n : Node) : ∃ o, nameOrAttr s n = .ok o ∧
    (∀ x, o = some x → (∃ i c, n.kind = .name i c) ∨ ∃ a, n.kind = .attribute a) := by
  unfold nameOrAttr
  split
  · rename_i i c h; exact ⟨_, rfl, fun x _ => .inl ⟨i, c, h⟩⟩
  · rename_i a h
    obtain ⟨d, hd⟩ := dottedAttr_ok (ms := s.moduleAs) h
    rw [hd]; exact ⟨_, rfl, fun x _ => .inr ⟨a, h⟩⟩
  · exact ⟨_, rfl, fun x h => by cases h⟩

/-! ### Texts -/

theorem format27_sound : ∀ (prev : Option Char) (l : List Char), format27From prev l = true →
    ∃ a b, l = a ++ '{' :: '}' :: b ∧ ((a = [] → prev ≠ some '{') ∧ (a ≠ [] → a.getLast? ≠ some '{')) ∧ b.head? ≠ some '}'
  | prev, l, h => by
    fun_induction format27From prev l with
    | case1 prev cs ih =>
      simp only [Bool.or_eq_true, Bool.and_eq_true, decide_eq_true_eq] at h
      rcases h with h | h
      · exact ⟨[], cs, rfl, ⟨fun _ => h.1, fun h => absurd rfl h⟩, h.2⟩
      · obtain ⟨a, b, h1, h2, h3⟩ := ih h
        refine ⟨'{' :: a, b, by rw [h1]; rfl, ⟨nofun, fun _ => ?_⟩, h3⟩
        by_cases ha : a = []
        · subst ha; exact absurd h1 (by simp)
        · rw [List.getLast?_cons_of_ne_nil ha]; exact h2.2 ha
    | case2 prev c cs hne ih =>
      obtain ⟨a, b, h1, h2, h3⟩ := ih h
      refine ⟨c :: a, b, by rw [h1]; rfl, ⟨nofun, fun _ => ?_⟩, h3⟩
      by_cases ha : a = []
      · subst ha; simpa using h2.1 rfl
      · rw [List.getLast?_cons_of_ne_nil ha]; exact h2.2 ha
    | case3 => cases h

theorem autoField {l : List Char} (h : format27From none l = true) : AutoField l := by
  obtain ⟨a, b, h1, h2, h3⟩ := format27_sound _ _ h
  refine ⟨a, b, h1, ?_, h3⟩
  by_cases ha : a = []
  · subst ha; simp
  · exact h2.2 ha

end Vermin
