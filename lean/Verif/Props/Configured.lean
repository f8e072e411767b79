import Verif.Props.ArgValues
import Verif.Props.Messages
import Verif.Props.Order
import Verif.Props.Program
import Verif.Props.Unrelated
import Verif.Props.Strings
/-
C103: a setting means the same in a config file and on the command line.
-/
namespace Vermin.Props
open Vermin Vermin.Py Vermin.Spec

/-! ### Specification -/

/-- Something one can ask for both in a config file and on the command line. -/
inductive Setting where
  | switch (s : Switch) (on : Bool)
  | verbosity (n : Nat)
  | processes (n : Nat)
  | exclusion (x : String)
  | regex (x : String)
  | backport (x : String)
  | feature (x : String)
  | target (x : String)
  | format (f : Fmt)

/-- How a setting is spelled on the command line, according to the help text (arguments.py:13-190). -/
inductive OnLine : Setting → List String → Prop where
  | switch {s : Switch} {b : Bool} {w : String} : w ∈ switchNames s b → OnLine (.switch s b) [w]
  | verbosity {n : Nat} : 0 < n → OnLine (.verbosity n) [String.ofList ('-' :: List.replicate n 'v')]
  | processes {o v : String} {n : Nat} : o ∈ ["-p", "--processes"] → IntText v.toList n → 0 < n → '=' ∉ v.toList →
      OnLine (.processes n) [o ++ "=" ++ v]
  | exclusion {x : String} : Dashless x → OnLine (.exclusion x) ["--exclude", x]
  | regex {x : String} : Dashless x → OnLine (.regex x) ["--exclude-regex", x]
  | backport {x : String} : Dashless x → OnLine (.backport x) ["--backport", x]
  | feature {x : String} : Dashless x → OnLine (.feature x) ["--feature", x]
  | target {o x : String} : o ∈ ["-t", "--target"] → '=' ∉ x.toList → OnLine (.target x) [o ++ "=" ++ x]
  | format {o v : String} {f : Fmt} : o ∈ ["-f", "--format"] → String.ofList (lower v.toList) = f.name → Dashless v →
      OnLine (.format f) [o, v]

/-- The words of several settings, one after the other. -/
inductive OnLineAll : List Setting → List String → Prop where
  | nil : OnLineAll [] []
  | cons {s : Setting} {ws : List String} {ss : List Setting} {rest : List String} : OnLine s ws → OnLineAll ss rest → OnLineAll (s :: ss) (ws ++ rest)

/-- What a setting says about a switch. -/
def Setting.switch? (s : Switch) : Setting → Option Bool
  | .switch s' b => if s' = s then some b else none
  | _ => none
def Setting.verbosity? : Setting → Option Nat
  | .verbosity n => some n
  | _ => none
def Setting.processes? : Setting → Option Nat
  | .processes n => some n
  | _ => none
def Setting.exclusion? : Setting → Option String
  | .exclusion x => some x
  | _ => none
def Setting.regex? : Setting → Option String
  | .regex x => some x
  | _ => none
def Setting.backport? : Setting → Option String
  | .backport x => some x
  | _ => none
def Setting.feature? : Setting → Option String
  | .feature x => some x
  | _ => none
def Setting.target? : Setting → Option String
  | .target x => some x
  | _ => none
def Setting.format? : Setting → Option Fmt
  | .format f => some f
  | _ => none

/-- The last of several settings counts. -/
def lastOf {α : Type} (f : Setting → Option α) (ss : List Setting) : Option α := (ss.filterMap f).getLast?

/-- The options of switches in config files, according to the README. -/
def switchOption : Switch → String
  | .quiet => "quiet"
  | .dump => "print_visits"
  | .hidden => "analyze_hidden"
  | .ignore => "ignore_incomp"
  | .tips => "show_tips"
  | .absolute => "make_paths_absolute"
  | .pessimistic => "pessimistic"
  | .evalAnnotations => "eval_annotations"
  | .violations => "only_show_violations"
  | .comments => "parse_comments"
  | .symlinks => "scan_symlink_folders"

/-- The file gives the option a text with property `P` of the value, and does not mention it if there is none. -/
def WritesOne {α : Type} (P : String → α → Prop) (i : Ini) (d : Dict String IniVal) (opt : String) : Option α → Prop
  | none => Silent i d opt
  | some a => ∃ t, Gives i d opt (.text t) ∧ P t a

/-- The file lists these values, one per line. -/
def WritesList (i : Ini) (d : Dict String IniVal) (opt : String) (l : List String) : Prop :=
  l = [] ∧ Silent i d opt ∨ ∃ t, Gives i d opt (.text t) ∧ (splitlines (strip t.toList)).map String.ofList = l

/-- A config file that says the same as the settings. -/
structure Writes (i : Ini) (d : Dict String IniVal) (ss : List Setting) : Prop where
  switches : ∀ s, WritesOne BoolWord i d (switchOption s) (lastOf (Setting.switch? s) ss)
  verbosity : WritesOne (fun t (n : Nat) => IntText t.toList n) i d "verbose" (lastOf Setting.verbosity? ss)
  processes : WritesOne (fun t (n : Nat) => IntText t.toList n) i d "processes" (lastOf Setting.processes? ss)
  exclusions : WritesList i d "exclusions" (ss.filterMap Setting.exclusion?)
  regexes : WritesList i d "exclusion_regex" (ss.filterMap Setting.regex?)
  backports : WritesList i d "backports" (ss.filterMap Setting.backport?)
  features : WritesList i d "features" (ss.filterMap Setting.feature?)
  targets : WritesList i d "targets" (ss.filterMap Setting.target?)
  format : WritesOne (fun t (f : Fmt) => String.ofList (strip t.toList) = f.name) i d "format" (lastOf Setting.format? ss)

/-! ### The settings on the command line -/

theorem lastOf_cons {α : Type} (f : Setting → Option α) (s : Setting) (ss : List Setting) :
    lastOf f (s :: ss) = (lastOf f ss).or (f s) := by
  unfold lastOf
  rw [List.filterMap_cons]
  cases hf : f s with
  | none => simp
  | some a =>
    dsimp only
    rw [List.getLast?_cons]
    cases (List.filterMap f ss).getLast? <;> rfl

/-- The targets after further ones are added; `none` if one is not accepted. -/
def pushAll : List Target → List String → Option (List Target)
  | ts, [] => some ts
  | ts, x :: l =>
    if ts.length = 2 then none
    else match parseTarget x with
      | none => none
      | some t => pushAll (sort Config.targetLe (ts ++ [t])) l

theorem addTarget_text (c : Config) (x : String) : c.addTarget (.text x) =
    match pushAll c.targets [x] with
    | none => (c, false)
    | some ts => ({ c with targets := ts }, true) := by
  simp only [Config.addTarget, pushAll]
  by_cases h : c.targets.length = 2
  · rw [if_pos h, if_pos h]
  · rw [if_neg h, if_neg h]
    cases parseTarget x <;> rfl

theorem pushAll_cons (ts : List Target) (x : String) (l : List String) : pushAll ts (x :: l) = (pushAll ts [x]).bind fun ts' => pushAll ts' l := by
  simp only [pushAll]
  by_cases h : ts.length = 2
  · rw [if_pos h, if_pos h]; rfl
  · rw [if_neg h, if_neg h]
    cases parseTarget x <;> rfl

theorem addEach_pushAll : ∀ (l : List String) (c : Config), addEach (fun c t => c.addTarget (.text t)) c l =
    (pushAll c.targets l).map fun ts => { c with targets := ts }
  | [], c => rfl
  | x :: l, c => by
    unfold addEach
    rw [addTarget_text, pushAll_cons c.targets x l]
    cases pushAll c.targets [x] with
    | none => rfl
    | some ts => exact addEach_pushAll l { c with targets := ts }

/-- The effect of a setting. -/
def told (cpus : Nat) (c : Config) : Setting → Option Config
  | .switch s b => some (c.setSwitch s b)
  | .verbosity n => some { c with verbose := n }
  | .processes n => some { c with processes := if n > 0 then n else cpus }
  | .exclusion x => some { c with exclusions := addSet c.exclusions x }
  | .regex x => some { c with exclusionRegex := addSet c.exclusionRegex x }
  | .backport x => if isBackport x then some { c with backports := addSet c.backports x } else none
  | .feature x => if isFeature x then some { c with features := addSet c.features x } else none
  | .target x => (pushAll c.targets [x]).map fun ts => { c with targets := ts }
  | .format _ => some c

def toldAll (cpus : Nat) : Config → List Setting → Option Config
  | c, [] => some c
  | c, s :: ss => (told cpus c s).bind fun c' => toldAll cpus c' ss

/-- A word that is seen by the first pass over the arguments. -/
def PreWord (w : String) : Prop := w ∈ ["--help", "-h", "--version", "-V", "--no-config-file", "--config-file", "-c"]

theorem argLoop_dashless {env : ArgEnv} {x : String} (h : Dashless x) (rest : List String) (st : ArgState) :
    argLoop env (x :: rest) st = argLoop env rest st := by
  conv => lhs; unfold argLoop argStep
  rw [classify_inert (C50_inert h)]

theorem argLoop_line {env : ArgEnv} {s : Setting} {ws : List String} (h : OnLine s ws) (hv : ∀ x, s = .regex x → env.validRegex x = true)
    (rest : List String) (st : ArgState) : argLoop env (ws ++ rest) st =
      match told env.cpus st.cfg s with
      | none => .error .error
      | some c => argLoop env rest { cfg := c, pathPos := st.pathPos + ws.length, versions := st.versions, fmt := s.format?.or st.fmt } := by
  cases h with
  | switch hw =>
    conv => lhs; rw [List.cons_append, argLoop, argStep.eq_def, classify_of_switch hw]
    rfl
  | @verbosity n hn =>
    conv => lhs; rw [List.cons_append, argLoop, argStep.eq_def]
    rw [classify_verbose (w := String.ofList ('-' :: List.replicate n 'v')) (by
      rw [String.toList_ofList (l := '-' :: List.replicate n 'v')]
      cases n with
      | zero => omega
      | succ n => exact ⟨List.replicate n 'v', rfl⟩)]
    simp only [String.toList_ofList]
    rw [show (('-' :: List.replicate n 'v').filter (· == 'v')).length = n by simp [List.filter_replicate]]
    rfl
  | @processes o v n ho hi hn he =>
    conv => lhs; rw [List.cons_append, argLoop, argStep.eq_def]
    have ho' : '=' ∉ o.toList := by
      rcases List.mem_cons.mp ho with rfl | ho
      · decide
      · rw [List.mem_singleton.mp ho]; decide
    rw [classify_processes (w := o ++ "=" ++ v) (by
      rcases List.mem_cons.mp ho with rfl | ho
      · exact .inl (by rw [String.toList_append]; exact ⟨_, rfl⟩)
      · rw [List.mem_singleton.mp ho]; exact .inr (by rw [String.toList_append]; exact ⟨_, rfl⟩))]
    dsimp only
    rw [argValue_of ho' he, int_iff.mpr hi]
    dsimp only
    rw [if_neg (by omega)]
    simp only [told, Config.setProcesses, Int.natCast_pos, gt_iff_lt, Int.toNat_natCast]
    rfl
  | @exclusion x hx =>
    conv => lhs; rw [List.cons_append, argLoop, argStep.eq_def, show classify "--exclude" = .exclude by decide +kernel]
    dsimp only [List.cons_append, List.head?_cons, List.nil_append]
    rw [argLoop_dashless hx]; rfl
  | @regex x hx =>
    conv => lhs; rw [List.cons_append, argLoop, argStep.eq_def, show classify "--exclude-regex" = .excludeRegex by decide +kernel]
    dsimp only [List.cons_append, List.head?_cons, List.nil_append]
    rw [if_pos (hv x rfl)]
    dsimp only
    rw [argLoop_dashless hx]; rfl
  | @backport x hx =>
    conv => lhs; rw [List.cons_append, argLoop, argStep.eq_def, show classify "--backport" = .backport by decide +kernel]
    dsimp only [List.cons_append, List.head?_cons, List.nil_append, told, Config.addBackport]
    by_cases hb : isBackport x = true
    · rw [if_pos hb, if_pos hb]
      dsimp only
      rw [argLoop_dashless hx]; rfl
    · rw [if_neg hb, if_neg hb]
  | @feature x hx =>
    conv => lhs; rw [List.cons_append, argLoop, argStep.eq_def, show classify "--feature" = .feature by decide +kernel]
    dsimp only [List.cons_append, List.head?_cons, List.nil_append, told, Config.enableFeature]
    by_cases hb : isFeature x = true
    · rw [if_pos hb, if_pos hb]
      dsimp only
      rw [argLoop_dashless hx]; rfl
    · rw [if_neg hb, if_neg hb]
  | @target o x ho he =>
    conv => lhs; rw [List.cons_append, argLoop, argStep.eq_def]
    have ho' : '=' ∉ o.toList := by
      rcases List.mem_cons.mp ho with rfl | ho
      · decide
      · rw [List.mem_singleton.mp ho]; decide
    rw [classify_target (w := o ++ "=" ++ x) (by
      rcases List.mem_cons.mp ho with rfl | ho
      · exact .inl (by rw [String.toList_append]; exact ⟨_, rfl⟩)
      · rw [List.mem_singleton.mp ho]; exact .inr (by rw [String.toList_append]; exact ⟨_, rfl⟩))]
    dsimp only
    rw [argValue_of ho' he]
    rw [addTarget_text]
    simp only [told]
    cases pushAll st.cfg.targets [x] <;> rfl
  | @format o v f ho hf hx =>
    conv => lhs; rw [List.cons_append, argLoop, argStep.eq_def]
    rw [show classify o = .format by
      rcases List.mem_cons.mp ho with rfl | ho
      · decide +kernel
      · rw [List.mem_singleton.mp ho]; decide +kernel]
    dsimp only [List.cons_append, List.head?_cons, List.nil_append]
    rw [hf, show Fmt.fromName f.name = some f by cases f <;> decide +kernel]
    dsimp only
    rw [argLoop_dashless hx]; rfl

theorem argLoop_lineAll {env : ArgEnv} (rest : List String) : ∀ {ss : List Setting} {ws : List String}, OnLineAll ss ws →
    (∀ x, .regex x ∈ ss → env.validRegex x = true) → ∀ st : ArgState, argLoop env (ws ++ rest) st =
      match toldAll env.cpus st.cfg ss with
      | none => .error .error
      | some c => argLoop env rest { cfg := c, pathPos := st.pathPos + ws.length, versions := st.versions, fmt := (lastOf Setting.format? ss).or st.fmt }
  | _, _, .nil, _, st => rfl
  | _, _, .cons (s := s) (ss := ss) (ws := ws) (rest := ws') h hs, hv, st => by
    rw [List.append_assoc, argLoop_line h (fun x hx => hv x (by rw [← hx]; exact List.mem_cons_self))]
    unfold toldAll
    cases told env.cpus st.cfg s with
    | none => rfl
    | some c =>
      dsimp only [Option.bind]
      rw [argLoop_lineAll rest hs (fun x hx => hv x (List.mem_cons_of_mem _ hx))]
      rw [lastOf_cons, List.length_append]
      cases toldAll env.cpus c ss with
      | none => rfl
      | some c' =>
        dsimp only
        rw [Nat.add_assoc, Option.or_assoc]

/-- The configuration after all settings, with these targets. -/
def summed (cpus : Nat) (c : Config) (ss : List Setting) (ts : List Target) : Config where
  quiet := (lastOf (Setting.switch? .quiet) ss).getD c.quiet
  verbose := (lastOf Setting.verbosity? ss).getD c.verbose
  printVisits := (lastOf (Setting.switch? .dump) ss).getD c.printVisits
  processes := ((lastOf Setting.processes? ss).map fun n => if n > 0 then n else cpus).getD c.processes
  ignoreIncomp := (lastOf (Setting.switch? .ignore) ss).getD c.ignoreIncomp
  pessimistic := (lastOf (Setting.switch? .pessimistic) ss).getD c.pessimistic
  showTips := (lastOf (Setting.switch? .tips) ss).getD c.showTips
  analyzeHidden := (lastOf (Setting.switch? .hidden) ss).getD c.analyzeHidden
  exclusions := (ss.filterMap Setting.exclusion?).foldl addSet c.exclusions
  exclusionRegex := (ss.filterMap Setting.regex?).foldl addSet c.exclusionRegex
  makePathsAbsolute := (lastOf (Setting.switch? .absolute) ss).getD c.makePathsAbsolute
  backports := (ss.filterMap Setting.backport?).foldl addSet c.backports
  features := (ss.filterMap Setting.feature?).foldl addSet c.features
  targets := ts
  evalAnnotations := (lastOf (Setting.switch? .evalAnnotations) ss).getD c.evalAnnotations
  onlyShowViolations := (lastOf (Setting.switch? .violations) ss).getD c.onlyShowViolations
  parseComments := (lastOf (Setting.switch? .comments) ss).getD c.parseComments
  scanSymlinkFolders := (lastOf (Setting.switch? .symlinks) ss).getD c.scanSymlinkFolders
  format := c.format

/-- All backports and features exist. -/
def KnownNames (ss : List Setting) : Prop :=
  (∀ x ∈ ss.filterMap Setting.backport?, isBackport x = true) ∧ ∀ x ∈ ss.filterMap Setting.feature?, isFeature x = true

instance (ss : List Setting) : Decidable (KnownNames ss) := by unfold KnownNames; infer_instance

theorem getD_or_some {α : Type} (o : Option α) (a d : α) : (o.or (some a)).getD d = o.getD a := by cases o <;> rfl

theorem toldAll_eq (cpus : Nat) : ∀ (ss : List Setting) (c : Config), toldAll cpus c ss =
    if KnownNames ss then (pushAll c.targets (ss.filterMap Setting.target?)).map (summed cpus c ss) else none
  | [], c => rfl
  | s :: ss, c => by
    unfold toldAll
    cases s with
    | switch s b =>
      simp only [told, Option.bind_some]
      rw [toldAll_eq cpus ss]
      have h1 : KnownNames (.switch s b :: ss) ↔ KnownNames ss := .rfl
      have h2 : (c.setSwitch s b).targets = c.targets := by cases s <;> rfl
      have h3 : summed cpus (c.setSwitch s b) ss = summed cpus c (.switch s b :: ss) := by
        funext ts
        cases s <;> simp [summed, lastOf_cons, List.filterMap_cons, Setting.switch?, Setting.verbosity?, Setting.processes?, Config.setSwitch, getD_or_some,
          Setting.exclusion?, Setting.regex?, Setting.backport?, Setting.feature?]
      simp only [h1, h2, h3]
      rfl
    | verbosity n =>
      simp only [told, Option.bind_some]
      rw [toldAll_eq cpus ss]
      have h1 : KnownNames (.verbosity n :: ss) ↔ KnownNames ss := .rfl
      have h3 : summed cpus { c with verbose := n } ss = summed cpus c (.verbosity n :: ss) := by
        funext ts
        simp [summed, lastOf_cons, List.filterMap_cons, Setting.switch?, Setting.verbosity?, Setting.processes?, getD_or_some,
          Setting.exclusion?, Setting.regex?, Setting.backport?, Setting.feature?]
      simp only [h1, h3]
      rfl
    | processes n =>
      simp only [told, Option.bind_some]
      rw [toldAll_eq cpus ss]
      have h1 : KnownNames (.processes n :: ss) ↔ KnownNames ss := .rfl
      have h3 : summed cpus { c with processes := if n > 0 then n else cpus } ss = summed cpus c (.processes n :: ss) := by
        funext ts
        have : ∀ o : Option Nat, (o.map fun n => if n > 0 then n else cpus).getD (if n > 0 then n else cpus) =
            ((o.or (some n)).map fun n => if n > 0 then n else cpus).getD c.processes := by intro o; cases o <;> rfl
        simp only [summed, this]
        simp [lastOf_cons, List.filterMap_cons, Setting.switch?, Setting.verbosity?, Setting.processes?,
          Setting.exclusion?, Setting.regex?, Setting.backport?, Setting.feature?]
      simp only [h1, h3]
      rfl
    | exclusion x =>
      simp only [told, Option.bind_some]
      rw [toldAll_eq cpus ss]
      have h1 : KnownNames (.exclusion x :: ss) ↔ KnownNames ss := .rfl
      have h3 : summed cpus { c with exclusions := addSet c.exclusions x } ss = summed cpus c (.exclusion x :: ss) := by
        funext ts
        simp [summed, lastOf_cons, List.filterMap_cons, Setting.switch?, Setting.verbosity?, Setting.processes?, getD_or_some,
          Setting.exclusion?, Setting.regex?, Setting.backport?, Setting.feature?]
      simp only [h1, h3]
      rfl
    | regex x =>
      simp only [told, Option.bind_some]
      rw [toldAll_eq cpus ss]
      have h1 : KnownNames (.regex x :: ss) ↔ KnownNames ss := .rfl
      have h3 : summed cpus { c with exclusionRegex := addSet c.exclusionRegex x } ss = summed cpus c (.regex x :: ss) := by
        funext ts
        simp [summed, lastOf_cons, List.filterMap_cons, Setting.switch?, Setting.verbosity?, Setting.processes?, getD_or_some,
          Setting.exclusion?, Setting.regex?, Setting.backport?, Setting.feature?]
      simp only [h1, h3]
      rfl
    | backport x =>
      have h1 : KnownNames (.backport x :: ss) ↔ isBackport x = true ∧ KnownNames ss := by
        unfold KnownNames
        simp only [List.filterMap_cons, Setting.backport?, Setting.feature?, List.mem_cons, forall_eq_or_imp, and_assoc]
      simp only [told]
      by_cases hb : isBackport x = true
      · rw [if_pos hb, Option.bind_some, toldAll_eq cpus ss]
        have h3 : summed cpus { c with backports := addSet c.backports x } ss = summed cpus c (.backport x :: ss) := by
          funext ts
          simp [summed, lastOf_cons, List.filterMap_cons, Setting.switch?, Setting.verbosity?, Setting.processes?, getD_or_some,
            Setting.exclusion?, Setting.regex?, Setting.backport?, Setting.feature?]
        simp only [h1, h3, hb, true_and]
        rfl
      · rw [if_neg hb, if_neg (fun h => hb (h1.mp h).1)]
        rfl
    | feature x =>
      have h1 : KnownNames (.feature x :: ss) ↔ isFeature x = true ∧ KnownNames ss := by
        unfold KnownNames
        simp only [List.filterMap_cons, Setting.backport?, Setting.feature?, List.mem_cons, forall_eq_or_imp]
        exact and_left_comm
      simp only [told]
      by_cases hb : isFeature x = true
      · rw [if_pos hb, Option.bind_some, toldAll_eq cpus ss]
        have h3 : summed cpus { c with features := addSet c.features x } ss = summed cpus c (.feature x :: ss) := by
          funext ts
          simp [summed, lastOf_cons, List.filterMap_cons, Setting.switch?, Setting.verbosity?, Setting.processes?, getD_or_some,
            Setting.exclusion?, Setting.regex?, Setting.backport?, Setting.feature?]
        simp only [h1, h3, hb, true_and]
        rfl
      · rw [if_neg hb, if_neg (fun h => hb (h1.mp h).1)]
        rfl
    | target x =>
      have h1 : KnownNames (.target x :: ss) ↔ KnownNames ss := .rfl
      have h2 : (Setting.target x :: ss).filterMap Setting.target? = x :: ss.filterMap Setting.target? := rfl
      rw [h2, pushAll_cons]
      simp only [told, h1]
      cases pushAll c.targets [x] with
      | none => simp
      | some ts =>
        simp only [Option.map_some, Option.bind_some]
        rw [toldAll_eq cpus ss]
        rfl
    | format f =>
      simp only [told, Option.bind_some]
      rw [toldAll_eq cpus ss]
      have h1 : KnownNames (.format f :: ss) ↔ KnownNames ss := .rfl
      have h3 : summed cpus c ss = summed cpus c (.format f :: ss) := by
        funext ts
        simp [summed, lastOf_cons, List.filterMap_cons, Setting.switch?, Setting.verbosity?, Setting.processes?,
          Setting.exclusion?, Setting.regex?, Setting.backport?, Setting.feature?]
      simp only [h1, h3]
      rfl

/-! ### The settings in a config file -/

theorem getBool_writes {i : Ini} {s : Dict String IniVal} {c : Config} {opt : String} {d : Bool} {o : Option Bool}
    (hd : Dict.get? (iniDefaults c) opt = some (.text (strBool d))) (h : WritesOne BoolWord i s opt o) : i.getBool s c opt = .ok (o.getD d) := by
  cases o with
  | none =>
    obtain ⟨b, hb⟩ := getBool_ok hd (.inr h)
    rw [hb, (getBool_spec hd hb).silent h]; rfl
  | some a =>
    obtain ⟨t, h1, h2⟩ := h
    obtain ⟨b, hb⟩ := getBool_ok hd (.inl ⟨t, h1⟩)
    rw [hb, (getBool_spec hd hb).given t a h1 h2]; rfl

theorem getUint_writes {i : Ini} {s : Dict String IniVal} {c : Config} {opt : String} {d : Nat} {o : Option Nat}
    (hd : Dict.get? (iniDefaults c) opt = some (.text (String.ofList (strNat d))))
    (h : WritesOne (fun t (n : Nat) => IntText t.toList n) i s opt o) : i.getUint s c opt = .ok (o.getD d) := by
  cases o with
  | none =>
    obtain ⟨b, hb⟩ := getUint_ok hd (.inr h)
    rw [hb, (getUint_spec hd hb).silent h]; rfl
  | some a =>
    obtain ⟨t, h1, h2⟩ := h
    obtain ⟨b, hb⟩ := getUint_ok hd (.inl ⟨t, a, h1, h2, Int.natCast_nonneg a⟩)
    rw [hb, ((getUint_spec hd hb).given t a h1 h2).1]; rfl

theorem getList_writes {i : Ini} {s : Dict String IniVal} {c : Config} {opt : String} {l : List String}
    (hd : Dict.get? (iniDefaults c) opt = some (.text "")) (h : WritesList i s opt l) : i.getList s c opt = .ok l := by
  rcases h with ⟨rfl, h⟩ | ⟨t, h1, h2⟩
  · obtain ⟨b, hb, -⟩ := getList_ok (k := none) (P := fun _ => True) hd (.inr h)
    rw [hb, (getList_spec hd hb).silent h]
  · obtain ⟨b, hb, -⟩ := getList_ok (k := none) (P := fun _ => True) hd (.inl ⟨t, h1, fun _ _ => trivial, nofun⟩)
    rw [hb, (getList_spec hd hb).given t h1, h2]

theorem addRegexes_eq {valid : String → Bool} {l : List String} (h : ∀ x ∈ l, valid x = true) (c : Config) :
    addRegexes valid c l = .ok { c with exclusionRegex := l.foldl addSet c.exclusionRegex } := by
  obtain ⟨c', h1, -⟩ := addRegexes_ok c h
  rw [h1, (addRegexes_spec h1).2]

theorem parseFile_writes {cpus : Nat} {valid : String → Bool} {i : Ini} {d : Dict String IniVal} (hd : i.sect = some d) {ss : List Setting}
    (hw : Writes i d ss) (hv : ∀ x, .regex x ∈ ss → valid x = true) :
    parseFile cpus valid (some i) = (toldAll cpus (Config.init cpus) ss).map fun c => c.setFormat ((lastOf Setting.format? ss).getD .default) := by
  have g1 := getBool_writes (c := Config.init cpus) (d := false) (by rfl) (hw.switches .quiet)
  have g2 := getUint_writes (c := Config.init cpus) (d := 0) (by rfl) hw.verbosity
  have g3 := getBool_writes (c := Config.init cpus) (d := false) (by rfl) (hw.switches .dump)
  have g4 := getUint_writes (c := Config.init cpus) (d := cpus) (by rfl) hw.processes
  have g5 := getBool_writes (c := Config.init cpus) (d := false) (by rfl) (hw.switches .ignore)
  have g6 := getBool_writes (c := Config.init cpus) (d := false) (by rfl) (hw.switches .pessimistic)
  have g7 := getBool_writes (c := Config.init cpus) (d := true) (by rfl) (hw.switches .tips)
  have g8 := getBool_writes (c := Config.init cpus) (d := false) (by rfl) (hw.switches .hidden)
  have g9 := getBool_writes (c := Config.init cpus) (d := false) (by rfl) (hw.switches .evalAnnotations)
  have g10 := getBool_writes (c := Config.init cpus) (d := false) (by rfl) (hw.switches .violations)
  have g11 := getBool_writes (c := Config.init cpus) (d := true) (by rfl) (hw.switches .comments)
  have g12 := getBool_writes (c := Config.init cpus) (d := false) (by rfl) (hw.switches .symlinks)
  have g13 := getList_writes (c := Config.init cpus) (by rfl) hw.exclusions
  have g14 := getList_writes (c := Config.init cpus) (by rfl) hw.regexes
  have g15 := getBool_writes (c := Config.init cpus) (d := true) (by rfl) (hw.switches .absolute)
  have g16 := getList_writes (c := Config.init cpus) (by rfl) hw.backports
  have g17 := getList_writes (c := Config.init cpus) (by rfl) hw.features
  have g18 := getList_writes (c := Config.init cpus) (by rfl) hw.targets
  obtain ⟨ft, g19, hff⟩ : ∃ ft, i.get d (Config.init cpus) "format" = .ok (.text ft) ∧
      Fmt.fromName (String.ofList (strip ft.toList)) = some ((lastOf Setting.format? ss).getD .default) := by
    have := hw.format
    cases hl : lastOf Setting.format? ss with
    | none =>
      rw [hl] at this
      exact ⟨_, get_silent (t := "default") (by rfl) this, by decide +kernel⟩
    | some f =>
      rw [hl] at this
      obtain ⟨t, h1, h2⟩ := this
      exact ⟨t, get_gives h1, by rw [h2]; cases f <;> decide +kernel⟩
  have hx : ∀ x ∈ ss.filterMap Setting.regex?, valid x = true := by
    intro x hx
    obtain ⟨s, hs, he⟩ := List.mem_filterMap.mp hx
    cases s <;> cases he
    exact hv x hs
  have ok : ∀ {α β : Type} (x : α) (k : α → Except Err β), ((Except.ok x : Except Err α) >>= k) = k x := fun _ _ => rfl
  simp only [switchOption] at g1 g3 g5 g6 g7 g8 g9 g10 g11 g12 g15
  simp only [parseFile, parseFp, hd, g1, g2, g3, g4, g5, g6, g7, g8, g9, g10, g11, g12, g13, g14, ok]
  rw [foldl_addExclusion, addRegexes_eq hx]
  simp only [g15, g16, g17, g18, ok]
  rw [toldAll_eq]
  by_cases hb : ∀ x ∈ ss.filterMap Setting.backport?, isBackport x = true
  · rw [addEach_backports.mpr ⟨hb, rfl⟩]
    simp only
    by_cases hf : ∀ x ∈ ss.filterMap Setting.feature?, isFeature x = true
    · rw [addEach_features.mpr ⟨hf, rfl⟩, if_pos ⟨hb, hf⟩]
      simp only
      rw [addEach_pushAll]
      have hp : (if ((lastOf Setting.processes? ss).getD cpus : Int) > 0 then ((lastOf Setting.processes? ss).getD cpus : Int).toNat else cpus) =
          ((lastOf Setting.processes? ss).map fun n => if n > 0 then n else cpus).getD cpus := by
        cases lastOf Setting.processes? ss <;> simp
      generalize hts : pushAll _ (ss.filterMap Setting.target?) = o
      rw [show pushAll (Config.init cpus).targets (ss.filterMap Setting.target?) = o from hts]
      cases o with
      | none => rfl
      | some ts =>
        simp only [Option.map_some, g19, ok, hff, Config.setProcesses, hp]
        rfl
    · rw [if_neg (fun h => hf h.2)]
      have hn : ∀ c, addEach Config.enableFeature c (ss.filterMap Setting.feature?) = none := by
        intro c
        cases h : addEach Config.enableFeature c (ss.filterMap Setting.feature?) with
        | none => rfl
        | some c' => exact absurd (addEach_features.mp h).1 hf
      rw [hn]
      rfl
  · rw [if_neg (fun h => hb h.1)]
    have hn : ∀ c, addEach Config.addBackport c (ss.filterMap Setting.backport?) = none := by
      intro c
      cases h : addEach Config.addBackport c (ss.filterMap Setting.backport?) with
      | none => rfl
      | some c' => exact absurd (addEach_backports.mp h).1 hb
    rw [hn]
    rfl

/-! ### The rest of the command line -/

/-- Two configurations that are the same but for the order of exclusions and patterns. -/
def CfgAlike (c c' : Config) : Prop :=
  c' = { c with exclusions := c'.exclusions, exclusionRegex := c'.exclusionRegex } ∧
  (∀ x, x ∈ c'.exclusions ↔ x ∈ c.exclusions) ∧ ∀ x, x ∈ c'.exclusionRegex ↔ x ∈ c.exclusionRegex

/-- The state `st`, after the settings were given on the command line in `k` words, and `st'`, after they were read from a file. -/
structure Behind (k : Nat) (F : Fmt) (st st' : ArgState) : Prop where
  cfg : CfgAlike (st.cfg.setFormat F) st'.cfg
  pos : st.pathPos = k + st'.pathPos
  versions : st'.versions = st.versions
  plain : st.cfg.format = .default
  fmt : st'.fmt = st.fmt ∧ F = .default ∨ st.fmt = some F ∧ st'.fmt = none

/-- The word may follow settings with this format. -/
def MayFollow (F : Fmt) (w : String) : Prop := F = .parsable → ¬ Undoes w ∧ w ∉ ["-f", "--format"]

/-- Both end alike. -/
def StepAlike (k : Nat) (F : Fmt) : Except ArgStop ArgState → Except ArgStop ArgState → Prop
  | .error e, .error e' => e' = e
  | .ok st, .ok st' => Behind k F st st'
  | _, _ => False

theorem addExclusionLines_eq : ∀ (ls : List String) (c : Config), c.addExclusionLines ls =
    { c with exclusions := (ls.map fun l => String.ofList (strip l.toList)).foldl addSet c.exclusions }
  | [], _ => rfl
  | l :: ls, c => by
    show Config.addExclusionLines (c.addExclusion _) ls = _
    rw [addExclusionLines_eq ls]
    rfl

theorem addSet_alike {l l' : List String} (h : ∀ x, x ∈ l' ↔ x ∈ l) (y : String) : ∀ x, x ∈ addSet l' y ↔ x ∈ addSet l y := by
  intro x; rw [mem_addSet, mem_addSet, h]

/-- A change of the configuration that is the same in both. -/
theorem Behind.change {k : Nat} {F : Fmt} {st st' : ArgState} (h : Behind k F st st') {u u' : Config} (hu : CfgAlike (u.setFormat F) u') (n : Nat)
    (hp : u.format = st.cfg.format := by rfl) :
    Behind k F { st with cfg := u, pathPos := st.pathPos + n } { st' with cfg := u', pathPos := st'.pathPos + n } :=
  ⟨hu, by show st.pathPos + n = k + (st'.pathPos + n); rw [h.pos]; omega, h.versions, hp.trans h.plain, h.fmt⟩

theorem argStep_behind {env : ArgEnv} {k : Nat} {F : Fmt} {w : String} (hw : MayFollow F w) {st st' : ArgState} (h : Behind k F st st') (n : Option String) :
    StepAlike k F (argStep env w n st) (argStep env w n st') := by
  obtain ⟨he, hx, hr⟩ := h.cfg
  have ht : st'.cfg.targets = st.cfg.targets := by rw [he]; cases F <;> rfl
  unfold argStep
  cases hc : classify w with
  | configFile => exact h.change h.cfg 2
  | switch s b =>
    refine h.change ?_ 1 (by cases s <;> rfl)
    rw [he]
    cases F with
    | default => cases s <;> exact ⟨rfl, hx, hr⟩
    | parsable =>
      have hm := (hw rfl).1
      have hs := classify_switch.mp hc
      cases s <;> first
        | exact ⟨rfl, hx, hr⟩
        | (cases b
           · first | exact ⟨rfl, hx, hr⟩ | exact absurd (.inl (List.mem_singleton.mp hs)) hm
           · first | exact ⟨rfl, hx, hr⟩ | exact absurd (.inr (.inl (List.mem_singleton.mp hs))) hm)
  | verbose =>
    refine h.change ?_ 1
    rw [he]
    cases F with
    | default => exact ⟨rfl, hx, hr⟩
    | parsable =>
      have hm := (hw rfl).1
      have hv : "-v".toList <+: w.toList := classify_word hc
      have : max 3 (w.toList.filter (· == 'v')).length = (w.toList.filter (· == 'v')).length := by
        have : ¬ (w.toList.filter (· == 'v')).length < 3 := fun h' => hm (.inr (.inr ⟨hv, h'⟩))
        omega
      refine ⟨?_, hx, hr⟩
      simp only [Config.setFormat, this]
  | target =>
    dsimp only
    rw [addTarget_text, addTarget_text, ht]
    cases pushAll st.cfg.targets [argValue w] with
    | none => rfl
    | some ts =>
      refine h.change ?_ 1
      rw [he]
      cases F <;> exact ⟨rfl, hx, hr⟩
  | noTarget =>
    refine h.change ?_ 1
    rw [he]
    cases F <;> exact ⟨rfl, hx, hr⟩
  | processes =>
    dsimp only
    cases int (argValue w).toList with
    | none => rfl
    | some n =>
      dsimp only
      by_cases hn : n ≤ 0
      · rw [if_pos hn, if_pos hn]; rfl
      · rw [if_neg hn, if_neg hn]
        refine h.change ?_ 1
        rw [he]
        cases F <;> exact ⟨rfl, hx, hr⟩
  | versions => exact ⟨h.cfg, by show st.pathPos + 1 = k + (st'.pathPos + 1); rw [h.pos]; omega, rfl, h.plain, h.fmt⟩
  | format =>
    dsimp only
    cases n with
    | none => rfl
    | some v =>
      dsimp only
      cases Fmt.fromName (String.ofList (lower v.toList)) with
      | none => rfl
      | some f =>
        have hF : F = .default := by
          cases F with
          | default => rfl
          | parsable =>
            have h1 : w ∈ ["--format", "-f"] := classify_word hc
            refine absurd ?_ (hw rfl).2
            simp only [List.mem_cons, List.not_mem_nil, or_false] at h1 ⊢
            exact h1.symm
        exact ⟨h.cfg, by show st.pathPos + 2 = k + (st'.pathPos + 2); rw [h.pos]; omega, h.versions, h.plain, .inl ⟨rfl, hF⟩⟩
  | exclude =>
    dsimp only
    cases n with
    | none => rfl
    | some v =>
      refine h.change ?_ 2
      rw [he]
      cases F <;> exact ⟨rfl, addSet_alike hx v, hr⟩
  | excludeFile =>
    dsimp only
    cases n with
    | none => rfl
    | some v =>
      dsimp only
      cases env.readLines v with
      | none => exact h.change h.cfg 2
      | some ls =>
        refine h.change ?_ 2 (by rw [addExclusionLines_eq])
        rw [addExclusionLines_eq, addExclusionLines_eq, he]
        have : ∀ x, x ∈ (ls.map fun l => String.ofList (strip l.toList)).foldl addSet st'.cfg.exclusions ↔
            x ∈ (ls.map fun l => String.ofList (strip l.toList)).foldl addSet st.cfg.exclusions := by
          intro x
          rw [mem_foldl_addSet, mem_foldl_addSet, hx]
          cases F <;> exact .rfl
        cases F <;> exact ⟨rfl, this, hr⟩
  | noExclude =>
    refine h.change ?_ 1
    rw [he]
    cases F <;> exact ⟨rfl, fun _ => .rfl, hr⟩
  | excludeRegex =>
    dsimp only
    cases n with
    | none => rfl
    | some v =>
      dsimp only
      by_cases hv : env.validRegex v = true
      · rw [if_pos hv, if_pos hv]
        refine h.change ?_ 2
        rw [he]
        cases F <;> exact ⟨rfl, hx, addSet_alike hr v⟩
      · rw [if_neg hv, if_neg hv]; rfl
  | noExcludeRegex =>
    refine h.change ?_ 1
    rw [he]
    cases F <;> exact ⟨rfl, hx, fun _ => .rfl⟩
  | backport =>
    dsimp only
    cases n with
    | none => rfl
    | some v =>
      dsimp only [Config.addBackport]
      by_cases hv : isBackport v = true
      · rw [if_pos hv, if_pos hv]
        refine h.change ?_ 2
        rw [he]
        cases F <;> exact ⟨rfl, hx, hr⟩
      · rw [if_neg hv, if_neg hv]; rfl
  | noBackport =>
    refine h.change ?_ 1
    rw [he]
    cases F <;> exact ⟨rfl, hx, hr⟩
  | feature =>
    dsimp only
    cases n with
    | none => rfl
    | some v =>
      dsimp only [Config.enableFeature]
      by_cases hv : isFeature v = true
      · rw [if_pos hv, if_pos hv]
        refine h.change ?_ 2
        rw [he]
        cases F <;> exact ⟨rfl, hx, hr⟩
      · rw [if_neg hv, if_neg hv]; rfl
  | noFeature =>
    refine h.change ?_ 1
    rw [he]
    cases F <;> exact ⟨rfl, hx, hr⟩
  | other => exact h

theorem argLoop_behind {env : ArgEnv} {k : Nat} {F : Fmt} : ∀ {rest : List String}, (∀ w ∈ rest, MayFollow F w) → ∀ {st st' : ArgState}, Behind k F st st' →
    StepAlike k F (argLoop env rest st) (argLoop env rest st')
  | [], _, _, _, h => h
  | w :: rest, hw, st, st', h => by
    have := argStep_behind (env := env) (hw w List.mem_cons_self) h rest.head?
    unfold argLoop
    cases h1 : argStep env w rest.head? st with
    | error e =>
      cases h2 : argStep env w rest.head? st' with
      | error e' => rw [h1, h2] at this; exact this
      | ok s' => rw [h1, h2] at this; exact this.elim
    | ok s =>
      cases h2 : argStep env w rest.head? st' with
      | error e' => rw [h1, h2] at this; exact this.elim
      | ok s' =>
        rw [h1, h2] at this
        exact argLoop_behind (fun x hx => hw x (List.mem_cons_of_mem _ hx)) this

/-- Both end alike. -/
def SameParse : Except ArgStop Parsed → Except ArgStop Parsed → Prop
  | .error e, .error e' => e' = e
  | .ok p, .ok p' => p'.paths = p.paths ∧ p'.versions = p.versions ∧ CfgAlike p.cfg p'.cfg
  | _, _ => False

theorem formatted_behind {k : Nat} {F : Fmt} {st st' : ArgState} (h : Behind k F st st') : CfgAlike st.formatted st'.formatted := by
  obtain ⟨he, hx, hr⟩ := h.cfg
  unfold ArgState.formatted
  rcases h.fmt with ⟨h1, rfl⟩ | ⟨h1, h2⟩
  · rw [h1]
    cases hf : st.fmt with
    | none =>
      have : st.cfg.setFormat .default = st.cfg := by
        show { st.cfg with format := .default } = st.cfg
        rw [← h.plain]
      rw [this] at he hx hr
      exact ⟨he, hx, hr⟩
    | some f =>
      dsimp only
      rw [he]
      cases f <;> exact ⟨rfl, hx, hr⟩
  · rw [h1, h2]
    exact h.cfg

theorem argFinish_behind {F : Fmt} {words rest : List String} {st st' : ArgState} (h : Behind words.length F st st') :
    SameParse (argFinish (words ++ rest) st) (argFinish rest st') := by
  obtain ⟨he, hx, hr⟩ := formatted_behind h
  have hd : (words ++ rest).drop st.pathPos = rest.drop st'.pathPos := by
    rw [h.pos, ← List.drop_drop, List.drop_left]
  unfold argFinish
  dsimp only
  rw [hd, h.versions]
  generalize st.formatted = c at *
  generalize st'.formatted = c' at *
  have e1 : c'.onlyShowViolations = c.onlyShowViolations := by rw [he]
  have e2 : c'.targets = c.targets := by rw [he]
  have e3 : c'.verbose = c.verbose := by rw [he]
  have e4 : c'.quiet = c.quiet := by rw [he]
  have e5 : c'.format = c.format := by rw [he]
  rw [e1, e2, e3]
  by_cases h1 : (c.onlyShowViolations && c.targets.isEmpty) = true
  · rw [if_pos h1, if_pos h1]; rfl
  · rw [if_neg h1, if_neg h1]
    by_cases h2 : (c.onlyShowViolations && decide (c.verbose < 2)) = true
    · simp only [if_pos h2, e1, e4, e5]
      split
      · rfl
      · refine ⟨rfl, rfl, ?_, hx, hr⟩
        rw [he]
    · simp only [if_neg h2, e1, e3, e4, e5]
      split
      · rfl
      · exact ⟨rfl, rfl, he, hx, hr⟩

theorem preArgs_words {env : ArgEnv} {rest : List String} : ∀ {ws : List String} {p : PreArgs}, (∀ w ∈ ws, ¬ PreWord w) →
    preArgs env (ws ++ rest) p = preArgs env rest p
  | [], _, _ => rfl
  | w :: ws, p, h => by
    have hw := h w List.mem_cons_self
    simp only [PreWord, List.mem_cons, List.not_mem_nil, or_false, not_or] at hw
    obtain ⟨a, b, c, d, e, f, g⟩ := hw
    rw [List.cons_append, preArgs]
    rw [if_neg (by simp [a, b]), if_neg (by simp [c, d]), if_neg e]
    dsimp only
    rw [if_neg (by simp [f, g])]
    exact preArgs_words fun x hx => h x (List.mem_cons_of_mem _ hx)

theorem preArgs_fixed {env env' : ArgEnv} : ∀ {ws : List String} {p : PreArgs}, (∀ w ∈ ws, w ∉ ["--config-file", "-c", "--no-config-file"]) →
    preArgs env' ws p = preArgs env ws p ∧ ∀ r, preArgs env ws p = .ok r → r = p
  | [], p, _ => ⟨rfl, fun r h => by cases h; rfl⟩
  | w :: ws, p, h => by
    have hw := h w List.mem_cons_self
    simp only [List.mem_cons, List.not_mem_nil, or_false, not_or] at hw
    obtain ⟨a, b, c⟩ := hw
    unfold preArgs
    by_cases h1 : w ∈ ["--help", "-h"]
    · rw [if_pos h1, if_pos h1]; exact ⟨rfl, nofun⟩
    · rw [if_neg h1, if_neg h1]
      by_cases h2 : w ∈ ["--version", "-V"]
      · rw [if_pos h2, if_pos h2]; exact ⟨rfl, nofun⟩
      · rw [if_neg h2, if_neg h2, if_neg c]
        dsimp only
        rw [if_neg (by simp [a, b]), if_neg (by simp [a, b])]
        exact preArgs_fixed fun x hx => h x (List.mem_cons_of_mem _ hx)

theorem onLine_preWord {s : Setting} {ws : List String} (h : OnLine s ws) : ∀ w ∈ ws, ¬ PreWord w := by
  have hdash : ∀ {x : String}, Dashless x → ¬ PreWord x := by
    intro x hx hp
    simp only [PreWord, List.mem_cons, List.not_mem_nil, or_false] at hp
    rcases hp with rfl | rfl | rfl | rfl | rfl | rfl | rfl <;> exact hx (by decide)
  have hpre : ∀ {p w : String}, p.toList <+: w.toList → (∀ x ∈ ["--help", "-h", "--version", "-V", "--no-config-file", "--config-file", "-c"], ¬ p.toList <+: x.toList) → ¬ PreWord w :=
    fun h1 h2 h3 => h2 _ h3 h1
  have happ : ∀ {o v : String}, (o ++ "=").toList <+: (o ++ "=" ++ v).toList := by
    intro o v; rw [String.toList_append (s := o ++ "=")]; exact ⟨_, rfl⟩
  have hname : ∀ {x : String}, x ∉ ["--help", "-h", "--version", "-V", "--no-config-file", "--config-file", "-c"] → ¬ PreWord x := id
  cases h with
  | @switch s b w hw =>
    intro x hx
    rw [List.mem_singleton.mp hx]
    have : ∀ s b, ∀ w ∈ switchNames s b, ¬ w ∈ ["--help", "-h", "--version", "-V", "--no-config-file", "--config-file", "-c"] := by
      intro s b; cases s <;> cases b <;> decide
    exact this s b w hw
  | @verbosity n hn =>
    intro x hx
    rw [List.mem_singleton.mp hx]
    refine hpre (p := "-v") ?_ (by decide)
    rw [String.toList_ofList (l := '-' :: List.replicate n 'v')]
    cases n with
    | zero => omega
    | succ n => exact ⟨List.replicate n 'v', rfl⟩
  | @processes o v n ho =>
    intro x hx
    rw [List.mem_singleton.mp hx]
    rcases List.mem_cons.mp ho with rfl | ho
    · exact hpre happ (by decide)
    · rw [List.mem_singleton.mp ho]; exact hpre happ (by decide)
  | @target o v ho =>
    intro x hx
    rw [List.mem_singleton.mp hx]
    rcases List.mem_cons.mp ho with rfl | ho
    · exact hpre happ (by decide)
    · rw [List.mem_singleton.mp ho]; exact hpre happ (by decide)
  | exclusion hd | regex hd | backport hd | feature hd =>
    intro x hx
    rcases List.mem_cons.mp hx with rfl | hx
    · exact hname (by decide)
    · rw [List.mem_singleton.mp hx]; exact hdash hd
  | @format o v f ho hf hd =>
    intro x hx
    rcases List.mem_cons.mp hx with rfl | hx
    · rcases List.mem_cons.mp ho with rfl | ho
      · exact hname (by decide)
      · rw [List.mem_singleton.mp ho]; exact hname (by decide)
    · rw [List.mem_singleton.mp hx]; exact hdash hd

theorem onLineAll_preWord : ∀ {ss : List Setting} {ws : List String}, OnLineAll ss ws → ∀ w ∈ ws, ¬ PreWord w
  | _, _, .nil, w, h => absurd h List.not_mem_nil
  | _, _, .cons h hs, w, hw => (List.mem_append.mp hw).elim (onLine_preWord h w) (onLineAll_preWord hs w)

theorem argLoop_env {env env' : ArgEnv} (he : env' = { env with detected := env'.detected, parseFile := env'.parseFile }) :
    ∀ (args : List String) (st : ArgState), argLoop env' args st = argLoop env args st
  | [], _ => rfl
  | w :: rest, st => by
    have : argStep env' w rest.head? st = argStep env w rest.head? st := by rw [he]; rfl
    unfold argLoop
    rw [this]
    cases argStep env w rest.head? st with
    | error e => rfl
    | ok st' => exact argLoop_env he rest st'

theorem override_alike (c : Config) (F : Fmt) (d : Config) : CfgAlike (c.setFormat F) (d.overrideFrom (c.setFormat F)) := by
  have hs : ∀ (l : List String) x, x ∈ sort leStr l ↔ x ∈ l := fun l x => mem_sort
  cases F with
  | default => exact ⟨rfl, hs _, hs _⟩
  | parsable =>
    refine ⟨?_, hs _, hs _⟩
    simp only [Config.overrideFrom, Config.setFormat]
    congr 1
    omega

theorem toldAll_format (cpus : Nat) {c c' : Config} {ss : List Setting} (h : toldAll cpus c ss = some c') : c'.format = c.format := by
  rw [toldAll_eq] at h
  split at h
  · cases hp : pushAll c.targets (ss.filterMap Setting.target?) with
    | none => rw [hp] at h; cases h
    | some ts => rw [hp] at h; cases h; rfl
  · cases h

/-- **C103.** Settings in a config file and the same settings at the beginning of the command line: parsing the arguments ends alike, either
with the same error, or with the same paths and the same configuration, but for the order of exclusions.  If the format is `parsable`, the rest
must not undo what it implies (C53), nor change the format. -/
theorem C103_parse {env env' : ArgEnv} (he : env' = { env with detected := env'.detected, parseFile := env'.parseFile })
    (h0 : env.detected = .ok none) {q : String} (hq : q ≠ "") (h1 : env'.detected = .ok (some q)) {i : Ini}
    (hp : env'.parseFile q = parseFile env.cpus env.validRegex (some i)) {d : Dict String IniVal} (hd : i.sect = some d) {ss : List Setting}
    (hw : Writes i d ss) {words : List String} (hl : OnLineAll ss words) (hr : ∀ x, .regex x ∈ ss → env.validRegex x = true)
    {rest : List String} (hne : rest ≠ []) (hn : ∀ w ∈ rest, w ∉ ["--config-file", "-c", "--no-config-file"])
    (hf : ∀ w ∈ rest, MayFollow ((lastOf Setting.format? ss).getD .default) w) :
    SameParse (parseArgs env (words ++ rest) (Config.init env.cpus)) (parseArgs env' rest (Config.init env.cpus)) := by
  unfold parseArgs
  rw [h0, h1, preArgs_words (onLineAll_preWord hl), (preArgs_fixed (env := env) (env' := env') hn).1]
  rw [if_neg (by simpa using fun _ => hne), if_neg (by simpa using hne)]
  dsimp only
  cases hpre : preArgs env rest { noConfig := false, argConfig := none } with
  | error e => rfl
  | ok r =>
    rw [(preArgs_fixed (env := env) (env' := env) hn).2 r hpre]
    have hq' : (some q).filter (· ≠ "") = some q := by simp [Option.filter, hq]
    simp only [Bool.false_and, Bool.false_eq_true, if_false, Option.filter_none, hq']
    rw [hp, parseFile_writes hd hw hr, argLoop_lineAll rest hl hr]
    dsimp only
    cases ht : toldAll env.cpus (Config.init env.cpus) ss with
    | none => rfl
    | some c =>
      dsimp only [Option.map_some]
      rw [argLoop_env he]
      have hb : Behind words.length ((lastOf Setting.format? ss).getD .default)
          { cfg := c, pathPos := 0 + words.length, versions := false, fmt := (lastOf Setting.format? ss).or none }
          { cfg := (Config.init env.cpus).overrideFrom (c.setFormat ((lastOf Setting.format? ss).getD .default)), pathPos := 0, versions := false, fmt := none } := by
        refine ⟨override_alike _ _ _, by simp, rfl, toldAll_format _ ht, ?_⟩
        cases lastOf Setting.format? ss with
        | none => exact .inl ⟨rfl, rfl⟩
        | some f => exact .inr ⟨rfl, rfl⟩
      have := argLoop_behind (env := env) hf hb
      revert this
      generalize argLoop env rest { cfg := c, pathPos := 0 + words.length, versions := false, fmt := (lastOf Setting.format? ss).or none } = x
      generalize argLoop env rest _ = y
      intro this
      cases x with
      | error e =>
        cases y with
        | error e' => exact this
        | ok st' => exact this.elim
      | ok st =>
        cases y with
        | error e' => exact this.elim
        | ok st' => exact argFinish_behind this

/-- **C103.** The runs are the same: a file with settings in a `[vermin]` section has the effect of giving the same settings first on the command line. -/
theorem C103_program {w w' : World} (hww : w' = { w with args := w'.args })
    (he : w'.args = { w.args with detected := w'.args.detected, parseFile := w'.args.parseFile })
    (h0 : w.args.detected = .ok none) {q : String} (hq : q ≠ "") (h1 : w'.args.detected = .ok (some q)) {i : Ini}
    (hp : w'.args.parseFile q = parseFile w.args.cpus w.args.validRegex (some i)) {d : Dict String IniVal} (hd : i.sect = some d) {ss : List Setting}
    (hw : Writes i d ss) {words : List String} (hl : OnLineAll ss words) (hr : ∀ x, .regex x ∈ ss → w.args.validRegex x = true)
    {rest : List String} (hne : rest ≠ []) (hn : ∀ x ∈ rest, x ∉ ["--config-file", "-c", "--no-config-file"])
    (hf : ∀ x ∈ rest, MayFollow ((lastOf Setting.format? ss).getD .default) x) :
    program w' rest = program w (words ++ rest) := by
  have key := C103_parse he h0 hq h1 hp hd hw hl hr hne hn hf
  have hc : w'.args.cpus = w.args.cpus := by rw [he]
  cases h2 : parseArgs w.args (words ++ rest) (Config.init w.args.cpus) with
  | error e =>
    cases h3 : parseArgs w'.args rest (Config.init w.args.cpus) with
    | error e' =>
      rw [h2, h3] at key
      have key : e' = e := key
      unfold program
      rw [h2, hc, h3, key]
    | ok p' => rw [h2, h3] at key; exact key.elim
  | ok p =>
    cases h3 : parseArgs w'.args rest (Config.init w.args.cpus) with
    | error e' => rw [h2, h3] at key; exact key.elim
    | ok p' =>
      rw [h2, h3] at key
      obtain ⟨k1, k2, k3, k4, k5⟩ : p'.paths = p.paths ∧ p'.versions = p.versions ∧ CfgAlike p.cfg p'.cfg := key
      refine (C96_program hww h2 (by rw [hc]; exact h3) ?_ ?_ k1 k2 (by rw [k3]) (.inl (by rw [k3]))).2 ?_ (by rw [k3])
      · constructor
        all_goals first | exact k4 | (rw [k3]; done) | (rw [k3]; exact fun _ => .rfl)
      · exact ⟨by rw [k3], k5, by rw [k3], by rw [k3], by rw [k3]⟩
      · exact ⟨by rw [k3], fun _ => by rw [k3]⟩

/-- A value that can stand on a line of its own: not empty, without ends of lines, and without white space at its ends. -/
def LineValue (x : String) : Prop :=
  x ≠ "" ∧ (∀ c ∈ x.toList, ¬ LineEnd c) ∧ (∀ c, x.toList.head? = some c → ¬ Space c) ∧ ∀ c, x.toList.getLast? = some c → ¬ Space c

theorem lines_joined : ∀ l : List (List Char), (∀ x ∈ l, x ≠ [] ∧ ∀ c ∈ x, ¬ LineEnd c) → splitlines (join ['\n'] l) = l
  | [], _ => rfl
  | [x], h => by
    obtain ⟨h1, h2⟩ := h x (List.mem_singleton.mpr rfl)
    rw [C95_lines]
    exact .last h1 h2
  | x :: y :: l, h => by
    rw [C95_lines]
    rw [show join ['\n'] (x :: y :: l) = x ++ '\n' :: join ['\n'] (y :: l) by simp [join]]
    exact .one (h x (List.mem_cons_self ..)).2 ((lineEnd_iff _).mp (by decide)) (fun h => absurd h.1 (by decide))
      ((C95_lines _ _).mp (lines_joined (y :: l) fun z hz => h z (List.mem_cons_of_mem _ hz)))

theorem joined_head (c : Char) : ∀ (l : List (List Char)), (∀ x ∈ l, x ≠ []) → (join ['\n'] l).head? = some c → ∃ x ∈ l, x.head? = some c
  | [], _, h => nomatch h
  | [x], _, h => ⟨x, List.mem_singleton.mpr rfl, h⟩
  | x :: y :: l, hl, h => by
    refine ⟨x, List.mem_cons_self .., ?_⟩
    rw [show join ['\n'] (x :: y :: l) = x ++ '\n' :: join ['\n'] (y :: l) by simp [join]] at h
    cases x with
    | nil => exact absurd rfl (hl [] (List.mem_cons_self ..))
    | cons a x => exact h

theorem joined_last (c : Char) : ∀ (l : List (List Char)), (∀ x ∈ l, x ≠ []) → (join ['\n'] l).getLast? = some c → ∃ x ∈ l, x.getLast? = some c
  | [], _, h => nomatch h
  | [x], _, h => ⟨x, List.mem_singleton.mpr rfl, h⟩
  | x :: y :: l, hl, h => by
    have hne : join ['\n'] (y :: l) ≠ [] := by
      have hy := hl y (List.mem_cons_of_mem _ (List.mem_cons_self ..))
      cases l with
      | nil => exact hy
      | cons z l => simp [join]
    rw [show join ['\n'] (x :: y :: l) = (x ++ ['\n']) ++ join ['\n'] (y :: l) by simp [join], List.getLast?_append, List.getLast?_eq_some_getLast hne, Option.some_or, ← List.getLast?_eq_some_getLast hne] at h
    obtain ⟨z, hz, h⟩ := joined_last c (y :: l) (fun z hz => hl z (List.mem_cons_of_mem _ hz)) h
    exact ⟨z, List.mem_cons_of_mem _ hz, h⟩

/-- **C103 (lists).** Values written one per line, as the code writes its defaults, are read again. -/
theorem C103_listed (l : List String) (h : ∀ x ∈ l, LineValue x) : (splitlines (strip (encodeList l).toList)).map String.ofList = l := by
  unfold encodeList
  rw [String.toList_ofList]
  have hne : ∀ x ∈ l.map String.toList, x ≠ [] := fun x hx => by
    obtain ⟨y, hy, rfl⟩ := List.mem_map.mp hx
    exact fun e => (h y hy).1 (String.toList_inj.mp e)
  have hs : strip (join ['\n'] (l.map String.toList)) = join ['\n'] (l.map String.toList) := by
    rw [C95_strip]
    refine ⟨⟨[], [], by simp, nofun, nofun⟩, fun c hc => ?_, fun c hc => ?_⟩
    · obtain ⟨x, hx, hc⟩ := joined_head c _ hne hc
      obtain ⟨y, hy, rfl⟩ := List.mem_map.mp hx
      exact (h y hy).2.2.1 c hc
    · obtain ⟨x, hx, hc⟩ := joined_last c _ hne hc
      obtain ⟨y, hy, rfl⟩ := List.mem_map.mp hx
      exact (h y hy).2.2.2 c hc
  rw [hs, lines_joined _ fun x hx => ⟨hne x hx, by
    obtain ⟨y, hy, rfl⟩ := List.mem_map.mp hx
    exact (h y hy).2.1⟩, List.map_map]
  exact List.map_id' l |> fun e => by
    conv => rhs; rw [← e]
    exact List.map_congr_left fun x _ => String.ofList_toList

/-- `show_tips = no`, `verbose = 2`, `targets = 3.0-` and two exclusions, out of order -/
def configuredIni : Ini :=
  { dflt := [], sect := some [("show_tips", .text "no"), ("verbose", .text "2"), ("targets", .text "3.0-"), ("exclusions", .text "os.path\nast")] }

def configuredSettings : List Setting :=
  [.switch .tips true, .exclusion "os.path", .verbosity 2, .target "3.0-", .exclusion "ast", .switch .tips false]

/-- The world in which that file is found. -/
def configuredWorld : World :=
  { exampleWorld with args := { plainEnv with detected := .ok (some "/w/vermin.ini"), parseFile := fun _ => parseFile 4 (fun _ => true) (some configuredIni) } }

theorem configured_writes : Writes configuredIni [("show_tips", .text "no"), ("verbose", .text "2"), ("targets", .text "3.0-"), ("exclusions", .text "os.path\nast")]
    configuredSettings := by
  have hs : ∀ opt, opt ∉ ["show_tips", "verbose", "targets", "exclusions"] →
      Silent configuredIni [("show_tips", .text "no"), ("verbose", .text "2"), ("targets", .text "3.0-"), ("exclusions", .text "os.path\nast")] opt := by
    intro opt h
    simp only [List.mem_cons, List.not_mem_nil, or_false, not_or] at h
    simp [Silent, configuredIni, h]
  constructor
  · intro s
    cases s
    case tips => exact ⟨"no", .inl ⟨List.mem_cons_self, by rfl⟩, .inr ⟨rfl, by decide +kernel⟩⟩
    all_goals exact hs _ (by decide)
  · exact ⟨"2", .inl ⟨by simp, by rfl⟩, int_iff.mp (by decide +kernel)⟩
  · exact hs _ (by decide)
  · exact .inr ⟨"os.path\nast", .inl ⟨by simp, by rfl⟩, by decide +kernel⟩
  · exact .inl ⟨rfl, hs _ (by decide)⟩
  · exact .inl ⟨rfl, hs _ (by decide)⟩
  · exact .inl ⟨rfl, hs _ (by decide)⟩
  · exact .inr ⟨"3.0-", .inl ⟨by simp, by rfl⟩, by decide +kernel⟩
  · exact hs _ (by decide)

theorem configured_words : OnLineAll configuredSettings ["--show-tips", "--exclude", "os.path", "-vv", "-t=3.0-", "--exclude", "ast", "--no-tips"] :=
  .cons (.switch (by decide)) <| .cons (.exclusion (by unfold Dashless; decide)) <| .cons (.verbosity (n := 2) (by decide)) <|
    .cons (.target (o := "-t") (x := "3.0-") (by decide) (by decide)) <| .cons (.exclusion (by unfold Dashless; decide)) <| .cons (.switch (by decide)) .nil

/-- The theorem applies: the file against the same on the command line, each followed by `--hidden a.py` -/
theorem C103_witness : program configuredWorld ["--hidden", "a.py"] =
    program exampleWorld ["--show-tips", "--exclude", "os.path", "-vv", "-t=3.0-", "--exclude", "ast", "--no-tips", "--hidden", "a.py"] ∧
    (parseArgs configuredWorld.args ["--hidden", "a.py"] (Config.init 4)).toOption.map (fun p => (p.paths, p.cfg.exclusions, p.cfg.verbose)) =
      some (["a.py"], ["ast", "os.path"], 2) :=
  ⟨C103_program (w := exampleWorld) (w' := configuredWorld) rfl rfl rfl (by decide) rfl rfl rfl configured_writes configured_words (fun _ _ => rfl)
    (by decide) (by decide) (fun _ _ h => nomatch h), by decide +kernel⟩

/-- With the format `parsable`, the condition on the rest is needed: in a file, it comes before `--no-ignore`; on the command line, it has the last word. -/
theorem C103_parsable : ∃ p p', parseArgs plainEnv ["--format", "parsable", "--no-ignore", "a.py"] (Config.init 4) = .ok p ∧
    parseArgs parsableEnv ["--no-ignore", "a.py"] (Config.init 4) = .ok p' ∧
    OnLineAll [.format .parsable] ["--format", "parsable"] ∧ p.cfg.ignoreIncomp = true ∧ p'.cfg.ignoreIncomp = false := by
  refine ⟨_, _, rfl, rfl, .cons (.format (o := "--format") (v := "parsable") (by decide) (by decide +kernel) (by unfold Dashless; decide)) .nil, by decide +kernel, by decide +kernel⟩

end Vermin.Props
