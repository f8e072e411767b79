import Verif.Model.Arguments
import Verif.Props.ConfigFile
/-
C50-C53: the command line.
-/
namespace Vermin.Props
open Vermin Vermin.Py Vermin.Spec

/-! ### Specification: the words of the command line -/

/-- The word that turns a switch on or off. -/
def switchNames : Switch → Bool → List String
  | .quiet, true => ["--quiet", "-q"]
  | .quiet, false => ["--no-quiet"]
  | .dump, true => ["--dump", "-d"]
  | .dump, false => ["--no-dump"]
  | .hidden, true => ["--hidden"]
  | .hidden, false => ["--no-hidden"]
  | .ignore, true => ["--ignore", "-i"]
  | .ignore, false => ["--no-ignore"]
  | .tips, true => ["--show-tips"]
  | .tips, false => ["--no-tips"]
  | .absolute, true => ["--make-paths-absolute"]
  | .absolute, false => ["--no-make-paths-absolute"]
  | .pessimistic, true => ["--pessimistic"]
  | .pessimistic, false => ["--no-pessimistic"]
  | .evalAnnotations, true => ["--eval-annotations"]
  | .evalAnnotations, false => ["--no-eval-annotations"]
  | .violations, true => ["--violations", "--lint"]
  | .violations, false => ["--no-violations", "--no-lint"]
  | .comments, true => ["--parse-comments"]
  | .comments, false => ["--no-parse-comments"]
  | .symlinks, true => ["--scan-symlink-folders"]
  | .symlinks, false => ["--no-symlink-folders"]

/-- Options without value that are no switches. -/
def plainNames : List String :=
  ["--no-target", "--versions", "--no-exclude", "--no-exclude-regex", "--no-backport", "--no-feature"]

/-- Options followed by a value. -/
def valueNames : List String :=
  ["--config-file", "-c", "--format", "-f", "--exclude", "--exclude-file", "--exclude-regex", "--backport", "--feature"]

/-- Options that are recognised by how they begin. -/
def optionPrefixes : List String := ["-v", "-t=", "--target=", "-p=", "--processes="]

/-- A word that is an option on its own. -/
def IsFlag (w : String) : Prop :=
  (∃ s b, w ∈ switchNames s b) ∨ w ∈ plainNames ∨ ∃ p ∈ optionPrefixes, p.toList <+: w.toList

/-- A word that needs a value after it. -/
def IsValueOpt (w : String) : Prop := w ∈ valueNames

/-- A word that is no option. -/
def Inert (w : String) : Prop := ¬ IsFlag w ∧ ¬ IsValueOpt w

/-- The result of a switch: decided by the last of its words, otherwise as before. -/
def LastSays (on off : List String) (args : List String) (before after : Bool) : Prop :=
  (∃ pre a post, args = pre ++ a :: post ∧ (∀ x ∈ post, x ∉ on ∧ x ∉ off) ∧
    ((a ∈ on ∧ after = true) ∨ (a ∈ off ∧ after = false))) ∨
  ((∀ x ∈ args, x ∉ on ∧ x ∉ off) ∧ after = before)

/-- Which config file is used: the one named last on the command line; otherwise none if `--no-config-file` occurs;
otherwise the detected one. -/
def FileChoice (env : ArgEnv) (args : List String) (r : Option String) : Prop :=
  (∃ pre o v post, args = pre ++ o :: v :: post ∧ o ∈ ["--config-file", "-c"] ∧
    (∀ x ∈ v :: post, x ∉ ["--config-file", "-c"]) ∧ r = some (env.abspath v) ∧ "--no-config-file" ∉ args) ∨
  ((∀ x ∈ args, x ∉ ["--config-file", "-c"]) ∧ "--no-config-file" ∈ args ∧ r = none) ∨
  ((∀ x ∈ args, x ∉ ["--config-file", "-c"]) ∧ "--no-config-file" ∉ args ∧ env.detected = .ok r)

/-- The settings the command line starts from. -/
def StartConfig (env : ArgEnv) (args : List String) (config c0 : Config) : Prop :=
  ∃ r, FileChoice env args r ∧ match r with
    | none => c0 = config
    | some p => ∃ f, env.parseFile p = some f ∧ c0 = config.overrideFrom f

/-! ### Recognition of words -/

/-- What each branch of the chain stands for. -/
def CmdWord (w : String) : Cmd → Prop
  | .configFile => w ∈ ["--config-file", "-c"]
  | .switch s b => w ∈ switchNames s b
  | .verbose => "-v".toList <+: w.toList
  | .target => "-t=".toList <+: w.toList ∨ "--target=".toList <+: w.toList
  | .noTarget => w = "--no-target"
  | .processes => "-p=".toList <+: w.toList ∨ "--processes=".toList <+: w.toList
  | .versions => w = "--versions"
  | .format => w ∈ ["--format", "-f"]
  | .exclude => w = "--exclude"
  | .excludeFile => w = "--exclude-file"
  | .noExclude => w = "--no-exclude"
  | .excludeRegex => w = "--exclude-regex"
  | .noExcludeRegex => w = "--no-exclude-regex"
  | .backport => w = "--backport"
  | .noBackport => w = "--no-backport"
  | .feature => w = "--feature"
  | .noFeature => w = "--no-feature"
  | .other => Inert w

theorem startsWith_iff {p w : List Char} : startsWith p w = true ↔ p <+: w := by simp [startsWith]

theorem cmdWord_ite {P : Prop} [Decidable P] {w : String} {a b : Cmd} (h1 : P → CmdWord w a) (h2 : ¬ P → CmdWord w b) :
    CmdWord w (if P then a else b) := by
  by_cases h : P
  · rw [if_pos h]; exact h1 h
  · rw [if_neg h]; exact h2 h

theorem classify_spec (w : String) : CmdWord w (classify w) := by
  unfold classify
  repeat
    refine cmdWord_ite (fun hw => ?_) (fun hw => ?_)
    · first
        | exact hw
        | (subst hw; exact List.mem_singleton.mpr rfl)
        | exact startsWith_iff.mp hw
        | (rw [Bool.or_eq_true, startsWith_iff, startsWith_iff] at hw; exact hw)
  simp only [startsWith_iff, Bool.or_eq_true, List.mem_cons, List.not_mem_nil, or_false] at *
  refine ⟨?_, ?_⟩
  · rintro (⟨s, b, h⟩ | h | ⟨p, hp, h⟩)
    · cases s <;> cases b <;> simp only [switchNames, List.mem_cons, List.not_mem_nil, or_false] at h <;> contradiction
    · simp only [plainNames, List.mem_cons, List.not_mem_nil, or_false] at h
      rcases h with h | h | h | h | h | h <;> contradiction
    · simp only [optionPrefixes, List.mem_cons, List.not_mem_nil, or_false] at hp
      rcases hp with rfl | rfl | rfl | rfl | rfl <;> simp_all
  · intro h
    simp only [IsValueOpt, valueNames, List.mem_cons, List.not_mem_nil, or_false] at h
    simp_all

theorem classify_of_switch {w : String} {s : Switch} {b : Bool} (h : w ∈ switchNames s b) : classify w = .switch s b := by
  cases s <;> cases b <;> simp only [switchNames, List.mem_cons, List.not_mem_nil, or_false] at h <;>
    (try rcases h with rfl | rfl) <;> (try subst h) <;> decide +kernel

theorem classify_switch {w : String} {s : Switch} {b : Bool} : classify w = .switch s b ↔ w ∈ switchNames s b := by
  refine ⟨fun h => ?_, classify_of_switch⟩
  have := classify_spec w
  rw [h] at this
  exact this

/-! ### The parts of parsing -/

/-- Environments in which no path is empty: `abspath` and the detected file. -/
structure RealPaths (env : ArgEnv) : Prop where
  abspath : ∀ s, env.abspath s ≠ ""
  detected : env.detected ≠ .ok (some "")

theorem preArgs_spec {env : ArgEnv} : ∀ {args : List String} {p p' : PreArgs}, preArgs env args p = .ok p' →
    p'.noConfig = (p.noConfig || args.contains "--no-config-file") ∧
    ((∃ pre o v post, args = pre ++ o :: v :: post ∧ o ∈ ["--config-file", "-c"] ∧
      (∀ x ∈ v :: post, x ∉ ["--config-file", "-c"]) ∧ p'.argConfig = some (env.abspath v)) ∨
     ((∀ x ∈ args, x ∉ ["--config-file", "-c"]) ∧ p'.argConfig = p.argConfig))
  | [], p, p', h => by
    cases h
    exact ⟨by simp, .inr ⟨by simp, rfl⟩⟩
  | a :: rest, p, p', h => by
    unfold preArgs at h
    split at h
    · cases h
    split at h
    · cases h
    simp only at h
    generalize hq : (if a = "--no-config-file" then { p with noConfig := true } else p) = q at h
    have hqn : q.noConfig = (p.noConfig || a == "--no-config-file") := by
      rw [← hq]; by_cases ha : a = "--no-config-file" <;> simp [ha]
    have hqa : q.argConfig = p.argConfig := by
      rw [← hq]; by_cases ha : a = "--no-config-file" <;> simp [ha]
    split at h
    · rename_i hc
      cases hr : rest.head? with
      | none => rw [hr] at h; cases h
      | some v =>
        rw [hr] at h
        obtain ⟨h1, h2⟩ := preArgs_spec h
        refine ⟨?_, .inl ?_⟩
        · rw [h1]; simp only [hqn, List.contains_cons]
          rw [BEq.comm (a := a)]; exact Bool.or_assoc _ _ _
        · rcases h2 with ⟨pre, o, v', post, he, ho, hx, hv⟩ | ⟨hx, hv⟩
          · exact ⟨a :: pre, o, v', post, by rw [he]; rfl, ho, hx, hv⟩
          · cases rest with
            | nil => cases hr
            | cons r rest =>
              simp only [List.head?_cons, Option.some.injEq] at hr
              subst hr
              exact ⟨[], a, r, rest, rfl, hc, hx, hv⟩
    · rename_i hc
      obtain ⟨h1, h2⟩ := preArgs_spec h
      refine ⟨?_, ?_⟩
      · rw [h1, hqn]; simp only [List.contains_cons]
        rw [BEq.comm (a := a)]; exact Bool.or_assoc _ _ _
      · rcases h2 with ⟨pre, o, v', post, he, ho, hx, hv⟩ | ⟨hx, hv⟩
        · exact .inl ⟨a :: pre, o, v', post, by rw [he]; rfl, ho, hx, hv⟩
        · refine .inr ⟨?_, by rw [hv, hqa]⟩
          intro x hxm
          rcases List.mem_cons.mp hxm with rfl | hxm
          · exact hc
          · exact hx x hxm

theorem parse_inv {env : ArgEnv} (he : RealPaths env) {args : List String} {config : Config} {p : Parsed}
    (h : parseArgs env args config = .ok p) :
    ∃ c0 st, StartConfig env args config c0 ∧
      argLoop env args { cfg := c0, pathPos := 0, versions := false, fmt := none } = .ok st ∧ argFinish args st = .ok p := by
  unfold parseArgs at h
  split at h
  · cases h
  split at h
  · cases h
  rename_i detected hd
  split at h
  · cases h
  rename_i pre hpre
  simp only at h
  obtain ⟨hn, ha⟩ := preArgs_spec hpre
  simp only [Bool.false_or] at hn
  have hdet : detected.filter (· ≠ "") = detected := by
    cases detected with
    | none => rfl
    | some d =>
      have : d ≠ "" := fun h0 => he.detected (by rw [hd, h0])
      simp [Option.filter, this]
  have finish : ∀ c0 : Config, StartConfig env args config c0 →
      (match argLoop env args { cfg := c0, pathPos := 0, versions := false, fmt := none } with
        | .error e => .error e
        | .ok st => argFinish args st) = (Except.ok p : Except ArgStop Parsed) →
      ∃ c0 st, StartConfig env args config c0 ∧
        argLoop env args { cfg := c0, pathPos := 0, versions := false, fmt := none } = .ok st ∧ argFinish args st = .ok p := by
    intro c0 hs hl
    cases hc : argLoop env args { cfg := c0, pathPos := 0, versions := false, fmt := none } with
    | error e => rw [hc] at hl; cases hl
    | ok st => rw [hc] at hl; exact ⟨c0, st, hs, hc, hl⟩
  rcases ha with ⟨pr, o, v, post, hargs, ho, hx, hv⟩ | ⟨hx, hv⟩
  · rw [hv] at h
    have : (some (env.abspath v)).filter (· ≠ "") = some (env.abspath v) := by
      simp [Option.filter, he.abspath v]
    simp only [this] at h
    split at h
    · cases h
    rename_i hnc
    split at h
    · cases h
    rename_i f hf
    refine finish _ ⟨some (env.abspath v), .inl ⟨pr, o, v, post, hargs, ho, hx, rfl, ?_⟩, f, hf, rfl⟩ h
    intro hm
    rw [hn] at hnc
    simp [hm] at hnc
  · simp only at hv
    rw [hv] at h
    simp only [Option.filter_none, Option.isSome_none, Bool.and_false, Bool.false_eq_true, if_false] at h
    by_cases hm : "--no-config-file" ∈ args
    · have : pre.noConfig = true := by rw [hn]; simp [hm]
      simp only [this, if_true, Option.filter_none] at h
      exact finish _ ⟨none, .inr (.inl ⟨hx, hm, rfl⟩), rfl⟩ h
    · have : pre.noConfig = false := by rw [hn]; simp [hm]
      simp only [this, Bool.false_eq_true, if_false, hdet] at h
      split at h
      · exact finish _ ⟨none, .inr (.inr ⟨hx, hm, hd⟩), rfl⟩ h
      · rename_i q
        split at h
        · cases h
        rename_i f hf
        exact finish _ ⟨some q, .inr (.inr ⟨hx, hm, hd⟩), f, hf, rfl⟩ h

/-! ### C50: paths -/

/-- How many words an option takes. -/
def cmdWidth : Cmd → Nat
  | .other => 0
  | .configFile | .format | .exclude | .excludeFile | .excludeRegex | .backport | .feature => 2
  | _ => 1

theorem argStep_pathPos {env : ArgEnv} {a : String} {n : Option String} {st st' : ArgState}
    (h : argStep env a n st = .ok st') : st'.pathPos = st.pathPos + cmdWidth (classify a) := by
  unfold argStep at h
  split at h <;> rename_i hc <;> rw [hc]
  all_goals (repeat' split at h)
  all_goals first
    | (cases h; done)
    | (cases h; rfl)

theorem argLoop_pathPos {env : ArgEnv} : ∀ {args : List String} {st st' : ArgState}, argLoop env args st = .ok st' →
    st'.pathPos = st.pathPos + (args.map fun a => cmdWidth (classify a)).sum
  | [], st, st', h => by cases h; simp
  | a :: rest, st, st', h => by
    unfold argLoop at h
    split at h
    · cases h
    rename_i st1 h1
    rw [argLoop_pathPos h, argStep_pathPos h1]
    simp; omega

/-- An option as it should be used: alone, or with a value that is no option itself. -/
inductive Opt where
  | flag (w : String)
  | value (w v : String)
  /-- `--no-config-file` -/
  | noConfig
  deriving DecidableEq

def Opt.Ok : Opt → Prop
  | .flag w => IsFlag w
  | .value w v => IsValueOpt w ∧ Inert v
  | .noConfig => True

/-- The words of an option. -/
def Opt.words : Opt → List String
  | .flag w => [w]
  | .value w v => [w, v]
  | .noConfig => ["--no-config-file"]

theorem inert_width {w : String} (h : Inert w) : cmdWidth (classify w) = 0 := by
  have hs := classify_spec w
  obtain ⟨h1, h2⟩ := h
  cases hc : classify w <;> rw [hc] at hs <;> simp only [CmdWord] at hs
  case other => rfl
  all_goals exfalso
  case switch s b => exact h1 (.inl ⟨s, b, hs⟩)
  case verbose => exact h1 (.inr (.inr ⟨_, by simp [optionPrefixes], hs⟩))
  case target =>
    rcases hs with hs | hs <;> exact h1 (.inr (.inr ⟨_, by simp [optionPrefixes], hs⟩))
  case processes =>
    rcases hs with hs | hs <;> exact h1 (.inr (.inr ⟨_, by simp [optionPrefixes], hs⟩))
  all_goals first
    | (refine h1 (.inr (.inl ?_)); simp [plainNames, hs]; done)
    | (refine h2 ?_; simp [IsValueOpt, valueNames, hs]; done)
    | (refine h2 ?_
       simp only [List.mem_cons, List.not_mem_nil, or_false] at hs
       rcases hs with rfl | rfl <;> simp [IsValueOpt, valueNames]; done)

theorem value_width {w : String} (h : IsValueOpt w) : cmdWidth (classify w) = 2 := by
  simp only [IsValueOpt, valueNames, List.mem_cons, List.not_mem_nil, or_false] at h
  rcases h with rfl | rfl | rfl | rfl | rfl | rfl | rfl | rfl | rfl <;> decide +kernel

theorem flag_width {w : String} (h : IsFlag w) : cmdWidth (classify w) = 1 := by
  rcases h with ⟨s, b, h⟩ | h | ⟨p, hp, h⟩
  · rw [classify_of_switch h]; rfl
  · simp only [plainNames, List.mem_cons, List.not_mem_nil, or_false] at h
    rcases h with rfl | rfl | rfl | rfl | rfl | rfl <;> decide +kernel
  · have hs := classify_spec w
    have key : ∀ p ∈ optionPrefixes, ∀ x ∈ valueNames, ¬ p.toList <+: x.toList := by decide +kernel
    have bad : ∀ x ∈ valueNames, w ≠ x := fun x hx hw => key p hp x hx (hw ▸ h)
    cases hc : classify w <;> rw [hc] at hs <;> simp only [CmdWord, List.mem_cons, List.not_mem_nil, or_false] at hs <;>
      try rfl
    case other => exact absurd (.inr (.inr ⟨p, hp, h⟩)) hs.1
    all_goals exfalso
    all_goals first
      | exact bad _ (by simp [valueNames]) hs
      | (rcases hs with hs | hs <;> exact bad _ (by simp [valueNames]) hs)

theorem words_width : ∀ {opts : List Opt}, (∀ o ∈ opts, o.Ok) →
    ((opts.flatMap Opt.words).map fun a => cmdWidth (classify a)).sum + opts.count .noConfig = (opts.flatMap Opt.words).length
  | [], _ => rfl
  | .flag w :: opts, h => by
    have h1 := flag_width (h (.flag w) (by simp))
    have := words_width fun o ho => h o (List.mem_cons_of_mem _ ho)
    simp only [List.flatMap_cons, Opt.words, List.cons_append, List.nil_append, List.map_cons, List.sum_cons, h1, ← this,
      List.length_cons, List.count_cons]
    simp
    omega
  | .value w v :: opts, h => by
    obtain ⟨h1, h2⟩ := h (.value w v) (by simp)
    have := words_width fun o ho => h o (List.mem_cons_of_mem _ ho)
    simp only [List.flatMap_cons, Opt.words, List.cons_append, List.nil_append, List.map_cons, List.sum_cons,
      value_width h1, inert_width h2, ← this, List.length_cons, List.count_cons]
    simp
    omega
  | .noConfig :: opts, h => by
    have := words_width fun o ho => h o (List.mem_cons_of_mem _ ho)
    have h0 : cmdWidth (classify "--no-config-file") = 0 := by decide +kernel
    simp only [List.flatMap_cons, Opt.words, List.cons_append, List.nil_append, List.map_cons, List.sum_cons, h0, ← this,
      List.length_cons, List.count_cons_self]
    omega

theorem inert_sum : ∀ {l : List String}, (∀ w ∈ l, Inert w) → (l.map fun a => cmdWidth (classify a)).sum = 0
  | [], _ => rfl
  | w :: l, h => by
    have := inert_sum fun x hx => h x (List.mem_cons_of_mem _ hx)
    simp [inert_width (h w (by simp)), this]

theorem finish_paths {args : List String} {st : ArgState} {p : Parsed} (h : argFinish args st = .ok p) :
    p.paths = args.drop st.pathPos := by
  simp only [argFinish] at h
  repeat' split at h
  all_goals first
    | (cases h; done)
    | (injection h with h; rw [← h])

/-- C50 for all options: each occurrence of `--no-config-file`, which the main loop does not count, makes one more word of the
options a path. -/
theorem C50_shift {env : ArgEnv} (he : RealPaths env) {opts : List Opt} (ho : ∀ o ∈ opts, o.Ok) {paths : List String}
    (hp : ∀ w ∈ paths, Inert w) {config : Config} {p : Parsed}
    (h : parseArgs env (opts.flatMap Opt.words ++ paths) config = .ok p) : ∃ pre shifted, opts.flatMap Opt.words = pre ++ shifted ∧
      shifted.length = opts.count .noConfig ∧ p.paths = shifted ++ paths := by
  obtain ⟨c0, st, -, hl, hf⟩ := parse_inv he h
  have hw := words_width ho
  rw [finish_paths hf, argLoop_pathPos hl, List.map_append, List.sum_append, inert_sum hp]
  generalize ((opts.flatMap Opt.words).map fun a => cmdWidth (classify a)).sum = k at *
  refine ⟨(opts.flatMap Opt.words).take k, (opts.flatMap Opt.words).drop k, (List.take_append_drop _ _).symm, by rw [List.length_drop]; omega, ?_⟩
  show List.drop (0 + (k + 0)) _ = _
  rw [Nat.zero_add, Nat.add_zero, List.drop_append_of_le_length (by omega)]

/-- C50 where it holds: for options (each alone or followed by a value that is no option word) other than `--no-config-file`,
followed by paths that are no option words, the paths are exactly those.  With `--no-config-file` the claim is false (`C50_false`). -/
theorem C50_paths_partial {env : ArgEnv} (he : RealPaths env) {opts : List Opt} (ho : ∀ o ∈ opts, o.Ok) (hn : .noConfig ∉ opts) {paths : List String}
    (hp : ∀ w ∈ paths, Inert w) {config : Config} {p : Parsed}
    (h : parseArgs env (opts.flatMap Opt.words ++ paths) config = .ok p) : p.paths = paths := by
  obtain ⟨pre, shifted, -, h2, h3⟩ := C50_shift he ho hp h
  rw [List.count_eq_zero.mpr hn] at h2
  rw [h3, List.length_eq_zero_iff.mp h2]
  rfl

/-- A word that does not begin with a dash is no option. -/
theorem C50_inert {w : String} (h : w.toList.head? ≠ some '-') : Inert w := by
  have hs := classify_spec w
  have key : ∀ x : String, x.toList.head? = some '-' → w ≠ x := fun x hx hw => h (hw ▸ hx)
  have pre : ∀ x : String, x.toList.head? = some '-' → ¬ x.toList <+: w.toList := by
    intro x hx ⟨t, ht⟩
    apply h
    rw [← ht]
    cases hx' : x.toList with
    | nil => rw [hx'] at hx; cases hx
    | cons a l => rw [hx'] at hx; simpa using hx
  refine ⟨?_, ?_⟩
  · rintro (⟨s, b, hm⟩ | hm | ⟨q, hq, hm⟩)
    · have : ∀ s b, ∀ x ∈ switchNames s b, x.toList.head? = some '-' := by
        intro s b; cases s <;> cases b <;> decide +kernel
      exact key w (this s b w hm) rfl
    · have : ∀ x ∈ plainNames, x.toList.head? = some '-' := by decide +kernel
      exact key w (this w hm) rfl
    · have : ∀ x ∈ optionPrefixes, x.toList.head? = some '-' := by decide +kernel
      exact pre q (this q hq) hm
  · intro hm
    have : ∀ x ∈ valueNames, x.toList.head? = some '-' := by decide +kernel
    exact key w (this w hm) rfl

/-- An environment for examples: no config file is found, every pattern compiles. -/
def plainEnv : ArgEnv :=
  { detected := .ok none, abspath := fun s => "/w/" ++ s, parseFile := fun _ => none, validRegex := fun _ => true,
    readLines := fun _ => none, cpus := 4 }

example : (parseArgs plainEnv ["-q", "--exclude", "asyncio", "-t=3.8", "a.py", "b.py"] (Config.init 4)).toOption.map (·.paths) =
    some ["a.py", "b.py"] := by decide +kernel

/-- C50 is false for the documented option `--no-config-file`: the excluded name, or the option itself, becomes a path. -/
theorem C50_false :
    (parseArgs plainEnv ["--no-config-file", "--exclude", "email", "a.py"] (Config.init 4)).toOption.map (·.paths) = some ["email", "a.py"] ∧
    (parseArgs plainEnv ["-q", "--no-config-file", "a.py"] (Config.init 4)).toOption.map (·.paths) = some ["--no-config-file", "a.py"] := by
  decide +kernel

/-- Outside of that form the paths are wrong: an option after the paths, an option word as value, or an unknown option word
shifts them. -/
theorem C50_misuse :
    (parseArgs plainEnv ["a.py", "-q"] (Config.init 4)).toOption.map (·.paths) = some ["-q"] ∧
    (parseArgs plainEnv ["--exclude", "-q", "a.py", "b.py"] (Config.init 4)).toOption.map (·.paths) = some ["b.py"] ∧
    (parseArgs plainEnv ["--unknown", "-q", "a.py"] (Config.init 4)).toOption.map (·.paths) = some ["-q", "a.py"] := by
  decide +kernel

/-! ### C51: switches -/

theorem getSwitch_setSwitch (c : Config) (s s' : Switch) (b : Bool) :
    (c.setSwitch s' b).getSwitch s = if s' = s then b else c.getSwitch s := by
  cases s <;> cases s' <;> rfl

theorem getSwitch_addTarget (c : Config) (a : Config.TargetArg) (s : Switch) : (c.addTarget a).1.getSwitch s = c.getSwitch s := by
  unfold Config.addTarget
  split
  · rfl
  · split <;> try (cases s <;> rfl)
    split <;> (cases s <;> rfl)

theorem getSwitch_addExclusionLines (s : Switch) : ∀ (ls : List String) (c : Config),
    (c.addExclusionLines ls).getSwitch s = c.getSwitch s
  | [], _ => rfl
  | l :: ls, c => by
    have := getSwitch_addExclusionLines s ls (c.addExclusion (String.ofList (strip l.toList)))
    unfold Config.addExclusionLines at *
    rw [List.foldl_cons, this]
    cases s <;> rfl

theorem argStep_switch {env : ArgEnv} {a : String} {n : Option String} {st st' : ArgState} (s : Switch)
    (h : argStep env a n st = .ok st') :
    (a ∈ switchNames s true ∧ st'.cfg.getSwitch s = true) ∨ (a ∈ switchNames s false ∧ st'.cfg.getSwitch s = false) ∨
    ((a ∉ switchNames s true ∧ a ∉ switchNames s false) ∧ st'.cfg.getSwitch s = st.cfg.getSwitch s) := by
  by_cases hb : ∃ s' b, classify a = .switch s' b
  · obtain ⟨s', b, hc⟩ := hb
    simp only [argStep, hc] at h
    injection h with h
    rw [← h]
    simp only [getSwitch_setSwitch]
    by_cases hs : s' = s
    · subst hs
      have := classify_switch.mp hc
      cases b
      · exact .inr (.inl ⟨this, by simp⟩)
      · exact .inl ⟨this, by simp⟩
    · refine .inr (.inr ⟨⟨fun hm => ?_, fun hm => ?_⟩, by simp [hs]⟩) <;>
      · have := classify_of_switch hm
        rw [hc] at this
        injection this with h1 _
        exact hs h1
  · refine .inr (.inr ⟨⟨fun hm => hb ⟨s, true, classify_of_switch hm⟩, fun hm => hb ⟨s, false, classify_of_switch hm⟩⟩, ?_⟩)
    unfold argStep at h
    split at h
    case h_2 s' b hc => exact absurd ⟨s', b, hc⟩ hb
    all_goals (repeat' split at h)
    all_goals first
      | (cases h; done)
      | (injection h with h; rw [← h]; first
          | rfl
          | (cases s <;> rfl; done)
          | exact getSwitch_addExclusionLines s _ _
          | skip)
    · rename_i c heq
      have := getSwitch_addTarget st.cfg (.text (argValue a)) s
      rw [heq] at this; exact this
    · rename_i c heq
      unfold Config.addBackport at heq
      split at heq
      · injection heq with h1 h2; rw [← h1]; cases s <;> rfl
      · injection heq with h1 h2; cases h2
    · rename_i c heq
      unfold Config.enableFeature at heq
      split at heq
      · injection heq with h1 h2; rw [← h1]; cases s <;> rfl
      · injection heq with h1 h2; cases h2

theorem argLoop_switch {env : ArgEnv} (s : Switch) : ∀ {args : List String} {st st' : ArgState}, argLoop env args st = .ok st' →
    LastSays (switchNames s true) (switchNames s false) args (st.cfg.getSwitch s) (st'.cfg.getSwitch s)
  | [], st, st', h => by cases h; exact .inr ⟨by simp, rfl⟩
  | a :: rest, st, st', h => by
    unfold argLoop at h
    split at h
    · cases h
    rename_i st1 h1
    rcases argLoop_switch s h with ⟨pre, x, post, he, hp, hx⟩ | ⟨hn, he⟩
    · exact .inl ⟨a :: pre, x, post, by rw [he]; rfl, hp, hx⟩
    · rcases argStep_switch s h1 with ⟨ha, hv⟩ | ⟨ha, hv⟩ | ⟨ha, hv⟩
      · exact .inl ⟨[], a, rest, rfl, hn, .inl ⟨ha, he.trans hv⟩⟩
      · exact .inl ⟨[], a, rest, rfl, hn, .inr ⟨ha, he.trans hv⟩⟩
      · refine .inr ⟨?_, he.trans hv⟩
        intro y hy
        rcases List.mem_cons.mp hy with rfl | hy
        · exact ha
        · exact hn y hy

/-- The format the command line asks for last; `before` if it does not. -/
def LastFormat (args : List String) (before f : Option Fmt) : Prop :=
  (∃ pre o v post g, args = pre ++ o :: v :: post ∧ o ∈ ["--format", "-f"] ∧ (∀ x ∈ v :: post, x ∉ ["--format", "-f"]) ∧
    f = some g ∧ g.name = String.ofList (lower v.toList)) ∨
  ((∀ x ∈ args, x ∉ ["--format", "-f"]) ∧ f = before)

theorem fromName_name {t : String} {f : Fmt} (h : Fmt.fromName t = some f) : f.name = t := by
  unfold Fmt.fromName at h
  split at h
  · rename_i h'; injection h with h; rw [← h, h']; rfl
  · split at h
    · rename_i h'; injection h with h; rw [← h, h']; rfl
    · cases h

theorem argStep_fmt {env : ArgEnv} {a : String} {n : Option String} {st st' : ArgState} (h : argStep env a n st = .ok st') :
    (a ∈ ["--format", "-f"] ∧ ∃ v g, n = some v ∧ st'.fmt = some g ∧ g.name = String.ofList (lower v.toList)) ∨
    (a ∉ ["--format", "-f"] ∧ st'.fmt = st.fmt) := by
  have hs := classify_spec a
  by_cases hc : classify a = .format
  · rw [hc] at hs
    refine .inl ⟨hs, ?_⟩
    simp only [argStep, hc] at h
    split at h
    · cases h
    · rename_i v
      split at h
      · cases h
      · rename_i g hg
        injection h with h
        exact ⟨v, g, rfl, by rw [← h], fromName_name hg⟩
  · refine .inr ⟨fun hm => hc ?_, ?_⟩
    · simp only [List.mem_cons, List.not_mem_nil, or_false] at hm
      rcases hm with rfl | rfl <;> decide +kernel
    · unfold argStep at h
      split at h
      case h_8 hc' => exact absurd hc' hc
      all_goals (repeat' split at h)
      all_goals first
        | (cases h; done)
        | (injection h with h; rw [← h])

theorem argLoop_fmt {env : ArgEnv} : ∀ {args : List String} {st st' : ArgState}, argLoop env args st = .ok st' →
    LastFormat args st.fmt st'.fmt
  | [], st, st', h => by cases h; exact .inr ⟨by simp, rfl⟩
  | a :: rest, st, st', h => by
    unfold argLoop at h
    split at h
    · cases h
    rename_i st1 h1
    rcases argLoop_fmt h with ⟨pre, o, v, post, g, he, ho, hp, hf, hg⟩ | ⟨hn, he⟩
    · exact .inl ⟨a :: pre, o, v, post, g, by rw [he]; rfl, ho, hp, hf, hg⟩
    · rcases argStep_fmt h1 with ⟨ha, v, g, hv, hf, hg⟩ | ⟨ha, hf⟩
      · cases rest with
        | nil => cases hv
        | cons r rest =>
          simp only [List.head?_cons, Option.some.injEq] at hv
          subst hv
          exact .inl ⟨[], a, r, rest, g, rfl, ha, hn, he.trans hf, hg⟩
      · refine .inr ⟨?_, he.trans hf⟩
        intro y hy
        rcases List.mem_cons.mp hy with rfl | hy
        · exact ha
        · exact hn y hy

/-- The config at the end: format applied, verbosity raised for violations mode. -/
theorem finish_cfg {args : List String} {st : ArgState} {p : Parsed} (h : argFinish args st = .ok p) :
    ∃ c1, (c1 = st.cfg ∧ st.fmt = none ∨ ∃ f, st.fmt = some f ∧ c1 = st.cfg.setFormat f) ∧
      (c1.onlyShowViolations = true → c1.targets ≠ []) ∧
      p.cfg = { c1 with verbose := if c1.onlyShowViolations && decide (c1.verbose < 2) then 2 else c1.verbose } ∧
      ¬ (p.cfg.quiet = true ∧ p.cfg.verbose > 0 ∧ p.cfg.onlyShowViolations = false) ∧
      p.versions = (st.versions && decide (p.cfg.format ≠ .parsable)) := by
  simp only [argFinish] at h
  generalize hc : st.formatted = c1 at h
  unfold ArgState.formatted at hc
  refine ⟨c1, ?_, ?_⟩
  · cases hf : st.fmt with
    | none => rw [hf] at hc; exact .inl ⟨hc.symm, rfl⟩
    | some f => rw [hf] at hc; exact .inr ⟨f, rfl, hc.symm⟩
  · split at h
    · cases h
    rename_i h1
    generalize hd : (if c1.onlyShowViolations && decide (c1.verbose < 2) then { c1 with verbose := 2 } else c1) = c2 at h
    have hd' : c2 = { c1 with verbose := if c1.onlyShowViolations && decide (c1.verbose < 2) then 2 else c1.verbose } := by
      rw [← hd]; by_cases hx : (c1.onlyShowViolations && decide (c1.verbose < 2)) = true
      · rw [if_pos hx, if_pos hx]
      · rw [if_neg hx, if_neg hx]
    split at h
    · cases h
    rename_i h2
    injection h with h
    subst h
    refine ⟨?_, hd', ?_, rfl⟩
    · intro hv ht
      simp [hv, ht] at h1
    · rintro ⟨a, b, c⟩
      simp only at a b c
      simp [a, b, c] at h2

/-- C51: every on/off switch is decided by its last word on the command line, wherever the others stand, otherwise by the
config file or default; only asking for the parsable format on the command line overrules `ignore` and `tips`. -/
theorem C51_switch {env : ArgEnv} (he : RealPaths env) {args : List String} {config : Config} {p : Parsed}
    (h : parseArgs env args config = .ok p) :
    ∃ c0 f, StartConfig env args config c0 ∧ LastFormat args none f ∧ ∀ s, ∃ b,
      LastSays (switchNames s true) (switchNames s false) args (c0.getSwitch s) b ∧
      p.cfg.getSwitch s = if f = some .parsable ∧ s = .ignore then true else if f = some .parsable ∧ s = .tips then false else b := by
  obtain ⟨c0, st, hs, hl, hf⟩ := parse_inv he h
  obtain ⟨c1, h1, -, h2, -, -⟩ := finish_cfg hf
  refine ⟨c0, st.fmt, hs, argLoop_fmt hl, fun s => ⟨st.cfg.getSwitch s, argLoop_switch s hl, ?_⟩⟩
  rw [h2]
  rcases h1 with ⟨rfl, hn⟩ | ⟨f, hn, rfl⟩
  · rw [hn]; cases s <;> rfl
  · rw [hn]; cases f <;> cases s <;> rfl

example : (parseArgs plainEnv ["--dump", "--no-tips", "--no-dump", "--show-tips", "-d", "a.py"] (Config.init 4)).toOption.map
    (fun p => (p.cfg.printVisits, p.cfg.showTips)) = some (true, true) := by decide +kernel

/-! ### C52 -/

theorem addTarget_len {c : Config} {a : Config.TargetArg} (h : c.targets.length ≤ 2) : (c.addTarget a).1.targets.length ≤ 2 := by
  unfold Config.addTarget
  split
  · exact h
  · rename_i h2
    split <;> try (simp only [Config.pushTarget, length_sort, List.length_append, List.length_singleton]; omega)
    · split
      · exact h
      · simp only [Config.pushTarget, length_sort, List.length_append, List.length_singleton]; omega

theorem addExclusionLines_targets : ∀ (ls : List String) (c : Config), (c.addExclusionLines ls).targets = c.targets
  | [], _ => rfl
  | l :: ls, c => by
    have := addExclusionLines_targets ls (c.addExclusion (String.ofList (strip l.toList)))
    unfold Config.addExclusionLines at *
    rw [List.foldl_cons, this]
    rfl

theorem argStep_targets {env : ArgEnv} {a : String} {n : Option String} {st st' : ArgState} (h : argStep env a n st = .ok st')
    (hl : st.cfg.targets.length ≤ 2) : st'.cfg.targets.length ≤ 2 := by
  unfold argStep at h
  split at h
  all_goals (repeat' split at h)
  all_goals first
    | (cases h; done)
    | (injection h with h; rw [← h]; first
        | exact hl
        | exact Nat.zero_le 2
        | (rw [addExclusionLines_targets]; exact hl)
        | skip)
  · rename_i s _ _; cases s <;> exact hl
  · rename_i c heq
    have := addTarget_len (a := .text (argValue a)) hl
    rw [heq] at this; exact this
  · rename_i c heq
    unfold Config.addBackport at heq
    split at heq
    · injection heq with h1 h2; rw [← h1]; exact hl
    · injection heq with h1 h2; cases h2
  · rename_i c heq
    unfold Config.enableFeature at heq
    split at heq
    · injection heq with h1 h2; rw [← h1]; exact hl
    · injection heq with h1 h2; cases h2

theorem argLoop_inv {env : ArgEnv} {P : ArgState → Prop} : ∀ {args : List String} {st st' : ArgState},
    argLoop env args st = .ok st' → (∀ a ∈ args, ∀ n s s', argStep env a n s = .ok s' → P s → P s') → P st → P st'
  | [], st, st', h, _, hp => by cases h; exact hp
  | a :: rest, st, st', h, hs, hp => by
    unfold argLoop at h
    split at h
    · cases h
    rename_i st1 h1
    exact argLoop_inv h (fun a ha => hs a (List.mem_cons_of_mem _ ha)) (hs a (by simp) _ _ _ h1 hp)

/-- C52: what holds after successful parsing. -/
theorem C52_constraints {env : ArgEnv} (he : RealPaths env) {args : List String} {config : Config} {p : Parsed}
    (hc : config.targets.length ≤ 2) (hfile : ∀ q c, env.parseFile q = some c → c.targets.length ≤ 2)
    (h : parseArgs env args config = .ok p) :
    (p.cfg.onlyShowViolations = true → p.cfg.targets ≠ [] ∧ 2 ≤ p.cfg.verbose) ∧
    (p.cfg.onlyShowViolations = false → ¬ (p.cfg.quiet = true ∧ 0 < p.cfg.verbose)) ∧
    p.cfg.targets.length ≤ 2 := by
  obtain ⟨c0, st, hs, hl, hf⟩ := parse_inv he h
  obtain ⟨c1, h1, hv, h2, hq, -⟩ := finish_cfg hf
  refine ⟨?_, ?_, ?_⟩
  · rw [h2]
    intro h3
    have h3 : c1.onlyShowViolations = true := h3
    refine ⟨hv h3, ?_⟩
    show 2 ≤ if c1.onlyShowViolations && decide (c1.verbose < 2) then 2 else c1.verbose
    rw [h3]
    by_cases h4 : c1.verbose < 2
    · simp [h4]
    · simp [h4]; omega
  · intro h3 h4; exact hq ⟨h4.1, h4.2, h3⟩
  · have h0 : c0.targets.length ≤ 2 := by
      obtain ⟨r, -, hr⟩ := hs
      cases r with
      | none => rw [hr]; exact hc
      | some q =>
        obtain ⟨f, hf, rfl⟩ := hr
        have := hfile q f hf
        unfold Config.overrideFrom
        cases f.format <;> exact this
    have hst : st.cfg.targets.length ≤ 2 :=
      argLoop_inv (P := fun s => s.cfg.targets.length ≤ 2) hl (fun a _ n s s' hs hp => argStep_targets hs hp) h0
    rw [h2]
    show c1.targets.length ≤ 2
    rcases h1 with ⟨rfl, -⟩ | ⟨f, -, rfl⟩
    · exact hst
    · cases f <;> exact hst

/-- The environment in which config files are read by `parseFile` of the model. -/
def fileEnv (env : ArgEnv) (read : String → Option Ini) : ArgEnv :=
  { env with parseFile := fun q => Vermin.parseFile env.cpus env.validRegex (read q) }

theorem parseFile_targets {cpus : Nat} {valid : String → Bool} {read : Option Ini} {c : Config}
    (h : Vermin.parseFile cpus valid read = some c) : c.targets.length ≤ 2 := by
  obtain ⟨_, _, -, -, -, -, -, -, -, -, -, -, -, -, -, -, -, -, -, -, -, ⟨l, ts, -, h1, h2, h3, -⟩, -⟩ := C49_parsed h
  have := congrArg List.length h1
  simp only [List.length_map] at this
  rw [h3.length_eq, ← this]; exact h2

/-- C52 for the program: starting from a fresh config, with config files read as in C49. -/
theorem C52_program {env : ArgEnv} {read : String → Option Ini} (he : RealPaths (fileEnv env read)) {args : List String}
    {p : Parsed} (h : parseArgs (fileEnv env read) args (Config.init env.cpus) = .ok p) :
    (p.cfg.onlyShowViolations = true → p.cfg.targets ≠ [] ∧ 2 ≤ p.cfg.verbose) ∧
    (p.cfg.onlyShowViolations = false → ¬ (p.cfg.quiet = true ∧ 0 < p.cfg.verbose)) ∧
    p.cfg.targets.length ≤ 2 :=
  C52_constraints (config := Config.init env.cpus) he (Nat.zero_le 2) (fun _ _ hq => parseFile_targets hq) h

example : (parseArgs plainEnv ["--violations", "-q", "-t=3.8", "a.py"] (Config.init 4)).toOption.map
    (fun p => (p.cfg.verbose, p.cfg.targets.length)) = some (2, 1) := by decide +kernel
example : parseArgs plainEnv ["--violations", "a.py"] (Config.init 4) = .error .error := by decide +kernel
example : parseArgs plainEnv ["-q", "-v", "a.py"] (Config.init 4) = .error .error := by decide +kernel

/-! ### C53 -/

/-- The settings documented for the parsable format. -/
def ParsableSettings (c : Config) : Prop := 3 ≤ c.verbose ∧ c.ignoreIncomp = true ∧ c.showTips = false

/-- An environment whose config file asks for the parsable format. -/
def parsableEnv : ArgEnv :=
  fileEnv { plainEnv with detected := .ok (some "/w/vermin.ini") }
    fun _ => some { dflt := [], sect := some [("format", .text "parsable")] }

/-- C53 is false: with the format from the config file, command line switches undo its settings. -/
theorem C53_false : ∃ p q r, parseArgs parsableEnv ["--no-ignore", "a.py"] (Config.init 4) = .ok p ∧
    parseArgs parsableEnv ["-v", "a.py"] (Config.init 4) = .ok q ∧
    parseArgs parsableEnv ["--show-tips", "a.py"] (Config.init 4) = .ok r ∧
    (p.cfg.format = .parsable ∧ p.cfg.ignoreIncomp = false) ∧ (q.cfg.format = .parsable ∧ q.cfg.verbose = 1) ∧
    (r.cfg.format = .parsable ∧ r.cfg.showTips = true) := by
  refine ⟨_, _, _, rfl, rfl, rfl, ?_⟩
  decide +kernel

/-- The words that undo the settings of the parsable format. -/
def Undoes (w : String) : Prop :=
  w = "--no-ignore" ∨ w = "--show-tips" ∨ "-v".toList <+: w.toList ∧ (w.toList.filter (· == 'v')).length < 3

theorem addExclusionLines_same (ls : List String) (c : Config) :
    (c.addExclusionLines ls).verbose = c.verbose ∧ (c.addExclusionLines ls).ignoreIncomp = c.ignoreIncomp ∧
    (c.addExclusionLines ls).showTips = c.showTips ∧ (c.addExclusionLines ls).format = c.format := by
  induction ls generalizing c with
  | nil => exact ⟨rfl, rfl, rfl, rfl⟩
  | cons l ls ih => exact ih (c.addExclusion (String.ofList (strip l.toList)))

theorem addTarget_same (c : Config) (a : Config.TargetArg) :
    (c.addTarget a).1.verbose = c.verbose ∧ (c.addTarget a).1.ignoreIncomp = c.ignoreIncomp ∧
    (c.addTarget a).1.showTips = c.showTips ∧ (c.addTarget a).1.format = c.format := by
  unfold Config.addTarget
  split
  · exact ⟨rfl, rfl, rfl, rfl⟩
  · split <;> try exact ⟨rfl, rfl, rfl, rfl⟩
    split <;> exact ⟨rfl, rfl, rfl, rfl⟩

theorem argStep_parsable {env : ArgEnv} {a : String} {n : Option String} {st st' : ArgState} (h : argStep env a n st = .ok st')
    (hu : ¬ Undoes a) (hp : st.cfg.format = .parsable → ParsableSettings st.cfg) :
    st'.cfg.format = .parsable → ParsableSettings st'.cfg := by
  have hs := classify_spec a
  unfold argStep at h
  split at h <;> rename_i hc <;> rw [hc] at hs
  all_goals (repeat' split at h)
  all_goals first
    | (cases h; done)
    | (injection h with h; rw [← h]; first
        | exact hp
        | skip)
  · rename_i s b
    intro hf
    have hf' : st.cfg.format = .parsable := by cases s <;> exact hf
    obtain ⟨h1, h2, h3⟩ := hp hf'
    simp only [CmdWord] at hs
    cases s <;> try exact ⟨h1, h2, h3⟩
    · cases b
      · simp only [switchNames, List.mem_singleton] at hs
        exact absurd (.inl hs) hu
      · exact ⟨h1, rfl, h3⟩
    · cases b
      · exact ⟨h1, h2, rfl⟩
      · simp only [switchNames, List.mem_singleton] at hs
        exact absurd (.inr (.inl hs)) hu
  · intro hf
    obtain ⟨h1, h2, h3⟩ := hp hf
    refine ⟨?_, h2, h3⟩
    show 3 ≤ (a.toList.filter (· == 'v')).length
    apply Nat.le_of_not_lt
    intro hlt
    exact hu (.inr (.inr ⟨hs, hlt⟩))
  · rename_i c heq
    obtain ⟨h1, h2, h3, h4⟩ := addTarget_same st.cfg (.text (argValue a))
    rw [heq] at h1 h2 h3 h4
    simp only at h1 h2 h3 h4
    unfold ParsableSettings
    simp only [h1, h2, h3, h4]; exact hp
  · rename_i ls _
    obtain ⟨h1, h2, h3, h4⟩ := addExclusionLines_same ls st.cfg
    unfold ParsableSettings
    simp only [h1, h2, h3, h4]; exact hp
  · rename_i c heq
    unfold Config.addBackport at heq
    split at heq
    · injection heq with h1 h2; rw [← h1]; exact hp
    · injection heq with h1 h2; cases h2
  · rename_i c heq
    unfold Config.enableFeature at heq
    split at heq
    · injection heq with h1 h2; rw [← h1]; exact hp
    · injection heq with h1 h2; cases h2

/-- C53 where it holds: the format is asked for on the command line, or no word undoes its settings.  The full claim, without
`hw`, is false (`C53_false`).  `--versions` never has an effect with the parsable format. -/
theorem C53_parsable_partial {env : ArgEnv} (he : RealPaths env) {args : List String} {config : Config} {p : Parsed}
    (hc : config.format = .parsable → ParsableSettings config) (h : parseArgs env args config = .ok p)
    (hf : p.cfg.format = .parsable)
    (hw : (∃ a ∈ args, a ∈ ["--format", "-f"]) ∨ ∀ a ∈ args, ¬ Undoes a) :
    ParsableSettings p.cfg := by
  obtain ⟨c0, st, hs, hl, hfin⟩ := parse_inv he h
  obtain ⟨c1, h1, -, h2, -, -⟩ := finish_cfg hfin
  have h3 : ParsableSettings c1 := by
    have hf1 : c1.format = .parsable := by rw [h2] at hf; exact hf
    rcases h1 with ⟨rfl, hn⟩ | ⟨f, hn, rfl⟩
    · rcases hw with ⟨a, ha, hm⟩ | hw
      · rcases argLoop_fmt hl with ⟨_, _, _, _, g, _, _, _, hg, _⟩ | ⟨hx, _⟩
        · rw [hn] at hg; cases hg
        · exact absurd hm (hx a ha)
      · refine argLoop_inv (P := fun s => s.cfg.format = .parsable → ParsableSettings s.cfg) hl
          (fun a ha n s s' hs hp => argStep_parsable hs (hw a ha) hp) ?_ hf1
        show c0.format = .parsable → ParsableSettings c0
        obtain ⟨r, -, hr⟩ := hs
        cases r with
        | none => rw [hr]; exact hc
        | some q =>
          obtain ⟨f, hf, rfl⟩ := hr
          unfold Config.overrideFrom
          cases f.format
          · intro hx; cases hx
          · intro _; exact ⟨Nat.le_max_left _ _, rfl, rfl⟩
    · cases f
      · cases hf1
      · exact ⟨Nat.le_max_left _ _, rfl, rfl⟩
  obtain ⟨a, b, c⟩ := h3
  rw [h2]
  refine ⟨?_, b, c⟩
  show 3 ≤ if c1.onlyShowViolations && decide (c1.verbose < 2) then 2 else c1.verbose
  have : ¬ c1.verbose < 2 := by omega
  simp [this]; exact a

/-- With the parsable format `versions` is off. -/
theorem C53_versions {env : ArgEnv} (he : RealPaths env) {args : List String} {config : Config} {p : Parsed}
    (h : parseArgs env args config = .ok p) (hf : p.cfg.format = .parsable) : p.versions = false := by
  obtain ⟨c0, st, -, -, hfin⟩ := parse_inv he h
  obtain ⟨c1, -, -, -, -, hv⟩ := finish_cfg hfin
  rw [hv, hf]; simp

example : (parseArgs plainEnv ["-f", "Parsable", "-v", "--no-ignore", "--versions", "a.py"] (Config.init 4)).toOption.map
    (fun p => (p.cfg.verbose, p.cfg.ignoreIncomp, p.cfg.showTips, p.versions)) = some (3, true, false, false) := by
  decide +kernel

end Vermin.Props
