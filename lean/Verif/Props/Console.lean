import Verif.Model.Console
import Verif.Props.Program
import Verif.Props.FileMessages
import Verif.Props.Skips
/-
C80: how runs end.
-/
namespace Vermin.Props
open Vermin Vermin.Py Vermin.Spec

/-- Words that ask for something else than an analysis. -/
def requests : List String := ["--help", "-h", "--version", "-V"]

/-- What is printed before files are looked for: the exclusion files that cannot be read, and the config file that is used though it is not named. -/
def Opening (m : Machine) (argv : List String) (c : Config) (l : List String) : Prop :=
  ∃ used, Detected m.msgEnv.args argv used ∧
    l = (unreadable m.msgEnv argv ++ if c.format ≠ .parsable ∧ c.quiet = false then (used.map ("Using detected config: " ++ ·)).toList else []).map (· ++ "\n")

/-- What is printed about the progress with `-v`. -/
def whenLoud (c : Config) (l : List String) : List String := if c.format = .default ∧ 1 ≤ c.verbose ∧ c.quiet = false then l else []

/-- The command line is accepted with these settings and paths. -/
def AcceptedAs (m : Machine) (argv : List String) (p : Vermin.Parsed) : Prop :=
  parseArgs m.msgEnv.args argv (Config.init m.msgEnv.args.cpus) = .ok p

/-- What is said while files are looked for: which folders cannot be listed (C81). -/
def SaysSkipped (m : Machine) (p : Vermin.Parsed) (sk : List String) : Prop :=
  ∀ l, l ∈ sk ↔ p.cfg.quiet = false ∧ ∃ d q, Visited m.fs (mainOpts p.cfg) ((p.paths.map String.toList).map (Used m.fs (mainOpts p.cfg))) d q ∧
    Unlistable m.fs (mainOpts p.cfg) d q ∧ l = refusal m.listError (Used m.fs (mainOpts p.cfg) q)

/-- How a run can end: what is printed, whether there is an exception, and the exit code. -/
inductive Ending (m : Machine) (argv : List String) : Console → Prop
  /-- nothing is asked for: the short help -/
  | nothing : argv = [] → Ending m argv { printed := (usage m.argv0 m.env.cpus false).map fun p => joinLines p ++ "\n", code := 1 }
  /-- the full help -/
  | help {pre post : List String} {w : String} : argv = pre ++ w :: post → w ∈ ["--help", "-h"] → (∀ x ∈ pre, x ∉ requests) →
      Ending m argv { printed := (usage m.argv0 m.env.cpus true).map fun p => joinLines p ++ "\n", code := 0 }
  | version {pre post : List String} {w : String} : argv = pre ++ w :: post → w ∈ ["--version", "-V"] → (∀ x ∈ pre, x ∉ requests) →
      Ending m argv { printed := ["1.6.0\n"], code := 0 }
  /-- the command line is refused (C77) -/
  | refused {ms : List String} : Refused m.msgEnv argv (Config.init m.env.cpus) ms → ms ≠ [] → Ending m argv { printed := ms.map (· ++ "\n"), code := 1 }
  /-- the search for a config file raises -/
  | undetected {e : Err} : argv ≠ [] → m.env.detected = .error e → Ending m argv { printed := [], trace := some e, code := 1 }
  /-- a pattern cannot be compiled -/
  | pattern {pre post : List String} {v : String} {l : List String} : argv = pre ++ "--exclude-regex" :: v :: post → m.env.validRegex v = false →
      Ending m argv { printed := l, trace := some .regexError, code := 1 }
  /-- there is an exception (see C65) -/
  | crashed {p : Vermin.Parsed} {e : Err} {l : List String} : AcceptedAs m argv p → Opening m argv p.cfg l → Ending m argv { printed := l, trace := some e, code := 1 }
  /-- there are no files -/
  | noFiles {p : Vermin.Parsed} {l sk : List String} : AcceptedAs m argv p → (∀ q, ¬ AnalysedPath m.world p q) → Opening m argv p.cfg l → SaysSkipped m p sk →
      Ending m argv { skipped := sk, printed := l ++ whenLoud p.cfg ["Detecting python files..\n"] ++ (if p.cfg.quiet = false then ["No files specified to analyze!\n"] else []), code := 1 }
  /-- the targets are met, or there are none -/
  | met {p : Vermin.Parsed} {l rest sk : List String} {files : List (List String)} : AcceptedAs m argv p → (∃ q, AnalysedPath m.world p q) → Opening m argv p.cfg l → SaysSkipped m p sk →
      (p.cfg.format = .parsable → rest ≠ []) → Ending m argv { printed := l ++ rest, skipped := sk, files := files, code := 0 }
  /-- a target is not met -/
  | unmet {p : Vermin.Parsed} {l rest sk : List String} {files : List (List String)} : AcceptedAs m argv p → (∃ q, AnalysedPath m.world p q) → Opening m argv p.cfg l → SaysSkipped m p sk →
      (p.cfg.format = .parsable → rest ≠ []) → p.cfg.targets ≠ [] →
      Ending m argv { printed := l ++ rest ++ (if p.cfg.format = .default ∧ p.cfg.quiet = false then ["Target versions not met:   " ++ commas (p.cfg.targets.map targetText) ++ "\n"] else []),
                      skipped := sk, files := files, code := 1 }

theorem parse_kinds {env : MsgEnv} (he : RealPaths env.args) {args : List String} (hargs : args ≠ []) (config : Config)
    (hd : ∃ d, env.args.detected = .ok d) (hw : ∀ w ∈ args, w ∉ requests) :
    parseArgs env.args args config = .error .error ∨ parseArgs env.args args config = .error (.raised .regexError) ∨ ∃ p, parseArgs env.args args config = .ok p := by
  rcases parse_cases he hargs (config := config) hd hw with ⟨h1, -⟩ | ⟨h1, -⟩ | ⟨h1, -⟩ | ⟨c0, used, fm, hs, hu, hfm', hm, hp⟩
  · exact .inl h1
  · exact .inl h1
  · exact .inl h1
  · rw [hp]
    rcases loop_cases env args { cfg := c0, pathPos := 0, versions := false, fmt := none } with ⟨st, g1, g2, g3, g4⟩ | ⟨pre, w, post, ms, g1, g2, -⟩ | ⟨pre, w, post, g1, g2, -⟩
    · simp only [g1]
      rcases finish_cases none g1 g3 with ⟨k1, -⟩ | ⟨k1, -⟩ | ⟨p, k1, -⟩
      · exact .inl k1
      · exact .inl k1
      · exact .inr (.inr ⟨p, k1⟩)
    · simp only [g2]; exact .inl trivial
    · simp only [g2]; exact .inr (.inl trivial)

theorem targets_line {cfg : Config} {m : Req} {l : List String} {code : Nat} (h : reportTargets cfg (reqsOf m) = .ok (l, code)) :
    (code = 0 ∧ l = []) ∨ (code = 1 ∧ cfg.targets ≠ [] ∧ l = if cfg.format = .default ∧ cfg.quiet = false then ["Target versions not met:   " ++ commas (cfg.targets.map targetText) ++ "\n"] else []) := by
  have hm := @mem_reportTargets cfg m l code h
  unfold reportTargets at h
  split at h
  · rename_i h0
    right
    have ht : cfg.targets ≠ [] := by intro e; rw [e] at h0; exact absurd h0.1 (by decide)
    split at h
    · rename_i hp
      cases h
      refine ⟨rfl, ht, ?_⟩
      rw [if_neg (by rw [hp]; exact fun h => nomatch h.1)]
    · rename_i hp
      obtain ⟨s, hs⟩ := versionStrings_map_ok (l := cfg.targets) (fun t => VVal.str (Vermin.targetText t)) ", " h0.1 (.inr fun v hv => rfl)
      rw [hs] at h
      cases h
      refine ⟨rfl, ht, ?_⟩
      unfold nprint at hm ⊢
      cases hq : cfg.quiet with
      | true => simp
      | false =>
        have hf : cfg.format = .default := by
          cases hf : cfg.format with
          | default => rfl
          | parsable => exact absurd hf hp
        rw [hq] at hm
        have := (hm (line := "Target versions not met:   " ++ s ++ "\n")).mp (by simp)
        simp only [hf, Bool.false_eq_true, if_false, and_self, if_true]
        rw [this.2.2.2.2.2]
  · cases h
    exact .inl ⟨rfl, rfl⟩

theorem parsable_mins {cfg : Config} {m : Req} {l : List String} (h : reportMins cfg m = .ok l) (hf : cfg.format = .parsable) : l ≠ [] := by
  unfold reportMins at h
  rw [if_pos hf] at h
  cases h
  simp

theorem run_cases {cfg : Config} {versions : Bool} {results : List FileOut} {out : List String} {code : Nat} (h : mainRun cfg versions results = .ok (out, code)) :
    (results = [] ∧ code = 1 ∧ out = if cfg.quiet = false then ["No files specified to analyze!\n"] else []) ∨
    (results ≠ [] ∧ ∃ rest line, out = rest ++ line ∧ (cfg.format = .parsable → rest ≠ []) ∧
      ((code = 0 ∧ line = []) ∨ (code = 1 ∧ cfg.targets ≠ [] ∧
        line = if cfg.format = .default ∧ cfg.quiet = false then ["Target versions not met:   " ++ commas (cfg.targets.map targetText) ++ "\n"] else []))) := by
  unfold mainRun at h
  split at h
  · rename_i h0
    cases h
    refine .inl ⟨List.eq_nil_of_length_eq_zero h0, rfl, ?_⟩
    unfold nprint
    cases cfg.quiet <;> rfl
  · rename_i h0
    refine .inr ⟨fun e => h0 (by rw [e]; rfl), ?_⟩
    split at h
    · cases h
    · rename_i acc _
      cases hr : report cfg versions acc with
      | error e => rw [hr] at h; cases h
      | ok x =>
        obtain ⟨o, c⟩ := x
        rw [hr] at h
        cases h
        obtain ⟨mins, incomps, range, line, h1, h2, h3, h4, rfl⟩ := report_parts hr
        refine ⟨acc.out ++ (reportHead cfg acc ++ (if cfg.showTips then printTips cfg (reqsOf acc.mins) (tipsOf cfg acc) else []) ++ mins ++ incomps ++ range), line, ?_, ?_, targets_line h4⟩
        · simp only [List.append_assoc]
        · intro hf he
          have := parsable_mins h1 hf
          simp only [List.append_eq_nil_iff] at he
          exact this he.2.1.1.2

theorem progress_loud (c : Config) (msg : String) : progress c msg = whenLoud c [msg ++ "\n"] := by
  unfold progress whenLoud vprint
  cases hf : c.format with
  | parsable => simp
  | default =>
    cases c.quiet <;> simp

/-- **C80.** Every run that ends does so in one of the ways of `Ending`: with the exit code 0 only for help, version, and targets that are met, and
otherwise with an explanation. -/
theorem C80_ends {m : Machine} (he : RealPaths m.msgEnv.args) {argv : List String} {c : Console} (h : console m argv = some c) : Ending m argv c := by
  have hfm : ∀ q f, m.msgEnv.args.parseFile q = some f → m.msgEnv.fileMsgs q = [] :=
    fun q f hq => (C77_file m.env.cpus m.env.validRegex m.exText q (m.read q)).1.mpr ⟨f, hq⟩
  unfold console at h
  dsimp only at h
  have hargs : m.world.args = m.msgEnv.args := rfl
  by_cases h0 : argv = []
  · subst h0
    cases h
    exact .nothing rfl
  cases hd : m.env.detected with
  | error e =>
    have hd' : m.msgEnv.args.detected = .error e := hd
    have h1 : parseArgs m.msgEnv.args argv (Config.init m.msgEnv.args.cpus) = .error (.raised e) := by
      unfold parseArgs
      rw [if_neg (by simpa using h0), hd']
    have h2 : parseArgsMsgs m.msgEnv argv (Config.init m.msgEnv.args.cpus) = [] := by
      unfold parseArgsMsgs
      rw [if_neg (by simpa using h0), hd']
    have h3 : program m.world argv = .stopped (.raised e) := by
      unfold program
      rw [hargs, h1]
    rw [h2, h3] at h
    cases h
    exact .undetected h0 hd
  | ok d =>
    have hd' : ∃ d, m.msgEnv.args.detected = .ok d := ⟨d, hd⟩
    by_cases hw : ∀ w ∈ argv, w ∉ requests
    · rcases parse_kinds he h0 (Config.init m.msgEnv.args.cpus) hd' hw with h1 | h1 | ⟨p, h1⟩
      · have h3 : program m.world argv = .stopped .error := by
          unfold program
          rw [hargs, h1]
        rw [h3] at h
        cases h
        obtain ⟨k1, k2⟩ := C77_told (env := m.env) (exText := m.exText) (readError := m.readError) (read := m.read) he h1
        exact .refused k1 k2
      · have h3 : program m.world argv = .stopped (.raised .regexError) := by
          unfold program
          rw [hargs, h1]
        rw [h3] at h
        cases h
        obtain ⟨-, c0, pre, w, post, -, e, -, hb⟩ := (C77_raised he h0 hd' hw .regexError).mp h1
        obtain ⟨rfl, v, hv, hb⟩ := hb
        cases post with
        | nil => cases hv
        | cons x xs =>
          cases hv
          exact .pattern e hb
      · have hop : Opening m argv p.cfg ((parseArgsMsgs m.msgEnv argv (Config.init m.msgEnv.args.cpus)).map (· ++ "\n")) := by
          obtain ⟨used, k1, k2⟩ := C77_accepted he hfm h1
          exact ⟨used, k1, by rw [k2]⟩
        rcases program_parts (w := m.world) (show parseArgs m.world.args argv (Config.init m.world.args.cpus) = .ok p from h1) with
          ⟨e', k1, -⟩ | ⟨k1, -⟩ | ⟨paths, hp, ⟨e', k1, -⟩ | ⟨out, code, k2, k1⟩⟩
        · rw [k1] at h; cases h; exact .crashed h1 hop
        · rw [k1] at h; cases h
        · rw [k1] at h; cases h; exact .crashed h1 hop
        · rw [k1] at h
          cases h
          have hmem := (C44_main hp).2.2
          have hsk : SaysSkipped m p (m.skipped argv) := by
            unfold Machine.skipped
            rw [h1]
            exact main_messages hp
          rcases run_cases k2 with ⟨r1, rfl, rfl⟩ | ⟨r1, rest, line, rfl, r3, r4⟩
          · have hnil : paths = [] := by
              unfold World.results at r1
              simpa using r1
            subst hnil
            have : ∀ q, ¬ AnalysedPath m.world p q := fun q hq => by have := (hmem q).mpr hq; cases this
            have k := Ending.noFiles h1 this hop hsk
            rw [progress_loud]
            simpa [World.results] using k
          · have hq : ∃ q, AnalysedPath m.world p q := by
              cases paths with
              | nil => exact absurd rfl r1
              | cons q qs => exact ⟨q, (hmem q).mp (by simp)⟩
            rcases r4 with ⟨rfl, rfl⟩ | ⟨rfl, ht, rfl⟩
            · refine Ending.met h1 hq hop hsk fun hf he => ?_
              simp only [List.append_eq_nil_iff] at he
              exact r3 hf he.2.1
            · have k := Ending.unmet (files := (m.world.results p.cfg paths).map Prod.fst) (rest := progress p.cfg "Detecting python files.." ++
                (if paths.length = 0 then [] else progress p.cfg (analyzing p.cfg paths.length)) ++ rest) h1 hq hop hsk (fun hf he => ?_) ht
              · simpa only [List.append_assoc] using k
              · simp only [List.append_eq_nil_iff] at he
                exact r3 hf he.2
    · obtain ⟨pre, w, post, rfl, h1, h2⟩ := first_asked hw
      obtain ⟨k1, k2⟩ := C77_asked (env := m.msgEnv) (post := post) hd' h1 h2 (Config.init m.msgEnv.args.cpus)
      have hs : w ∈ ["--help", "-h"] ∨ w ∈ ["--version", "-V"] := by
        simp only [List.mem_cons, List.not_mem_nil, or_false] at h1 ⊢
        rcases h1 with h | h | h | h
        · exact .inl (.inl h)
        · exact .inl (.inr h)
        · exact .inr (.inl h)
        · exact .inr (.inr h)
      rcases hs with hs | hs
      · obtain ⟨k3, k4⟩ := k1 hs
        have h3 : program m.world (pre ++ w :: post) = .stopped (.usage 0 true) := by
          unfold program
          rw [hargs, k3]
        rw [h3, k4] at h
        cases h
        exact .help rfl hs h2
      · obtain ⟨k3, k4⟩ := k2 hs
        have h3 : program m.world (pre ++ w :: post) = .stopped .exit0 := by
          unfold program
          rw [hargs, k3]
        rw [h3, k4] at h
        cases h
        exact .version rfl hs h2

/-- **C80.** The exit code is 0 or 1. -/
theorem C80_code {m : Machine} (he : RealPaths m.msgEnv.args) {argv : List String} {c : Console} (h : console m argv = some c) : c.code = 0 ∨ c.code = 1 := by
  cases C80_ends he h <;> first | exact .inl rfl | exact .inr rfl

/-- **C80.** A run that does not succeed says something, unless quiet mode is on; with the parsable format it always does if there are files. -/
theorem C80_told {m : Machine} (he : RealPaths m.msgEnv.args) {argv : List String} {c : Console} (h : console m argv = some c) (hc : c.code ≠ 0)
    (hp : c.printed = []) (ht : c.trace = none) : ∃ p, AcceptedAs m argv p ∧ p.cfg.quiet = true ∧ (p.cfg.format = .parsable → ∀ q, ¬ AnalysedPath m.world p q) := by
  have hu : ∀ a n f, (usage a n f).map (fun p => joinLines p ++ "\n") ≠ [] := by
    intro a n f h
    rw [List.map_eq_nil_iff] at h
    unfold usage usageTitle at h
    simp at h
  have fmt : ∀ {f : Fmt}, f ≠ .parsable → f = .default := fun {f} h => by cases f <;> first | rfl | exact absurd rfl h
  cases C80_ends he h with
  | nothing => exact absurd hp (hu _ _ _)
  | help => exact absurd rfl hc
  | version => exact absurd rfl hc
  | refused _ h1 => exact absurd (List.map_eq_nil_iff.mp hp) h1
  | undetected => cases ht
  | pattern => cases ht
  | crashed => cases ht
  | @noFiles p l sk h1 h2 h3 h3' =>
    simp only [List.append_eq_nil_iff] at hp
    have hq : p.cfg.quiet = true := by
      cases hq : p.cfg.quiet with
      | true => rfl
      | false => rw [hq] at hp; exact absurd hp.2 (by simp)
    exact ⟨p, h1, hq, fun _ => h2⟩
  | met => exact absurd rfl hc
  | @unmet p l rest sk files h1 h2 h3 h3' h4 h5 =>
    simp only [List.append_eq_nil_iff] at hp
    have hf : p.cfg.format = .default := fmt fun hf => h4 hf hp.1.2
    refine ⟨p, h1, ?_, fun h => by (rw [hf] at h; cases h)⟩
    cases hq : p.cfg.quiet with
    | true => rfl
    | false => rw [hq, hf] at hp; exact absurd hp.2 (by simp)

/-- What is around a run: the current directory is absolute, paths can be made absolute, and the analysis runs on Python 3. -/
structure Normal (m : Machine) : Prop where
  cwd : startsWith ['/'] m.fs.cwd = true
  paths : RealPaths m.msgEnv.args
  python3 : ∀ q, (m.host q).major = 3

theorem Normal.surroundings {m : Machine} (h : Normal m) : Surroundings m.world where
  cwd := h.cwd
  paths := h.paths
  python3 := h.python3
  config _ _ hc := config_targets hc

/-- **C80.** The exit code of a run that is not ended by an exception is 0 exactly if there is a file to analyse, and either every target is met by all
requirements of all files, or only violations are shown and nothing is known about any file. -/
theorem C80_verdict {m : Machine} (hw : Normal m) {argv : List String} {p : Vermin.Parsed} (ho : Orderly m.world argv p)
    (ht : OnePerMajor p.cfg.targets) (hps : ¬ (p.cfg.pessimistic = true ∧ p.cfg.onlyShowViolations = true)) {c : Console} (h : console m argv = some c)
    (hc : c.trace = none) :
    c.code = 0 ↔ (∃ q, AnalysedPath m.world p q) ∧
      ((p.cfg.onlyShowViolations = true ∧ ∀ r, Required m.world p r → r = ⟨some ⟨0, 0⟩, some ⟨0, 0⟩⟩) ∨ ∀ t ∈ p.cfg.targets, TargetMet (Required m.world p) t) := by
  unfold console at h
  dsimp only at h
  rcases program_parts ho.args with ⟨e', k1, -⟩ | ⟨k1, -⟩ | ⟨paths, hp, ⟨e', k1, -⟩ | ⟨out, code, k2, k1⟩⟩
  · rw [k1] at h; cases h; cases hc
  · rw [k1] at h; cases h
  · rw [k1] at h; cases h; cases hc
  · have k := (C66_exit hw.surroundings ho ht hps k1).2
    rw [k1] at h
    cases h
    exact k

/-- **C80.** An exception ends a run of files that can be analysed only for an empty path while hidden files are not looked at and paths are not made
absolute. -/
theorem C80_exception {m : Machine} (hw : Normal m) {argv : List String} {p : Vermin.Parsed} (ho : Orderly m.world argv p) {c : Console}
    (h : console m argv = some c) {e : Err} (hc : c.trace = some e) : "" ∈ p.paths ∧ p.cfg.analyzeHidden = false ∧ p.cfg.makePathsAbsolute = false ∧ e = .indexError := by
  refine C65_no_crash (w := m.world) hw.cwd hw.paths ho.args ho.files (e := e) ?_
  unfold console at h
  dsimp only at h
  rcases program_parts ho.args with ⟨e', k1, -⟩ | ⟨k1, -⟩ | ⟨paths, hp, ⟨e', k1, -⟩ | ⟨out, code, k2, k1⟩⟩
  · rw [k1] at h; cases h; cases hc; exact k1
  · rw [k1] at h; cases h
  · rw [k1] at h; cases h; cases hc; exact k1
  · rw [k1] at h; cases h; cases hc

/-! ### Examples -/

/-- A machine on which `exampleWorld` is found. -/
def exampleMachine : Machine :=
  { argv0 := "vermin", env := plainEnv, exText := fun _ => "text", readError := fun p => "[Errno 2] No such file or directory: '" ++ p ++ "'",
    listError := fun p => "[Errno 13] Permission denied: '" ++ String.ofList p ++ "'", read := fun _ => none,
    fs := exampleFS, rounds := 5, parse := fun _ => .ok nonlocalProg [], host := fun _ => exampleHost }

theorem exampleMachine_normal : Normal exampleMachine where
  cwd := rfl
  paths := by
    constructor
    · intro s h
      have := congrArg String.toList (show "/w/" ++ s = "" from h)
      rw [String.toList_append] at this
      cases this
    · intro h
      cases h
  python3 _ := rfl

/-- Examples: targets that are met and not met, a refused command line, no files, and no files in quiet mode. -/
theorem C80_witness : Normal exampleMachine ∧
    (console exampleMachine ["-t=3.0-", "--no-tips", "a.py"]).map (fun c => (c.printed, c.code)) = some (["Minimum required versions: 3.0\n", "Incompatible versions:     2\n"], 0) ∧
    (console exampleMachine ["-t=2.7", "--no-tips", "a.py"]).map (fun c => (c.printed, c.code)) =
      some (["Minimum required versions: 3.0\n", "Incompatible versions:     2\n", "Target versions not met:   2.7\n"], 1) ∧
    (console exampleMachine ["-t=1", "a.py"]).map (fun c => (c.printed, c.code)) = some (["Invalid target: 1\n"], 1) ∧
    (console exampleMachine ["-v", "b.txt"]).map (fun c => (c.printed, c.code)) = some (["Detecting python files..\n", "No files specified to analyze!\n"], 1) ∧
    (console exampleMachine ["-q", "b.txt"]).map (fun c => (c.printed, c.code)) = some ([], 1) ∧
    (console exampleMachine ["-q", "-V"]).map (fun c => (c.printed, c.code)) = some (["1.6.0\n"], 0) ∧
    (console exampleMachine ["--no-make-paths-absolute", ""]).map (fun c => (c.trace, c.code)) = some (some .indexError, 1) := by
  refine ⟨exampleMachine_normal, ?_, ?_, ?_, ?_, ?_, ?_, ?_⟩ <;> decide +kernel

/-- Example for `C80_verdict`. -/
theorem C80_witness_verdict : Orderly exampleMachine.world ["-t=3.0-", "a.py"] exampleParsed ∧ OnePerMajor exampleParsed.cfg.targets ∧
    (console exampleMachine ["-t=3.0-", "a.py"]).map (fun c => (c.trace, c.code)) = some (none, 0) ∧ Required exampleMachine.world exampleParsed ⟨none, some ⟨3, 0⟩⟩ :=
  ⟨C66_witness.2.1, C66_witness.2.2.1, by decide +kernel, C66_witness.2.2.2.2.2⟩

/-! ### C81: what happens to the named paths -/

/-- C81: in a run that is not ended by an exception, exactly the folders that are looked at and cannot be listed are mentioned. -/
theorem C81_skipped {m : Machine} {argv : List String} {p : Vermin.Parsed} (ha : AcceptedAs m argv p) {c : Console} (h : console m argv = some c)
    (hc : c.trace = none) : SaysSkipped m p c.skipped := by
  have hargs : m.world.args = m.msgEnv.args := rfl
  unfold console at h
  dsimp only at h
  rcases program_parts (w := m.world) (show parseArgs m.world.args argv (Config.init m.world.args.cpus) = .ok p from ha) with
    ⟨e', k1, -⟩ | ⟨k1, -⟩ | ⟨paths, hp, ⟨e', k1, -⟩ | ⟨out, code, k2, k1⟩⟩
  · rw [k1] at h; cases h; cases hc
  · rw [k1] at h; cases h
  · rw [k1] at h; cases h; cases hc
  · rw [k1] at h
    cases h
    have ha' : parseArgs m.msgEnv.args argv (Config.init m.msgEnv.args.cpus) = .ok p := ha
    simp only [Machine.skipped, ha']
    exact main_messages hp

/-- C75: nothing is printed while files are looked for if every folder that is looked at can be listed, or with quiet mode. -/
theorem C75_folders {m : Machine} {argv : List String} {p : Vermin.Parsed} (ha : AcceptedAs m argv p) {c : Console} (h : console m argv = some c)
    (hf : p.cfg.quiet = true ∨ ∀ d q, Visited m.fs (mainOpts p.cfg) ((p.paths.map String.toList).map (Used m.fs (mainOpts p.cfg))) d q → ¬ Unlistable m.fs (mainOpts p.cfg) d q)
    (hc : c.trace = none) : c.skipped = [] := by
  have hs := C81_skipped ha h hc
  cases he : c.skipped with
  | nil => rfl
  | cons l ls =>
    obtain ⟨h1, d, q, h2, h3, -⟩ := (hs l).mp (by rw [he]; exact List.mem_cons_self)
    rcases hf with hf | hf
    · rw [h1] at hf; cases hf
    · exact absurd h3 (hf d q h2)

/-- A machine with a folder that cannot be listed. -/
def lockedMachine : Machine :=
  { exampleMachine with fs := { exampleFS with lstat := fun p => if p = "/locked".toList then some (.node .dir) else exampleFS.lstat p } }

/-- Example: a folder that cannot be listed is mentioned, not so in quiet mode. -/
theorem C81_witness : Normal lockedMachine ∧
    (console lockedMachine ["--no-tips", "a.py", "locked"]).map (fun c => (c.printed, c.skipped, c.trace, c.code)) =
      some (["Minimum required versions: 3.0\n", "Incompatible versions:     2\n"], ["Ignoring /locked: [Errno 13] Permission denied: '/locked'\n"], none, 0) ∧
    (console lockedMachine ["--no-tips", "-q", "a.py", "locked"]).map (fun c => (c.printed, c.skipped, c.code)) = some ([], [], 0) := by
  refine ⟨⟨rfl, exampleMachine_normal.paths, fun _ => rfl⟩, ?_, ?_⟩ <;> decide +kernel

/-- C81: why it is partial: a named file that does not exist is not mentioned, and the run succeeds. -/
theorem C81_false : (∀ n, n = "/missing.py".toList → exampleMachine.fs.lstat n = none) ∧
    (console exampleMachine ["--no-tips", "missing.py", "a.py"]).map (fun c => (c.printed, c.skipped, c.files, c.trace, c.code)) =
      (console exampleMachine ["--no-tips", "a.py"]).map (fun c => (c.printed, c.skipped, c.files, c.trace, c.code)) ∧
    (console exampleMachine ["--no-tips", "missing.py", "a.py"]).map (fun c => (c.printed, c.skipped, c.files, c.trace, c.code)) =
      some (["Minimum required versions: 3.0\n", "Incompatible versions:     2\n"], [], [[]], none, 0) := by
  refine ⟨fun n hn => by (subst hn; decide +kernel), ?_, ?_⟩ <;> decide +kernel

/-- C75: a folder that cannot be listed leads to a line that is not of the parsable format. -/
theorem C75_false_folder : (console lockedMachine ["-f", "parsable", "a.py", "locked"]).map Console.skipped =
    some ["Ignoring /locked: [Errno 13] Permission denied: '/locked'\n"] := by decide +kernel

end Vermin.Props
