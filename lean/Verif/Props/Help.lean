import Verif.Spec.Help
import Verif.Props.Messages
import Verif.Props.Detection
import Verif.Props.Config
/-
C78: the help documents what the command line accepts.
-/
namespace Vermin.Props
open Vermin Vermin.Py Vermin.Spec

/-! ### Reading the help -/

/-- What the help documents. -/
def docTable : List Doc := [
    ⟨"--quiet", .alone, false⟩, ⟨"-q", .alone, false⟩, ⟨"--no-quiet", .alone, true⟩, ⟨"-v", .repeated, false⟩,
    ⟨"--target", .joined, false⟩, ⟨"-t", .joined, false⟩, ⟨"--no-target", .alone, true⟩, ⟨"--processes", .joined, false⟩,
    ⟨"-p", .joined, false⟩, ⟨"--ignore", .alone, false⟩, ⟨"-i", .alone, false⟩, ⟨"--no-ignore", .alone, true⟩,
    ⟨"--dump", .alone, false⟩, ⟨"-d", .alone, false⟩, ⟨"--no-dump", .alone, true⟩, ⟨"--help", .alone, false⟩,
    ⟨"-h", .alone, false⟩, ⟨"--version", .alone, false⟩, ⟨"-V", .alone, false⟩, ⟨"--config-file", .followed, false⟩,
    ⟨"-c", .followed, false⟩, ⟨"--no-config-file", .alone, false⟩, ⟨"--hidden", .alone, false⟩,
    ⟨"--no-hidden", .alone, true⟩, ⟨"--versions", .alone, false⟩, ⟨"--show-tips", .alone, true⟩,
    ⟨"--no-tips", .alone, false⟩, ⟨"--violations", .alone, false⟩, ⟨"--lint", .alone, false⟩,
    ⟨"--no-violations", .alone, true⟩, ⟨"--no-lint", .alone, true⟩, ⟨"--pessimistic", .alone, false⟩,
    ⟨"--no-pessimistic", .alone, true⟩, ⟨"--eval-annotations", .alone, false⟩, ⟨"--no-eval-annotations", .alone, true⟩,
    ⟨"--parse-comments", .alone, true⟩, ⟨"--no-parse-comments", .alone, false⟩, ⟨"--scan-symlink-folders", .alone, false⟩,
    ⟨"--no-symlink-folders", .alone, true⟩, ⟨"--format", .followed, false⟩, ⟨"-f", .followed, false⟩,
    ⟨"--exclude", .followed, false⟩, ⟨"--exclude-file", .followed, false⟩, ⟨"--no-exclude", .alone, true⟩,
    ⟨"--exclude-regex", .followed, false⟩, ⟨"--no-exclude-regex", .alone, true⟩, ⟨"--make-paths-absolute", .alone, true⟩,
    ⟨"--no-make-paths-absolute", .alone, false⟩, ⟨"--backport", .followed, false⟩, ⟨"--no-backport", .alone, true⟩,
    ⟨"--feature", .followed, false⟩, ⟨"--no-feature", .alone, true⟩]

theorem first_processes (cpus : Nat) : firstLine (usageProcesses cpus) = "  --processes=N | -p=N".toList := by
  unfold firstLine usageProcesses texts
  rw [List.map_cons, List.cons_append, List.cons_append, List.find?_cons_of_pos (by decide +kernel)]
  rfl

theorem docs_processes (cpus : Nat) : docsOf (usageProcesses cpus) = [⟨"--processes", .joined, false⟩, ⟨"-p", .joined, false⟩] := by
  unfold docsOf
  rw [first_processes]
  decide +kernel

theorem usage_full (cpus : Nat) : usage "" cpus true = (usageTitle "" ++ usageNotes ++ usageFirst) ++ usageProcesses cpus :: usageOptions := by
  simp [usage]

theorem documented_eq (cpus : Nat) : documented cpus = docTable := by
  unfold documented
  rw [usage_full, List.flatMap_append, List.flatMap_cons, docs_processes]
  decide +kernel

/-! ### Words -/

theorem not_other {env : ArgEnv} {w : String} (h : cmdWidth (classify w) ≠ 0) : ¬ Meaningless env w := by
  rintro ⟨h1, -⟩
  have := argStep_pathPos (h1 none (untouched 0))
  omega

theorem width_zero {c : Cmd} (h : cmdWidth c = 0) : c = .other := by
  cases c <;> first | rfl | cases h

/-- Words that stand alone or before a value. -/
def docWords : List String := (docTable.filter fun d => d.form == .alone || d.form == .followed).map Doc.word

theorem fits_iff {w : String} : (∃ d ∈ docTable, d.Fits w) ↔ w ∈ docWords ∨ "-v".toList <+: w.toList ∨ "--target=".toList <+: w.toList ∨
    "-t=".toList <+: w.toList ∨ "--processes=".toList <+: w.toList ∨ "-p=".toList <+: w.toList := by
  constructor
  · rintro ⟨d, hd, hf⟩
    have key : ∀ d ∈ docTable, d.form = .joined ∨ d.form = .repeated → d ∈ [⟨"-v", .repeated, false⟩, ⟨"--target", .joined, false⟩,
      ⟨"-t", .joined, false⟩, ⟨"--processes", .joined, false⟩, ⟨"-p", .joined, false⟩] := by decide +kernel
    have hw : d.form = .alone ∨ d.form = .followed → w = d.word → w ∈ docWords := by
      intro h e
      rw [e]
      exact List.mem_map.mpr ⟨d, List.mem_filter.mpr ⟨hd, by simpa using h⟩, rfl⟩
    unfold Doc.Fits at hf
    cases hfm : d.form <;> rw [hfm] at hf
    · exact .inl (hw (.inl hfm) hf)
    · have := key d hd (.inl hfm)
      simp only [List.mem_cons, List.not_mem_nil, or_false] at this
      rcases this with rfl | rfl | rfl | rfl | rfl <;> simp_all
    · exact .inl (hw (.inr hfm) hf)
    · have := key d hd (.inr hfm)
      simp only [List.mem_cons, List.not_mem_nil, or_false] at this
      rcases this with rfl | rfl | rfl | rfl | rfl <;> simp_all
  · rintro (h | h | h | h | h | h)
    · obtain ⟨d, hd, rfl⟩ := List.mem_map.mp h
      obtain ⟨hd, hf⟩ := List.mem_filter.mp hd
      refine ⟨d, hd, ?_⟩
      unfold Doc.Fits
      cases hfm : d.form <;> simp_all
    · exact ⟨⟨"-v", .repeated, false⟩, by decide +kernel, h⟩
    · exact ⟨⟨"--target", .joined, false⟩, by decide +kernel, h⟩
    · exact ⟨⟨"-t", .joined, false⟩, by decide +kernel, h⟩
    · exact ⟨⟨"--processes", .joined, false⟩, by decide +kernel, h⟩
    · exact ⟨⟨"-p", .joined, false⟩, by decide +kernel, h⟩

/-- Words for the first loop only. -/
def preWords : List String := ["--help", "-h", "--version", "-V", "--no-config-file"]

theorem docWords_cases : ∀ w ∈ docWords, w ∈ preWords ∨ cmdWidth (classify w) ≠ 0 := by decide +kernel

theorem pre_acts {env : ArgEnv} {w : String} (h : w ∈ preWords) : ¬ Meaningless env w := by
  rintro ⟨-, h2⟩
  have h3 := h2 [] { noConfig := false, argConfig := none }
  simp only [preWords, List.mem_cons, List.not_mem_nil, or_false] at h
  rcases h with rfl | rfl | rfl | rfl | rfl <;> simp [preArgs] at h3

/-- **C78.** The full help documents exactly the words that mean something to the program. -/
theorem C78_words (env : ArgEnv) (cpus : Nat) (w : String) : (∃ d ∈ documented cpus, d.Fits w) ↔ ¬ Meaningless env w := by
  rw [documented_eq, fits_iff]
  constructor
  · rintro (h | h | h | h | h | h)
    · rcases docWords_cases w h with h | h
      · exact pre_acts h
      · exact not_other h
    · exact not_other (by rw [classify_verbose h]; decide)
    · exact not_other (by rw [classify_target (.inr h)]; decide)
    · exact not_other (by rw [classify_target (.inl h)]; decide)
    · exact not_other (by rw [classify_processes (.inr h)]; decide)
    · exact not_other (by rw [classify_processes (.inl h)]; decide)
  · intro h
    refine Classical.byContradiction fun hn => h ?_
    have hpre : w ∉ ["--help", "-h", "--version", "-V", "--no-config-file", "--config-file", "-c"] := fun hm =>
      hn (.inl (by
        have : ∀ x ∈ ["--help", "-h", "--version", "-V", "--no-config-file", "--config-file", "-c"], x ∈ docWords := by decide +kernel
        exact this w hm))
    have hc : classify w = .other := by
      have hs := classify_spec w
      have hno : ∀ x ∈ docWords, w ≠ x := fun x hx e => hn (.inl (e ▸ hx))
      cases hc : classify w <;> rw [hc] at hs <;> simp only [CmdWord, List.mem_cons, List.not_mem_nil, or_false] at hs
      case switch s b =>
        have : ∀ s b, ∀ x ∈ switchNames s b, x ∈ docWords := by
          intro s b; cases s <;> cases b <;> decide +kernel
        exact absurd (this s b w hs) (fun hm => hn (.inl hm))
      case verbose => exact absurd (.inr (.inl hs)) hn
      case target => exact absurd (hs.elim (fun h => .inr (.inr (.inr (.inl h)))) (fun h => .inr (.inr (.inl h)))) hn
      case processes => exact absurd (hs.elim (fun h => .inr (.inr (.inr (.inr (.inr h))))) (fun h => .inr (.inr (.inr (.inr (.inl h)))))) hn
      all_goals first
        | exact absurd hs (hno _ (by decide +kernel))
        | (rcases hs with hs | hs <;> exact absurd hs (hno _ (by decide +kernel)))
    simp only [List.mem_cons, List.not_mem_nil, or_false, not_or] at hpre
    obtain ⟨p1, p2, p3, p4, p5, p6, p7⟩ := hpre
    refine ⟨fun next st => by unfold argStep; rw [hc], fun rest p => ?_⟩
    rw [preArgs]
    simp [p1, p2, p3, p4, p5, p6, p7]

/-- What the parser does with an option that stands alone, and whether that is the default. -/
def aloneOk (w : String) (dflt : Bool) : Cmd → Bool
  | .switch s b => dflt == ((Config.init 0).getSwitch s == b) && !preWords.contains w
  | .noTarget | .noExclude | .noExcludeRegex | .noBackport | .noFeature => dflt && !preWords.contains w
  | .versions => !dflt && !preWords.contains w
  | .other => !dflt && preWords.contains w
  | _ => false

theorem alone_table : ∀ d ∈ docTable, d.form = .alone → aloneOk d.word d.dflt (classify d.word) = true := by decide +kernel

theorem followed_table : ∀ d ∈ docTable, d.form = .followed → d.word ∈ ["--config-file", "-c"] ∨
    classify d.word ∈ [.format, .exclude, .excludeFile, .excludeRegex, .backport, .feature] := by decide +kernel

theorem pre_unmoved {env : ArgEnv} {w : String} (h : w ∉ preWords) (hc : classify w ≠ .configFile) (p : PreArgs) : preArgs env [w] p = .ok p := by
  have hs : w ∉ ["--config-file", "-c"] := by
    intro hm
    apply hc
    simp only [List.mem_cons, List.not_mem_nil, or_false] at hm
    rcases hm with rfl | rfl <;> decide +kernel
  simp only [preWords, List.mem_cons, List.not_mem_nil, or_false, not_or] at h hs
  obtain ⟨h1, h2, h3, h4, h5⟩ := h
  simp [preArgs, h1, h2, h3, h4, h5, hs.1, hs.2]

/-- **C78.** Among the options that are given as words of their own, those with a value are documented so. -/
theorem C78_values (env : ArgEnv) (cpus : Nat) {d : Doc} (hd : d ∈ documented cpus) (hf : d.form = .alone ∨ d.form = .followed) :
    d.form = .followed ↔ Wants env d.word := by
  rw [documented_eq] at hd
  constructor
  · intro h
    rcases followed_table d hd h with h | h
    · refine .inl fun p => ?_
      simp only [List.mem_cons, List.not_mem_nil, or_false] at h
      rcases h with h | h <;> rw [h] <;> simp [preArgs]
    · refine .inr fun st => ?_
      simp only [List.mem_cons, List.not_mem_nil, or_false] at h
      unfold argStep
      rcases h with h | h | h | h | h | h <;> rw [h]
  · intro h
    refine hf.resolve_left fun hf => ?_
    have ht := alone_table d hd hf
    rcases h with h | h
    · have h := h { noConfig := false, argConfig := none }
      by_cases hp : d.word ∈ preWords
      · simp only [preWords, List.mem_cons, List.not_mem_nil, or_false] at hp
        rcases hp with e | e | e | e | e <;> rw [e] at h <;> simp [preArgs] at h
      · rw [pre_unmoved hp (fun hc => by rw [hc] at ht; cases ht)] at h
        cases h
    · have h := h (untouched 0)
      unfold argStep at h
      cases hc : classify d.word <;> rw [hc] at h ht <;> first | (cases ht; done) | cases h

theorem init_switch (cpus : Nat) (s : Switch) : (Config.init cpus).getSwitch s = (Config.init 0).getSwitch s := by cases s <;> rfl

theorem set_same {c : Config} {s : Switch} {b : Bool} (h : c.getSwitch s = b) : c.setSwitch s b = c := by
  subst h; cases s <;> rfl

theorem get_set (c : Config) (s : Switch) (b : Bool) : (c.setSwitch s b).getSwitch s = b := by cases s <;> rfl

/-- **C78.** The options that change nothing when they are given first are those marked as defaults. -/
theorem C78_default (env : ArgEnv) (cpus cpus' : Nat) {d : Doc} (hd : d ∈ documented cpus) (hf : d.form = .alone) :
    d.dflt = true ↔ AsDefault env cpus' d.word := by
  rw [documented_eq] at hd
  have ht := alone_table d hd hf
  have pre : d.word ∈ preWords → ¬ ∀ p, preArgs env [d.word] p = .ok p := by
    intro hp h
    have h := h { noConfig := false, argConfig := none }
    simp only [preWords, List.mem_cons, List.not_mem_nil, or_false] at hp
    rcases hp with e | e | e | e | e <;> rw [e] at h <;> simp [preArgs] at h
  unfold AsDefault argStep
  cases hc : classify d.word <;> rw [hc] at ht <;> try (cases ht; done)
  case switch s b =>
    simp only [aloneOk, Bool.and_eq_true, beq_iff_eq, Bool.not_eq_true', List.contains_eq_mem, decide_eq_false_iff_not] at ht
    rw [ht.1, beq_iff_eq, ← init_switch cpus']
    constructor
    · intro h
      refine ⟨pre_unmoved ht.2 (by rw [hc]; exact fun h => by (cases h)), 1, ?_⟩
      simp only [untouched, set_same h]
    · rintro ⟨-, n, h⟩
      have := congrArg (fun r => match r with | Except.ok st => st.cfg.getSwitch s | _ => false) h
      simp only [untouched, get_set] at this
      exact this.symm
  case versions =>
    simp only [aloneOk, Bool.and_eq_true, Bool.not_eq_true'] at ht
    rw [ht.1]
    refine ⟨fun h => by (cases h), fun ⟨_, n, h⟩ => ?_⟩
    have := congrArg (fun r => match r with | Except.ok st => st.versions | _ => false) h
    exact absurd this (by simp [untouched])
  case other =>
    simp only [aloneOk, Bool.and_eq_true, Bool.not_eq_true', List.contains_eq_mem, decide_eq_true_eq] at ht
    rw [ht.1]
    exact ⟨fun h => by (cases h), fun h => absurd h.1 (pre ht.2)⟩
  all_goals
    simp only [aloneOk, Bool.and_eq_true, Bool.not_eq_true', List.contains_eq_mem, decide_eq_false_iff_not] at ht
    refine ⟨fun _ => ⟨pre_unmoved ht.2 (by rw [hc]; exact fun h => by (cases h)), 1, ?_⟩, fun _ => ht.1⟩
    rfl

/-! ### Names -/

theorem listed_eq (cpus : Nat) (option : String) (h : option ∉ ["--processes", "-p"]) :
    listed cpus option = (((usageTitle "" ++ usageNotes ++ usageFirst) ++ usageOptions).filter fun p => (docsOf p).any (·.word = option)).flatMap
      fun p => p.filterMap listedName := by
  unfold listed
  simp only [List.mem_cons, List.not_mem_nil, or_false, not_or] at h
  rw [usage_full, List.filter_append (usageTitle "" ++ usageNotes ++ usageFirst), List.filter_cons_of_neg, ← List.filter_append]
  rw [docs_processes]
  simp [Ne.symm h.1, Ne.symm h.2]

theorem listed_backports (cpus : Nat) : listed cpus "--backport" = backports.map Prod.fst := by
  rw [listed_eq _ _ (by decide +kernel)]
  decide +kernel

theorem listed_features (cpus : Nat) : listed cpus "--feature" = featureNames := by
  rw [listed_eq _ _ (by decide +kernel)]
  decide +kernel

theorem listed_formats (cpus : Nat) : listed cpus "--format" = ["default", "parsable"] := by
  rw [listed_eq _ _ (by decide +kernel)]
  decide +kernel

/-- **C78.** The values that are accepted for backports, features and formats (in any case) are exactly those the help lists with these options. -/
theorem C78_names (env : ArgEnv) (cpus : Nat) (st : ArgState) (v : String) :
    ((∃ st', argStep env "--backport" (some v) st = .ok st') ↔ v ∈ listed cpus "--backport") ∧
    ((∃ st', argStep env "--feature" (some v) st = .ok st') ↔ v ∈ listed cpus "--feature") ∧
    ((∃ st', argStep env "--format" (some v) st = .ok st') ↔ String.ofList (lower v.toList) ∈ listed cpus "--format") := by
  refine ⟨?_, ?_, ?_⟩
  · rw [listed_backports]
    unfold argStep
    rw [show classify "--backport" = .backport by decide +kernel]
    simp only [Config.addBackport]
    by_cases h : isBackport v = true
    · rw [if_pos h]
      exact ⟨fun _ => List.contains_iff_mem.mp h, fun _ => ⟨_, rfl⟩⟩
    · rw [if_neg h]
      exact ⟨fun ⟨_, h'⟩ => by (cases h'), fun h' => absurd (List.contains_iff_mem.mpr h') h⟩
  · rw [listed_features]
    unfold argStep
    rw [show classify "--feature" = .feature by decide +kernel]
    simp only [Config.enableFeature]
    by_cases h : isFeature v = true
    · rw [if_pos h]
      exact ⟨fun _ => List.contains_iff_mem.mp h, fun _ => ⟨_, rfl⟩⟩
    · rw [if_neg h]
      exact ⟨fun ⟨_, h'⟩ => by (cases h'), fun h' => absurd (List.contains_iff_mem.mpr h') h⟩
  · rw [listed_formats]
    unfold argStep
    rw [show classify "--format" = .format by decide +kernel]
    cases h : Fmt.fromName (String.ofList (lower v.toList)) with
    | none => simp only [h]; exact ⟨fun ⟨_, h'⟩ => by (cases h'), fun h' => absurd h' (fromName_none.mp h)⟩
    | some f =>
      simp only [h]
      refine ⟨fun _ => Classical.byContradiction fun hn => ?_, fun _ => ⟨_, rfl⟩⟩
      rw [fromName_none.mpr hn] at h
      cases h

theorem quotedIn_eq (cpus : Nat) (first : String) (P : List Char → Bool) (h : first.toList.isPrefixOf "  --processes=N | -p=N".toList = false) :
    quotedIn cpus first P = (((usageTitle "" ++ usageNotes ++ usageFirst) ++ usageOptions).filter fun p => first.toList.isPrefixOf (firstLine p)).flatMap
      fun p => (p.filter P).flatMap quoted := by
  unfold quotedIn
  rw [usage_full, List.filter_append (usageTitle "" ++ usageNotes ++ usageFirst), List.filter_cons_of_neg, ← List.filter_append]
  rw [first_processes, h]
  exact Bool.false_ne_true

/-- **C78.** The config files and project boundaries that are searched for are those the help names (they decide C47), in the same order for the files. -/
theorem C78_files (cpus : Nat) :
    quotedIn cpus "Config file names" ("Config file names".toList.isPrefixOf ·) = documentedFiles ∧
    ∀ b, b ∈ quotedIn cpus "Config file names" ("Project boundary files/folders".toList.isPrefixOf ·) ↔ b ∈ documentedBoundaries := by
  refine ⟨?_, fun b => ?_⟩
  · rw [quotedIn_eq _ _ _ (by decide +kernel)]
    decide +kernel
  · rw [quotedIn_eq _ _ _ (by decide +kernel)]
    refine Iff.trans ?_ (mem_projectBoundaries b)
    have : (((usageTitle "" ++ usageNotes ++ usageFirst) ++ usageOptions).filter fun p => "Config file names".toList.isPrefixOf (firstLine p)).flatMap
      (fun p => (p.filter ("Project boundary files/folders".toList.isPrefixOf ·)).flatMap quoted) = projectBoundaries := by decide +kernel
    rw [this]

/-- **C78.** Files with extensions the help says to be scanned or to be ignored are. -/
theorem C78_extensions (cpus : Nat) (fs : FS) (path : List Char) (e : String) (h : HasExt (lower path) e.toList) :
    (e ∈ quotedIn cpus "Heuristics" ("are always scanned (unless otherwise excluded)".toList.isSuffixOf ·) → probablyPythonFile fs path = true) ∧
    (e ∈ quotedIn cpus "Heuristics" ("are ignored (including various other files)".toList.isSuffixOf ·) → probablyPythonFile fs path = false) := by
  rw [quotedIn_eq _ _ _ (by decide +kernel), quotedIn_eq _ _ _ (by decide +kernel)]
  refine ⟨fun he => C46_python fs path e h ?_, fun he => C46_not_python fs path e h (.inl ?_)⟩
  · have : ∀ x ∈ ((((usageTitle "" ++ usageNotes ++ usageFirst) ++ usageOptions).filter fun p => "Heuristics".toList.isPrefixOf (firstLine p)).flatMap
      fun p => (p.filter ("are always scanned (unless otherwise excluded)".toList.isSuffixOf ·)).flatMap quoted), x ∈ ["py", "py3", "pyw", "pyj", "pyi"] := by decide +kernel
    exact this e he
  · have : ∀ x ∈ ((((usageTitle "" ++ usageNotes ++ usageFirst) ++ usageOptions).filter fun p => "Heuristics".toList.isPrefixOf (firstLine p)).flatMap
      fun p => (p.filter ("are ignored (including various other files)".toList.isSuffixOf ·)).flatMap quoted), x ∈ ["pyc", "pyd", "pxd", "pyx", "pyo"] := by decide +kernel
    exact this e he

/-! ### Cases -/

/-- Options of all forms, and words that are none. -/
example (env : ArgEnv) : (∀ w ∈ ["--lint", "-vv", "-t=3.8", "--exclude", "--no-config-file"], ¬ Meaningless env w) ∧
    ∀ w ∈ ["a.py", "--verbose", "-t", "--processes", "--Quiet", ""], Meaningless env w := by
  constructor
  · intro w hw
    refine (C78_words env 4 w).mp ?_
    rw [documented_eq, fits_iff]
    revert w
    decide +kernel
  · intro w hw
    refine Classical.byContradiction fun h => ?_
    have := (C78_words env 4 w).mpr h
    rw [documented_eq, fits_iff] at this
    clear h
    revert w
    decide +kernel

/-- `-f` takes a value, `--no-tips` does not and is no default, `--show-tips` is. -/
example (env : ArgEnv) : Wants env "-f" ∧ ¬ Wants env "--no-tips" ∧ ¬ AsDefault env 4 "--no-tips" ∧ AsDefault env 4 "--show-tips" := by
  have m : ∀ d ∈ docTable, d ∈ documented 4 := fun d h => by rw [documented_eq]; exact h
  refine ⟨?_, ?_, ?_, ?_⟩
  · exact (C78_values env 4 (m ⟨"-f", .followed, false⟩ (by decide +kernel)) (.inr rfl)).mp rfl
  · exact fun h => absurd ((C78_values env 4 (m ⟨"--no-tips", .alone, false⟩ (by decide +kernel)) (.inl rfl)).mpr h) (by decide)
  · exact fun h => absurd ((C78_default env 4 4 (m ⟨"--no-tips", .alone, false⟩ (by decide +kernel)) rfl).mpr h) (by decide)
  · exact (C78_default env 4 4 (m ⟨"--show-tips", .alone, true⟩ (by decide +kernel)) rfl).mp rfl

/-- `PARSABLE` is accepted as format, `enum34` not as backport. -/
example : (∃ st', argStep plainEnv "--format" (some "PARSABLE") (untouched 4) = .ok st') ∧
    ¬ ∃ st', argStep plainEnv "--backport" (some "enum34") (untouched 4) = .ok st' := by
  refine ⟨(C78_names plainEnv 4 _ _).2.2.mpr ?_, fun h => ?_⟩
  · rw [listed_formats]; decide +kernel
  · have := (C78_names plainEnv 4 _ _).1.mp h
    rw [listed_backports] at this
    exact absurd this (by decide +kernel)

end Vermin.Props
