import Verif.Props.Messages
/-
C77 for config files: what is printed about a config file.
-/
namespace Vermin.Props
open Vermin Vermin.Py Vermin.Spec

theorem getList_plain {i : Ini} {s : Dict String IniVal} {c : Config} {opt : String} (hd : Dict.get? (iniDefaults c) opt = some (.text ""))
    (h : Plain i s opt) : ∃ l, i.getList s c opt = .ok l := by
  have : PlainList i s opt none fun _ => True := by
    rcases h with ⟨t, h⟩ | h
    · exact .inl ⟨t, h, fun _ _ => trivial, fun n hn => by cases hn⟩
    · exact .inr h
  obtain ⟨l, h, -⟩ := getList_ok hd this
  exact ⟨l, h⟩

/-- Rejection in both functions. -/
theorem rejected_none {f : Config → String → Config × Bool} {R : Config → Config → Prop}
    (hf : ∀ c d x, R c d → (f c x).2 = (f d x).2 ∧ R (f c x).1 (f d x).1) : ∀ {l : List String} {c d : Config}, R c d →
    (firstRejected f d l = none ↔ (addEach f c l).isSome = true)
  | [], c, d, _ => by simp [firstRejected, addEach]
  | x :: l, c, d, h => by
    have := hf c d x h
    unfold firstRejected addEach
    rcases hc : f c x with ⟨c', b⟩
    rcases hd : f d x with ⟨d', b'⟩
    rw [hc, hd] at this
    simp only at this
    obtain ⟨rfl, h'⟩ := this
    cases b with
    | true => exact rejected_none hf h'
    | false => simp

theorem firstRejected_some {f : Config → String → Config × Bool} : ∀ {l : List String} {d c : Config} {x : String}, firstRejected f d l = some (c, x) →
    ∃ pre post, l = pre ++ x :: post ∧ addEach f d pre = some c ∧ (f c x).2 = false
  | [], d, c, x, h => by cases h
  | y :: l, d, c, x, h => by
    unfold firstRejected at h
    split at h
    · rename_i d' hd
      obtain ⟨pre, post, rfl, h1, h2⟩ := firstRejected_some h
      exact ⟨y :: pre, post, rfl, by simp [addEach, hd, h1], h2⟩
    · rename_i d' hd
      simp only [Option.some.injEq, Prod.mk.injEq] at h
      obtain ⟨rfl, rfl⟩ := h
      exact ⟨[], l, rfl, rfl, by rw [hd]⟩

theorem targets_prefix : ∀ {l : List String} {c c' : Config}, addEach (fun c t => c.addTarget (.text t)) c l = some c' →
    (∀ y ∈ l, IsTarget y) ∧ c'.targets.length = c.targets.length + l.length ∧ (c.targets.length ≤ 2 → c'.targets.length ≤ 2)
  | [], c, c', h => by cases h; simp
  | x :: l, c, c', h => by
    unfold addEach at h
    split at h
    · rename_i d hd
      obtain ⟨h1, h2, h3⟩ := targets_prefix h
      unfold Config.addTarget at hd
      split at hd
      · cases hd
      rename_i hl
      simp only at hd
      split at hd
      · cases hd
      · rename_i t ht
        cases hd
        rw [pushTarget_length] at h2 h3
        refine ⟨?_, by simp only [List.length_cons]; omega, fun h => h3 (by omega)⟩
        intro y hy
        rcases List.mem_cons.mp hy with rfl | hy
        · exact isTarget_iff.mpr ⟨t, ht⟩
        · exact h1 y hy
    · cases h

theorem addTarget_false {c : Config} {x : String} (h : (c.addTarget (.text x)).2 = false) : c.targets.length = 2 ∨ c.targets.length ≠ 2 ∧ ¬ IsTarget x := by
  unfold Config.addTarget at h
  split at h
  · rename_i hl; exact .inl hl
  rename_i hl
  simp only at h
  split at h
  · rename_i hp
    refine .inr ⟨hl, fun ht => ?_⟩
    obtain ⟨t, ht⟩ := isTarget_iff.mp ht
    rw [hp] at ht
    cases ht
  · cases h

theorem addRegexes_bad {valid : String → Bool} : ∀ {l : List String} (c : Config), ¬ (∀ x ∈ l, valid x = true) → addRegexes valid c l = .error .regexError
  | [], c, h => absurd (by simp) h
  | x :: l, c, h => by
    unfold addRegexes
    by_cases hx : valid x = true
    · rw [if_pos hx]
      exact addRegexes_bad _ fun h' => h (by simpa [hx] using h')
    · rw [if_neg hx]

theorem isFeature_iff {x : String} : isFeature x = true ↔ x ∈ ["fstring-self-doc", "union-types"] := by
  simp [isFeature, featureNames]

theorem backports_prefix : ∀ {l : List String} {c c' : Config}, addEach Config.addBackport c l = some c' → ∀ y ∈ l, ∃ r ∈ backports, r.1 = y :=
  fun h y hy => isBackport_iff.mp ((addEach_backports.mp h).1 y hy)

theorem features_prefix : ∀ {l : List String} {c c' : Config}, addEach Config.enableFeature c l = some c' → ∀ y ∈ l, y ∈ ["fstring-self-doc", "union-types"] :=
  fun h y hy => isFeature_iff.mp ((addEach_features.mp h).1 y hy)

theorem addTarget_alike (c d : Config) (x : String) (h : c.targets = d.targets) :
    (c.addTarget (.text x)).2 = (d.addTarget (.text x)).2 ∧ (c.addTarget (.text x)).1.targets = (d.addTarget (.text x)).1.targets := by
  unfold Config.addTarget
  rw [h]
  split
  · exact ⟨rfl, h⟩
  · simp only
    split
    · exact ⟨rfl, h⟩
    · refine ⟨rfl, ?_⟩
      simp [Config.pushTarget, h]

theorem get_plain {i : Ini} {s : Dict String IniVal} {c : Config} {opt t : String} (hd : Dict.get? (iniDefaults c) opt = some (.text t))
    (h : Plain i s opt) : ∃ u, i.get s c opt = .ok (.text u) ∧ (Gives i s opt (.text u) ∨ u = t) := by
  rcases h with ⟨u, h⟩ | h
  · exact ⟨u, get_gives h, .inl h⟩
  · exact ⟨t, get_silent hd h, .inr rfl⟩

theorem gives_of_get {i : Ini} {s : Dict String IniVal} {c : Config} {opt u t : String} (hd : Dict.get? (iniDefaults c) opt = some (.text t))
    (h : i.get s c opt = .ok (.text u)) : Gives i s opt (.text u) ∨ u = t := by
  unfold Ini.get at h
  split at h
  · cases h
  · rename_i v hne hv
    cases h
    exact .inl (.inl ⟨Dict.mem_of_get? hv, hv⟩)
  · rename_i hn
    unfold Ini.defaults at h
    cases hdf : Dict.get? i.dflt opt with
    | none =>
      rw [hdf, hd] at h
      simp only at h
      cases h
      exact .inr rfl
    | some v =>
      rw [hdf] at h
      refine .inl (.inr ⟨?_, ?_⟩)
      · intro w hw
        have : (Dict.get? s opt).isSome := (Dict.mem_keys_iff s opt).mp (List.mem_map.mpr ⟨_, hw, rfl⟩)
        rw [hn] at this
        cases this
      · cases v <;> simp only at h <;> cases h
        exact hdf

/-- Whether a config file is usable, and what is printed about it. -/
theorem file_msgs (cpus : Nat) (valid : String → Bool) (exText : Err → String) (path : String) (read : Option IniRead) :
    ((∃ c, parseFile cpus valid (read.bind Except.toOption) = some c) ∧ parseFileMsgs cpus valid exText path read = []) ∨
    (parseFile cpus valid (read.bind Except.toOption) = none ∧ FileFault valid exText path read (parseFileMsgs cpus valid exText path read)) := by
  have ok : ∀ {α β : Type} (x : α) (k : α → Except Err β), ((Except.ok x : Except Err α) >>= k) = k x := fun _ _ => rfl
  cases read with
  | none => exact .inr ⟨rfl, .unopened⟩
  | some r =>
  cases r with
  | error ex => exact .inr ⟨rfl, .unparsed⟩
  | ok i =>
  show ((∃ c, parseFile cpus valid (some i) = some c) ∧ _) ∨ (parseFile cpus valid (some i) = none ∧ _)
  cases hs : i.sect with
  | none => exact .inr ⟨by simp [parseFile, parseFp, hs], by simp only [parseFileMsgs, parseFpMsgs, hs]; exact .sectionless hs⟩
  | some s =>
  simp only [parseFile, parseFp, parseFileMsgs, parseFpMsgs, hs]
  have fail : ∀ {e : Err}, Unusable valid i s →
      ((∃ c, (none : Option Config) = some c) ∧ ["Could not load config file: " ++ path, exText e] = []) ∨
      ((none : Option Config) = none ∧ FileFault valid exText path (some (.ok i)) ["Could not load config file: " ++ path, exText e]) :=
    fun h => .inr ⟨rfl, .raised hs h⟩
  cases g1 : i.getBool s (Config.init cpus) "quiet" with
  | error e => exact fail (.inl ⟨"quiet", by simp, fun h => by obtain ⟨b, hb⟩ := getBool_ok (c := Config.init cpus) (d := false) (by rfl) h; rw [g1] at hb; cases hb⟩)
  | ok v1 =>
  simp only [ok]
  cases g2 : i.getUint s (Config.init cpus) "verbose" with
  | error e => exact fail (.inr (.inl ⟨"verbose", by simp, fun h => by obtain ⟨b, hb⟩ := getUint_ok (c := Config.init cpus) (d := 0) (by rfl) h; rw [g2] at hb; cases hb⟩))
  | ok v2 =>
  simp only [ok]
  cases g3 : i.getBool s (Config.init cpus) "print_visits" with
  | error e => exact fail (.inl ⟨"print_visits", by simp, fun h => by obtain ⟨b, hb⟩ := getBool_ok (c := Config.init cpus) (d := false) (by rfl) h; rw [g3] at hb; cases hb⟩)
  | ok v3 =>
  simp only [ok]
  cases g4 : i.getUint s (Config.init cpus) "processes" with
  | error e => exact fail (.inr (.inl ⟨"processes", by simp, fun h => by obtain ⟨b, hb⟩ := getUint_ok (c := Config.init cpus) (d := cpus) (by rfl) h; rw [g4] at hb; cases hb⟩))
  | ok v4 =>
  simp only [ok]
  cases g5 : i.getBool s (Config.init cpus) "ignore_incomp" with
  | error e => exact fail (.inl ⟨"ignore_incomp", by simp, fun h => by obtain ⟨b, hb⟩ := getBool_ok (c := Config.init cpus) (d := false) (by rfl) h; rw [g5] at hb; cases hb⟩)
  | ok v5 =>
  simp only [ok]
  cases g6 : i.getBool s (Config.init cpus) "pessimistic" with
  | error e => exact fail (.inl ⟨"pessimistic", by simp, fun h => by obtain ⟨b, hb⟩ := getBool_ok (c := Config.init cpus) (d := false) (by rfl) h; rw [g6] at hb; cases hb⟩)
  | ok v6 =>
  simp only [ok]
  cases g7 : i.getBool s (Config.init cpus) "show_tips" with
  | error e => exact fail (.inl ⟨"show_tips", by simp, fun h => by obtain ⟨b, hb⟩ := getBool_ok (c := Config.init cpus) (d := true) (by rfl) h; rw [g7] at hb; cases hb⟩)
  | ok v7 =>
  simp only [ok]
  cases g8 : i.getBool s (Config.init cpus) "analyze_hidden" with
  | error e => exact fail (.inl ⟨"analyze_hidden", by simp, fun h => by obtain ⟨b, hb⟩ := getBool_ok (c := Config.init cpus) (d := false) (by rfl) h; rw [g8] at hb; cases hb⟩)
  | ok v8 =>
  simp only [ok]
  cases g9 : i.getBool s (Config.init cpus) "eval_annotations" with
  | error e => exact fail (.inl ⟨"eval_annotations", by simp, fun h => by obtain ⟨b, hb⟩ := getBool_ok (c := Config.init cpus) (d := false) (by rfl) h; rw [g9] at hb; cases hb⟩)
  | ok v9 =>
  simp only [ok]
  cases g10 : i.getBool s (Config.init cpus) "only_show_violations" with
  | error e => exact fail (.inl ⟨"only_show_violations", by simp, fun h => by obtain ⟨b, hb⟩ := getBool_ok (c := Config.init cpus) (d := false) (by rfl) h; rw [g10] at hb; cases hb⟩)
  | ok v10 =>
  simp only [ok]
  cases g11 : i.getBool s (Config.init cpus) "parse_comments" with
  | error e => exact fail (.inl ⟨"parse_comments", by simp, fun h => by obtain ⟨b, hb⟩ := getBool_ok (c := Config.init cpus) (d := true) (by rfl) h; rw [g11] at hb; cases hb⟩)
  | ok v11 =>
  simp only [ok]
  cases g12 : i.getBool s (Config.init cpus) "scan_symlink_folders" with
  | error e => exact fail (.inl ⟨"scan_symlink_folders", by simp, fun h => by obtain ⟨b, hb⟩ := getBool_ok (c := Config.init cpus) (d := false) (by rfl) h; rw [g12] at hb; cases hb⟩)
  | ok v12 =>
  simp only [ok]
  cases g13 : i.getList s (Config.init cpus) "exclusions" with
  | error e => exact fail (.inl ⟨"exclusions", by simp, fun h => by obtain ⟨b, hb⟩ := getList_plain (c := Config.init cpus) (by rfl) h; rw [g13] at hb; cases hb⟩)
  | ok v13 =>
  simp only [ok]
  cases g14 : i.getList s (Config.init cpus) "exclusion_regex" with
  | error e => exact fail (.inl ⟨"exclusion_regex", by simp, fun h => by obtain ⟨b, hb⟩ := getList_plain (c := Config.init cpus) (by rfl) h; rw [g14] at hb; cases hb⟩)
  | ok v14 =>
  simp only [ok]
  by_cases hval : ∀ x ∈ v14, valid x = true
  case neg =>
    rw [addRegexes_bad _ hval, addRegexes_bad _ hval]
    refine fail (.inr (.inr ⟨v14, getList_spec (by rfl) g14, ?_⟩))
    obtain ⟨x, hx⟩ := Classical.not_forall.mp hval
    obtain ⟨hx, hv⟩ := Classical.not_imp.mp hx
    exact ⟨x, hx, by simpa using hv⟩
  rw [foldl_addExclusion]
  generalize hc0 : (Config.mk .. : Config) = c0
  obtain ⟨c1, h1, ht1⟩ := addRegexes_ok c0 hval
  obtain ⟨d1, h1', -⟩ := addRegexes_ok (Config.init cpus) hval
  rw [h1, h1']
  simp only [ok]
  cases g16 : i.getBool s (Config.init cpus) "make_paths_absolute" with
  | error e => exact fail (.inl ⟨"make_paths_absolute", by simp, fun h => by obtain ⟨b, hb⟩ := getBool_ok (c := Config.init cpus) (d := true) (by rfl) h; rw [g16] at hb; cases hb⟩)
  | ok v16 =>
  simp only [ok]
  cases g17 : i.getList s (Config.init cpus) "backports" with
  | error e => exact fail (.inl ⟨"backports", by simp, fun h => by obtain ⟨b, hb⟩ := getList_plain (c := Config.init cpus) (by rfl) h; rw [g17] at hb; cases hb⟩)
  | ok v17 =>
  simp only [ok]
  have hrb := rejected_none (f := Config.addBackport) (R := fun _ _ => True) (fun c d x _ => ⟨by simp [Config.addBackport]; split <;> rfl, trivial⟩) (l := v17)
    (c := { c1 with makePathsAbsolute := v16 }) (d := Config.init cpus) trivial
  cases hb : firstRejected Config.addBackport (Config.init cpus) v17 with
  | some r =>
    obtain ⟨c, x⟩ := r
    rw [hb] at hrb
    have hn : addEach Config.addBackport { c1 with makePathsAbsolute := v16 } v17 = none := by simpa using hrb
    rw [hn]
    obtain ⟨pre, post, rfl, k1, k2⟩ := firstRejected_some hb
    refine .inr ⟨rfl, .backport hs (getList_spec (by rfl) g17) (backports_prefix k1) ?_⟩
    intro r hr he
    have : isBackport x = true := isBackport_iff.mpr ⟨r, hr, he⟩
    simp [Config.addBackport, this] at k2
  | none =>
  rw [hb] at hrb
  obtain ⟨c2, hc2⟩ := Option.isSome_iff_exists.mp (hrb.mp rfl)
  rw [hc2]
  obtain ⟨-, rfl⟩ := addEach_backports.mp hc2
  simp only
  cases g18 : i.getList s (Config.init cpus) "features" with
  | error e => exact fail (.inl ⟨"features", by simp, fun h => by obtain ⟨b, hb⟩ := getList_plain (c := Config.init cpus) (by rfl) h; rw [g18] at hb; cases hb⟩)
  | ok v18 =>
  simp only [ok]
  generalize hc3 : (Config.mk .. : Config) = c3
  have hrf := rejected_none (f := Config.enableFeature) (R := fun _ _ => True) (fun c d x _ => ⟨by simp [Config.enableFeature]; split <;> rfl, trivial⟩) (l := v18)
    (c := c3) (d := Config.init cpus) trivial
  cases hf : firstRejected Config.enableFeature (Config.init cpus) v18 with
  | some r =>
    obtain ⟨c, x⟩ := r
    rw [hf] at hrf
    have hn : addEach Config.enableFeature c3 v18 = none := by simpa using hrf
    rw [hn]
    obtain ⟨pre, post, rfl, k1, k2⟩ := firstRejected_some hf
    refine .inr ⟨rfl, .feature hs (getList_spec (by rfl) g18) (features_prefix k1) ?_⟩
    intro hx
    simp [Config.enableFeature, isFeature_iff.mpr hx] at k2
  | none =>
  rw [hf] at hrf
  obtain ⟨c4, hc4⟩ := Option.isSome_iff_exists.mp (hrf.mp rfl)
  rw [hc4]
  obtain ⟨-, rfl⟩ := addEach_features.mp hc4
  simp only
  cases g19 : i.getList s (Config.init cpus) "targets" with
  | error e => exact fail (.inl ⟨"targets", by simp, fun h => by obtain ⟨b, hb⟩ := getList_plain (c := Config.init cpus) (by rfl) h; rw [g19] at hb; cases hb⟩)
  | ok v19 =>
  simp only [ok]
  generalize hc5 : (Config.mk .. : Config) = c5
  have ht5 : c5.targets = (Config.init cpus).targets := by
    rw [← hc5]; show c3.targets = _; rw [← hc3]; show c1.targets = _; rw [ht1, ← hc0]; rfl
  have hrt := rejected_none (f := fun c t => c.addTarget (.text t)) (R := fun c d => c.targets = d.targets) addTarget_alike (l := v19) ht5
  cases ht : firstRejected (fun c t => c.addTarget (.text t)) (Config.init cpus) v19 with
  | some r =>
    obtain ⟨c, x⟩ := r
    rw [ht] at hrt
    have hn : addEach (fun c t => c.addTarget (.text t)) c5 v19 = none := by simpa using hrt
    rw [hn]
    obtain ⟨pre, post, rfl, k1, k2⟩ := firstRejected_some ht
    obtain ⟨k3, k4, k5⟩ := targets_prefix k1
    have k5 := k5 (Nat.zero_le 2)
    have k4 : c.targets.length = pre.length := by rw [k4]; show 0 + _ = _; omega
    refine .inr ⟨rfl, ?_⟩
    show FileFault valid exText path (some (.ok i)) (c.addTargetMsgs ++ ["Invalid target: " ++ x])
    unfold Config.addTargetMsgs
    by_cases hl : c.targets.length = 2
    · rw [if_pos hl]
      match pre, k3, k4, g19 with
      | [a, b], k3, k4, g19 => exact .tooMany hs (getList_spec (by rfl) g19) (k3 a (by simp)) (k3 b (by simp))
      | [], _, k4, _ => rw [hl] at k4; cases k4
      | [_], _, k4, _ => rw [hl] at k4; cases k4
      | _ :: _ :: _ :: _, _, k4, _ => rw [hl] at k4; simp at k4
    · rw [if_neg hl]
      have hx := ((addTarget_false k2).resolve_left hl).2
      refine .target hs (getList_spec (by rfl) g19) k3 (by omega) hx
  | none =>
  rw [ht] at hrt
  obtain ⟨c6, hc6⟩ := Option.isSome_iff_exists.mp (hrt.mp rfl)
  rw [hc6]
  simp only
  cases g20 : i.get s (Config.init cpus) "format" with
  | error e =>
    exact fail (.inl ⟨"format", by simp, fun h => by obtain ⟨b, hb, -⟩ := get_plain (c := Config.init cpus) (t := "default") (by rfl) h; rw [g20] at hb; cases hb⟩)
  | ok fv =>
  simp only [ok]
  have nope : (∀ u, fv ≠ .text u) → ¬ Plain i s "format" := fun hne h => by
    obtain ⟨b, hb, -⟩ := get_plain (c := Config.init cpus) (t := "default") (by rfl) h
    rw [g20] at hb
    injection hb with hb
    exact hne b hb
  cases fv with
  | text f =>
    simp only
    cases hfn : Fmt.fromName (String.ofList (strip f.toList)) with
    | none =>
      refine .inr ⟨rfl, ?_⟩
      show FileFault valid exText path (some (.ok i)) ["Unknown format: " ++ String.ofList (strip f.toList)]
      rcases gives_of_get (t := "default") (by rfl) g20 with h | rfl
      · exact .format hs h (fromName_none.mp hfn)
      · exact absurd hfn (by decide +kernel)
    | some g => exact .inl ⟨⟨_, rfl⟩, rfl⟩
  | _ => exact fail (.inl ⟨"format", by simp, nope (by intro u h; cases h)⟩)

/-- **C77.** About a config file something is printed exactly if it cannot be used, and then it tells what is wrong with it. -/
theorem C77_file (cpus : Nat) (valid : String → Bool) (exText : Err → String) (path : String) (read : Option IniRead) :
    (parseFileMsgs cpus valid exText path read = [] ↔ ∃ c, parseFile cpus valid (read.bind Except.toOption) = some c) ∧
    (parseFile cpus valid (read.bind Except.toOption) = none → FileFault valid exText path read (parseFileMsgs cpus valid exText path read)) := by
  rcases file_msgs cpus valid exText path read with ⟨⟨c, h1⟩, h2⟩ | ⟨h1, h2⟩
  · exact ⟨⟨fun _ => ⟨c, h1⟩, fun _ => h2⟩, fun h => by rw [h1] at h; cases h⟩
  · refine ⟨⟨fun h => ?_, fun ⟨c, h⟩ => by rw [h1] at h; cases h⟩, fun _ => h2⟩
    rw [h] at h2
    cases h2

/-- The environment in which config files are read with `Config.parse_file`. -/
def readingEnv (env : ArgEnv) (exText : Err → String) (readError : String → String) (read : String → Option IniRead) : MsgEnv :=
  { args := { env with parseFile := fun q => parseFile env.cpus env.validRegex ((read q).bind Except.toOption) }
    fileMsgs := fun q => parseFileMsgs env.cpus env.validRegex exText q (read q)
    readError := readError }

theorem mistake_told {n : Nat} {w : String} {next : Option String} {ms : List String} (h : Mistake n w next ms) : ms ≠ [] := by
  cases h <;> simp

/-- **C77.** A refused command line is never refused silently. -/
theorem C77_told {env : ArgEnv} {exText : Err → String} {readError : String → String} {read : String → Option IniRead}
    (he : RealPaths (readingEnv env exText readError read).args) {args : List String} {config : Config}
    (h : parseArgs (readingEnv env exText readError read).args args config = .error .error) :
    Refused (readingEnv env exText readError read) args config (parseArgsMsgs (readingEnv env exText readError read) args config) ∧
    parseArgsMsgs (readingEnv env exText readError read) args config ≠ [] := by
  have hfm : ∀ q f, (readingEnv env exText readError read).args.parseFile q = some f → (readingEnv env exText readError read).fileMsgs q = [] :=
    fun q f hq => (C77_file env.cpus env.validRegex exText q (read q)).1.mpr ⟨f, hq⟩
  obtain ⟨hargs, hd, hw⟩ := refused_plain h
  have hr := (C77_refused he hfm hargs (config := config) hd hw).2 h
  refine ⟨hr, ?_⟩
  generalize parseArgsMsgs (readingEnv env exText readError read) args config = ms at hr
  rintro rfl
  generalize hm : ([] : List String) = ms at hr
  cases hr with
  | noFile => cases hm
  | both => cases hm
  | file h1 h2 =>
    obtain ⟨c, hc⟩ := (C77_file env.cpus env.validRegex exText _ (read _)).1.mp hm.symm
    rw [show (readingEnv env exText readError read).args.parseFile _ = _ from hc] at h2
    cases h2
  | word h1 h2 h3 h4 =>
    have hm := (List.append_eq_nil_iff.mp hm.symm).2
    subst hm
    exact mistake_told h4 rfl
  | violations => exact absurd hm (by simp)
  | quiet => exact absurd hm (by simp)

/-! Witnesses -/

/-- There is a config file `/a/vermin.ini`, detected; `/b/vermin.ini` has an unknown format. -/
def tellingEnv : MsgEnv := readingEnv { plainEnv with detected := .ok (some "/a/vermin.ini"), abspath := fun p => "/b/" ++ p }
  (fun _ => "text") (fun p => "[Errno 2] No such file or directory: '" ++ p ++ "'")
  (fun q => if q = "/a/vermin.ini" then some (.ok sampleIni) else if q = "/b/vermin.ini" then some (.ok { dflt := [], sect := some [("format", .text " xml ")] }) else none)

theorem tellingEnv_real : RealPaths tellingEnv.args := by
  refine ⟨fun s h => ?_, by decide⟩
  have := congrArg String.toList h
  simp [tellingEnv, readingEnv] at this

example : parseArgs tellingEnv.args ["--exclude-file", "none.txt", "--backport", "typing==9", "a.py"] (Config.init 4) = .error .error := by decide +kernel
example : parseArgsMsgs tellingEnv ["--exclude-file", "none.txt", "--backport", "mock==9", "a.py"] (Config.init 4) =
    ["[Errno 2] No such file or directory: 'none.txt'", "Unknown backport: mock==9", "Did you mean one of the following?",
      "  mock                   - https://pypi.org/project/mock/ (!2, 3.6)", "Get the full list of backports via `--help`."] := by decide +kernel
example : parseArgsMsgs tellingEnv ["-t=3.5", "a.py"] (Config.init 4) = ["A maximum of two targets can be specified!", "Invalid target: 3.5"] := by decide +kernel
example : parseArgsMsgs tellingEnv ["-c", "vermin.ini", "a.py"] (Config.init 4) = ["Unknown format: xml"] := by decide +kernel
example : parseArgsMsgs tellingEnv ["-c", "none.ini", "a.py"] (Config.init 4) = ["Could not load config file: /b/none.ini", "text"] := by decide +kernel
example : parseArgsMsgs tellingEnv ["--no-config-file", "--lint", "a.py"] (Config.init 4) = ["Showing violations requires target(s) to be specified!"] := by decide +kernel
example : parseArgsMsgs tellingEnv ["a.py"] (Config.init 4) = ["Using detected config: /a/vermin.ini"] := by decide +kernel
example : parseArgsMsgs tellingEnv ["-q", "a.py"] (Config.init 4) = ["Cannot use quiet and verbose modes together!"] := by decide +kernel
example : (parseArgs tellingEnv.args ["--no-config-file", "--format", "parsable", "--exclude-file", "none.txt", "a.py"] (Config.init 4)).isOk = true ∧
    parseArgsMsgs tellingEnv ["--no-config-file", "--format", "parsable", "--exclude-file", "none.txt", "a.py"] (Config.init 4) =
      ["[Errno 2] No such file or directory: 'none.txt'"] := by decide +kernel

end Vermin.Props
