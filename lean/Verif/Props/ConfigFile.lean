import Verif.Props.Config
/-
C49: config files.
-/
namespace Vermin.Props
open Vermin Vermin.Py Vermin.Spec

/-! ### Specification -/

/-- The file gives option `opt` the value `v`: in `[vermin]`, or, if not there, in `[DEFAULT]`. -/
def Gives (i : Ini) (s : Dict String IniVal) (opt : String) (v : IniVal) : Prop :=
  (opt, v) ∈ s ∧ Dict.get? s opt = some v ∨ (∀ w, (opt, w) ∉ s) ∧ Dict.get? i.dflt opt = some v

/-- The file does not mention the option. -/
def Silent (i : Ini) (s : Dict String IniVal) (opt : String) : Prop := (∀ w, (opt, w) ∉ s) ∧ ∀ w, (opt, w) ∉ i.dflt

/-- The words configparser takes as booleans. -/
def BoolWord (t : String) (b : Bool) : Prop :=
  (b = true ∧ String.ofList (lower t.toList) ∈ ["1", "yes", "true", "on"]) ∨
  (b = false ∧ String.ofList (lower t.toList) ∈ ["0", "no", "false", "off"])

/-- Boolean option: the given word; default if not mentioned. -/
structure BoolSpec (i : Ini) (s : Dict String IniVal) (opt : String) (dflt got : Bool) : Prop where
  given : ∀ t b, Gives i s opt (.text t) → BoolWord t b → got = b
  silent : Silent i s opt → got = dflt

/-- Number option: the given non-negative number; default if not mentioned.  A text that is given and not empty is a number. -/
structure UintSpec (i : Ini) (s : Dict String IniVal) (opt : String) (dflt got : Nat) : Prop where
  given : ∀ t (n : Int), Gives i s opt (.text t) → IntText t.toList n → got = n.toNat ∧ 0 ≤ n
  numeric : ∀ t, Gives i s opt (.text t) → t ≠ "" → ∃ n, IntText t.toList n
  silent : Silent i s opt → got = dflt

/-- List option: the lines of the given text; empty if not mentioned. -/
structure ListSpec (i : Ini) (s : Dict String IniVal) (opt : String) (got : List String) : Prop where
  given : ∀ t, Gives i s opt (.text t) → got = (splitlines (strip t.toList)).map String.ofList
  silent : Silent i s opt → got = []

/-! ### The getters meet it -/

theorem bind_ok {ε α β : Type} {x : Except ε α} {f : α → Except ε β} {r : β} :
    (x >>= f) = .ok r ↔ ∃ a, x = .ok a ∧ f a = .ok r := by
  cases x with
  | error e => constructor
               · intro h; cases h
               · rintro ⟨a, h, _⟩; cases h
  | ok a => constructor
            · intro h; exact ⟨a, rfl, h⟩
            · rintro ⟨b, h, h'⟩; cases h; exact h'

theorem get?_none {α β : Type} [DecidableEq α] {d : Dict α β} {k : α} (h : ∀ w, (k, w) ∉ d) : Dict.get? d k = none := by
  cases hg : Dict.get? d k with
  | none => rfl
  | some v => exact absurd (Dict.mem_of_get? hg) (h v)

theorem get_gives {i : Ini} {s : Dict String IniVal} {c : Config} {opt : String} {t : String}
    (h : Gives i s opt (.text t)) : i.get s c opt = .ok (.text t) := by
  rcases h with ⟨_, h⟩ | ⟨h1, h2⟩
  · simp [Ini.get, h]
  · simp [Ini.get, get?_none h1, Ini.defaults, h2]

theorem get_silent {i : Ini} {s : Dict String IniVal} {c : Config} {opt : String} {t : String}
    (hd : Dict.get? (iniDefaults c) opt = some (.text t)) (h : Silent i s opt) : i.get s c opt = .ok (.text t) := by
  simp [Ini.get, get?_none h.1, Ini.defaults, get?_none h.2, hd]

theorem booleanState_of {t : String} {b : Bool} (h : BoolWord t b) : booleanState t = some b := by
  have hf : ∀ l : String, l ∈ ["0", "no", "false", "off"] → ¬ (l = "1" ∨ l = "yes" ∨ l = "true" ∨ l = "on") := by
    decide
  rcases h with ⟨rfl, h⟩ | ⟨rfl, h⟩
  · have h' : String.ofList (lower t.toList) = "1" ∨ String.ofList (lower t.toList) = "yes" ∨
        String.ofList (lower t.toList) = "true" ∨ String.ofList (lower t.toList) = "on" := by simpa using h
    simp only [booleanState]; rw [if_pos h']
  · have h1 := hf _ h
    have h' : String.ofList (lower t.toList) = "0" ∨ String.ofList (lower t.toList) = "no" ∨
        String.ofList (lower t.toList) = "false" ∨ String.ofList (lower t.toList) = "off" := by simpa using h
    simp only [booleanState]; rw [if_neg h1, if_pos h']

theorem getBool_spec {i : Ini} {s : Dict String IniVal} {c : Config} {opt : String} {d got : Bool}
    (hd : Dict.get? (iniDefaults c) opt = some (.text (strBool d))) (h : i.getBool s c opt = .ok got) :
    BoolSpec i s opt d got := by
  constructor
  · intro t b hg hw
    simp only [Ini.getBool, get_gives hg] at h
    have h : (match booleanState t with
      | some b => Except.ok b
      | none => match i.defaults c opt with
        | some v => .ok (decide (v = .text "True"))
        | none => .error .keyError) = (Except.ok got : Except Err _) := h
    rw [booleanState_of hw] at h
    injection h with h; exact h.symm
  · intro hs
    simp only [Ini.getBool, get_silent hd hs] at h
    have h : (match booleanState (strBool d) with
      | some b => Except.ok b
      | none => match i.defaults c opt with
        | some v => .ok (decide (v = .text "True"))
        | none => .error .keyError) = (Except.ok got : Except Err _) := h
    have hb : booleanState (strBool d) = some d := by cases d <;> decide +kernel
    rw [hb] at h
    injection h with h; exact h.symm

theorem intText_ne_nil {s : List Char} {n : Int} (h : IntText s n) : s ≠ [] := by
  rintro rfl
  have := int_iff.mpr h
  have e : int [] = none := by decide
  rw [e] at this; cases this

theorem getUint_spec {i : Ini} {s : Dict String IniVal} {c : Config} {opt : String} {d got : Nat}
    (hd : Dict.get? (iniDefaults c) opt = some (.text (String.ofList (strNat d)))) (h : i.getUint s c opt = .ok got) :
    UintSpec i s opt d got := by
  have core : ∀ (t : String) (n : Int), i.get s c opt = .ok (.text t) → IntText t.toList n → got = n.toNat ∧ 0 ≤ n := by
    intro t n hg ht
    simp only [Ini.getUint, hg] at h
    have hl : ¬ t.length = 0 := by
      intro h0
      have : t.toList = [] := by rw [← List.length_eq_zero_iff, String.length_toList]; exact h0
      exact intText_ne_nil ht this
    have h : (if t.length = 0 then
        match i.defaults c opt with
        | some (.text d) =>
          match int d.toList with
          | some n => .ok n.toNat
          | none => .error .valueError
        | some _ => .error .typeError
        | none => .error .keyError
      else match int t.toList with
        | none => .error .valueError
        | some n => if n < 0 then .error .valueError else .ok n.toNat) = (Except.ok got : Except Err _) := h
    rw [if_neg hl, int_iff.mpr ht] at h
    simp only at h
    split at h
    · cases h
    · injection h with h; exact ⟨h.symm, by omega⟩
  constructor
  · intro t n hg ht; exact core t n (get_gives hg) ht
  · intro t hg hne
    simp only [Ini.getUint, get_gives hg] at h
    have hl : ¬ t.length = 0 := by
      intro h0
      have : t.toList = [] := by rw [← List.length_eq_zero_iff, String.length_toList]; exact h0
      exact hne (String.toList_inj.mp (by simpa using this))
    have h : (if t.length = 0 then
        match i.defaults c opt with
        | some (.text d) =>
          match int d.toList with
          | some n => .ok n.toNat
          | none => .error .valueError
        | some _ => .error .typeError
        | none => .error .keyError
      else match int t.toList with
        | none => .error .valueError
        | some n => if n < 0 then .error .valueError else .ok n.toNat) = (Except.ok got : Except Err _) := h
    rw [if_neg hl] at h
    cases hi : int t.toList with
    | none => rw [hi] at h; cases h
    | some n => exact ⟨n, int_iff.mp hi⟩
  · intro hs
    have := core _ (d : Int) (get_silent hd hs) (int_iff.mp (by rw [String.toList_ofList]; exact int_strNat d))
    simpa using this.1

theorem getList_spec {i : Ini} {s : Dict String IniVal} {c : Config} {opt : String} {got : List String}
    (hd : Dict.get? (iniDefaults c) opt = some (.text "")) (h : i.getList s c opt = .ok got) :
    ListSpec i s opt got := by
  constructor
  · intro t hg
    simp only [Ini.getList, get_gives hg] at h
    have h : Except.ok ((splitlines (strip t.toList)).map String.ofList) = (Except.ok got : Except Err _) := h
    injection h with h; exact h.symm
  · intro hs
    simp only [Ini.getList, get_silent hd hs] at h
    have h : Except.ok ((splitlines (strip "".toList)).map String.ofList) = (Except.ok got : Except Err _) := h
    injection h with h
    rw [← h]; decide +kernel

/-! ### The collections -/

theorem addEach_backports : ∀ {l : List String} {c c' : Config}, addEach Config.addBackport c l = some c' ↔
    (∀ x ∈ l, isBackport x = true) ∧ c' = { c with backports := l.foldl addSet c.backports }
  | [], c, c' => by
    simp only [addEach, Option.some.injEq, List.not_mem_nil, false_implies, implies_true, true_and, List.foldl_nil]
    exact ⟨fun h => h.symm, fun h => h.symm⟩
  | x :: l, c, c' => by
    by_cases hx : isBackport x = true
    · simp only [addEach, Config.addBackport, hx, if_true]
      rw [addEach_backports]
      simp [hx]
    · simp only [addEach, Config.addBackport, hx, Bool.false_eq_true, if_false]
      simp [hx]

theorem addEach_features : ∀ {l : List String} {c c' : Config}, addEach Config.enableFeature c l = some c' ↔
    (∀ x ∈ l, isFeature x = true) ∧ c' = { c with features := l.foldl addSet c.features }
  | [], c, c' => by
    simp only [addEach, Option.some.injEq, List.not_mem_nil, false_implies, implies_true, true_and, List.foldl_nil]
    exact ⟨fun h => h.symm, fun h => h.symm⟩
  | x :: l, c, c' => by
    by_cases hx : isFeature x = true
    · simp only [addEach, Config.enableFeature, hx, if_true]
      rw [addEach_features]
      simp [hx]
    · simp only [addEach, Config.enableFeature, hx, Bool.false_eq_true, if_false]
      simp [hx]

theorem foldl_addExclusion : ∀ (l : List String) (c : Config),
    l.foldl Config.addExclusion c = { c with exclusions := l.foldl addSet c.exclusions }
  | [], _ => rfl
  | _ :: l, c => by rw [List.foldl_cons, foldl_addExclusion l]; rfl

theorem addRegexes_spec {valid : String → Bool} : ∀ {l : List String} {c c' : Config}, addRegexes valid c l = .ok c' →
    (∀ x ∈ l, valid x = true) ∧ c' = { c with exclusionRegex := l.foldl addSet c.exclusionRegex }
  | [], c, c', h => by cases h; simp
  | x :: l, c, c', h => by
    simp only [addRegexes] at h
    split at h
    · rename_i hx
      obtain ⟨h1, h2⟩ := addRegexes_spec h
      refine ⟨?_, h2⟩
      intro y hy
      rcases List.mem_cons.mp hy with rfl | hy
      · exact hx
      · exact h1 y hy
    · cases h

theorem mem_foldl_addSet (l s : List String) (x : String) : x ∈ l.foldl addSet s ↔ x ∈ s ∨ x ∈ l := by
  induction l generalizing s with
  | nil => simp
  | cons y l ih => rw [List.foldl_cons, ih, mem_addSet, List.mem_cons]; grind

/-- Targets: all texts are targets, there are at most two, and the result has exactly them in ascending order. -/
theorem addEach_targets : ∀ {l : List String} {c c' : Config}, c.targets.length ≤ 2 →
    addEach (fun c t => c.addTarget (.text t)) c l = some c' →
    ∃ ts, l.map parseTarget = ts.map some ∧ (l ≠ [] → c.targets.length + l.length ≤ 2) ∧
      c' = { c with targets := c'.targets } ∧ c'.targets.Perm (c.targets ++ ts) ∧
      (l ≠ [] → c'.targets.Pairwise fun a b => a.2 ≤ b.2)
  | [], c, c', _, h => by
    simp only [addEach, Option.some.injEq] at h; subst h
    exact ⟨[], rfl, by simp, rfl, by simp, by simp⟩
  | x :: l, c, c', hle, h => by
    simp only [addEach, Config.addTarget] at h
    by_cases hl : c.targets.length = 2
    · simp [hl] at h
    · simp only [hl, if_false] at h
      cases hp : parseTarget x with
      | none => simp [hp] at h
      | some t =>
        simp only [hp] at h
        have hlen : (c.pushTarget t).targets.length = c.targets.length + 1 := by
          simp [Config.pushTarget, length_sort]
        obtain ⟨ts, h1, h2, h3, h4, h5⟩ := addEach_targets (by omega) h
        have hperm : (c.pushTarget t).targets.Perm (c.targets ++ [t]) := sort_perm _
        refine ⟨t :: ts, by simp [hp, h1], ?_, ?_, ?_, ?_⟩
        · intro _
          cases l with
          | nil =>
            simp only [addEach, Option.some.injEq] at h
            simp only [List.length_cons, List.length_nil]
            omega
          | cons y l =>
            have := h2 (by simp)
            rw [hlen] at this
            simp only [List.length_cons] at *
            omega
        · rw [h3]; rfl
        · exact h4.trans (by simpa using hperm.append_right ts)
        · intro _
          cases l with
          | nil =>
            simp only [addEach, Option.some.injEq] at h
            rw [← h]
            simpa [Config.pushTarget, Config.targetLe] using sort_sorted targetLe_preord (c.targets ++ [t])
          | cons y l => exact h5 (by simp)

/-! ### C49 -/

set_option maxHeartbeats 1000000 in
/-- C49: if reading a config file yields a config, every option of the file has been given its value and every other its
default.  (`parsable` raises the verbosity, ignores incompatible versions and disables tips.) -/
theorem C49_parsed {cpus : Nat} {valid : String → Bool} {read : Option Ini} {c : Config}
    (h : parseFile cpus valid read = some c) :
    ∃ i s, read = some i ∧ i.sect = some s ∧
      BoolSpec i s "quiet" false c.quiet ∧
      (∃ v, UintSpec i s "verbose" 0 v ∧ c.verbose = if c.format = .parsable then max 3 v else v) ∧
      BoolSpec i s "print_visits" false c.printVisits ∧
      (∃ p, UintSpec i s "processes" cpus p ∧ c.processes = if p = 0 then cpus else p) ∧
      (∃ b, BoolSpec i s "ignore_incomp" false b ∧ c.ignoreIncomp = (b || decide (c.format = .parsable))) ∧
      BoolSpec i s "pessimistic" false c.pessimistic ∧
      (∃ b, BoolSpec i s "show_tips" true b ∧ c.showTips = (b && decide (c.format = .default))) ∧
      BoolSpec i s "analyze_hidden" false c.analyzeHidden ∧
      BoolSpec i s "eval_annotations" false c.evalAnnotations ∧
      BoolSpec i s "only_show_violations" false c.onlyShowViolations ∧
      BoolSpec i s "parse_comments" true c.parseComments ∧
      BoolSpec i s "scan_symlink_folders" false c.scanSymlinkFolders ∧
      BoolSpec i s "make_paths_absolute" true c.makePathsAbsolute ∧
      (∃ l, ListSpec i s "exclusions" l ∧ ∀ x, c.isExcluded x = true ↔ x ∈ l) ∧
      (∃ l, ListSpec i s "exclusion_regex" l ∧ (∀ x ∈ l, valid x = true) ∧ ∀ x, x ∈ c.exclusionRegex ↔ x ∈ l) ∧
      (∃ l, ListSpec i s "backports" l ∧ (∀ x ∈ l, isBackport x = true) ∧ ∀ x, x ∈ c.backports ↔ x ∈ l) ∧
      (∃ l, ListSpec i s "features" l ∧ (∀ x ∈ l, isFeature x = true) ∧ ∀ x, c.hasFeature x = true ↔ x ∈ l) ∧
      (∃ l ts, ListSpec i s "targets" l ∧ l.map parseTarget = ts.map some ∧ l.length ≤ 2 ∧ c.targets.Perm ts ∧
        c.targets.Pairwise fun a b => a.2 ≤ b.2) ∧
      (∀ t, Gives i s "format" (.text t) → c.format.name = String.ofList (strip t.toList)) ∧
      (Silent i s "format" → c.format = .default) := by
  unfold parseFile at h
  split at h
  case h_2 => cases h
  rename_i r hr
  subst h
  unfold parseFp at hr
  split at hr
  · cases hr
  rename_i i
  split at hr
  · cases hr
  rename_i s hs
  refine ⟨i, s, rfl, hs, ?_⟩
  simp only [bind_ok] at hr
  obtain ⟨quiet, g1, verbose, g2, pv, g3, procs, g4, inc, g5, pess, g6, tips, g7, hid, g8, ev, g9, viol, g10, com, g11,
    sym, g12, excl, g13, rx, g14, c1, g15, abs, g16, bps, g17, hr⟩ := hr
  obtain ⟨rxv, rfl⟩ := addRegexes_spec g15
  split at hr
  · cases hr
  rename_i c2 hb
  obtain ⟨hb1, rfl⟩ := addEach_backports.mp hb
  simp only [bind_ok] at hr
  obtain ⟨feats, g18, hr⟩ := hr
  split at hr
  · cases hr
  rename_i c3 hf
  obtain ⟨hf1, rfl⟩ := addEach_features.mp hf
  simp only [bind_ok] at hr
  obtain ⟨tgts, g19, hr⟩ := hr
  split at hr
  · cases hr
  rename_i c4 ht
  simp only [bind_ok] at hr
  obtain ⟨fv, g20, hr⟩ := hr
  split at hr
  case h_2 => cases hr
  rename_i ft
  split at hr
  · cases hr
  rename_i f hff
  have hr : (Except.ok (some (c4.setFormat f)) : Except Err (Option Config)) = Except.ok (some c) := hr
  injection hr with hr
  injection hr with hr
  rw [foldl_addExclusion] at ht
  obtain ⟨ts, t1, t2, t3, t4, t5⟩ := addEach_targets (by exact Nat.zero_le 2) ht
  have hfmt : c.format = f := by rw [← hr]; cases f <;> rfl
  generalize c4.targets = T at *
  subst t3
  have b1 := getBool_spec (d := false) (by rfl) g1
  have b2 := getUint_spec (d := 0) (by rfl) g2
  have b3 := getBool_spec (d := false) (by rfl) g3
  have b4 := getUint_spec (d := cpus) (by rfl) g4
  have b5 := getBool_spec (d := false) (by rfl) g5
  have b6 := getBool_spec (d := false) (by rfl) g6
  have b7 := getBool_spec (d := true) (by rfl) g7
  have b8 := getBool_spec (d := false) (by rfl) g8
  have b9 := getBool_spec (d := false) (by rfl) g9
  have b10 := getBool_spec (d := false) (by rfl) g10
  have b11 := getBool_spec (d := true) (by rfl) g11
  have b12 := getBool_spec (d := false) (by rfl) g12
  have b13 := getList_spec (by rfl) g13
  have b14 := getList_spec (by rfl) g14
  have b16 := getBool_spec (d := true) (by rfl) g16
  have b17 := getList_spec (by rfl) g17
  have b18 := getList_spec (by rfl) g18
  have b19 := getList_spec (by rfl) g19
  have hname : f.name = String.ofList (strip ft.toList) := by
    unfold Fmt.fromName at hff
    split at hff
    · rename_i h; injection hff with hff; rw [← hff, h]; rfl
    · split at hff
      · rename_i h; injection hff with hff; rw [← hff, h]; rfl
      · cases hff
  have hproc : (if (procs : Int) > 0 then (procs : Int).toNat else cpus) = if procs = 0 then cpus else procs := by
    by_cases h0 : procs = 0
    · simp [h0]
    · rw [if_pos (by omega), if_neg h0]; simp
  have hperm : T.Perm ts := by simpa [Config.init, Config.setFormat, Config.setProcesses] using t4
  have hsort : T.Pairwise fun a b => a.2 ≤ b.2 := by
    cases tgts with
    | nil =>
      have : ts = [] := by
        have := congrArg List.length t1; simpa using this.symm
      subst this
      have : T = [] := by
        have := hperm.length_eq; exact List.length_eq_zero_iff.mp (by simpa using this)
      rw [this]; exact List.Pairwise.nil
    | cons _ _ => exact t5 (by simp)
  have hlen : tgts.length ≤ 2 := by
    cases tgts with
    | nil => simp
    | cons _ _ => have := t2 (by simp); simpa [Config.init, Config.setFormat, Config.setProcesses] using this
  have f1 : Silent i s "format" → f = .default := by
    intro hsil
    have := get_silent (c := Config.init cpus) (t := "default") (by rfl) hsil
    rw [g20] at this
    injection this with this; injection this with this
    subst this
    have : Fmt.fromName (String.ofList (strip "default".toList)) = some .default := by decide +kernel
    rw [this] at hff; injection hff with hff; exact hff.symm
  have f2 : ∀ t, Gives i s "format" (.text t) → f.name = String.ofList (strip t.toList) := by
    intro t hg
    have := get_gives (c := Config.init cpus) hg
    rw [g20] at this
    injection this with this; injection this with this
    rw [hname, this]
  have m1 : ∀ x, x ∈ excl.foldl addSet [] ↔ x ∈ excl := fun x => by rw [mem_foldl_addSet]; simp
  have m2 : ∀ x, x ∈ rx.foldl addSet [] ↔ x ∈ rx := fun x => by rw [mem_foldl_addSet]; simp
  have m3 : ∀ x, x ∈ bps.foldl addSet [] ↔ x ∈ bps := fun x => by rw [mem_foldl_addSet]; simp
  have m4 : ∀ x, x ∈ feats.foldl addSet [] ↔ x ∈ feats := fun x => by rw [mem_foldl_addSet]; simp
  subst hr
  cases f
  · refine ⟨b1, ⟨verbose, b2, rfl⟩, b3, ⟨procs, b4, hproc⟩, ⟨inc, b5, ?_⟩, b6, ⟨tips, b7, ?_⟩, b8, b9, b10, b11, b12, b16,
      ⟨excl, b13, ?_⟩, ⟨rx, b14, rxv, m2⟩, ⟨bps, b17, hb1, m3⟩, ⟨feats, b18, hf1, ?_⟩, ⟨tgts, ts, b19, t1, hlen, hperm, hsort⟩,
      f2, f1⟩
    · exact (Bool.or_false _).symm
    · exact (Bool.and_true _).symm
    · intro x; simp only [Config.isExcluded, List.contains_iff_mem]; exact m1 x
    · intro x; simp only [Config.hasFeature, List.contains_iff_mem]; exact m4 x
  · refine ⟨b1, ⟨verbose, b2, rfl⟩, b3, ⟨procs, b4, hproc⟩, ⟨inc, b5, ?_⟩, b6, ⟨tips, b7, ?_⟩, b8, b9, b10, b11, b12, b16,
      ⟨excl, b13, ?_⟩, ⟨rx, b14, rxv, m2⟩, ⟨bps, b17, hb1, m3⟩, ⟨feats, b18, hf1, ?_⟩, ⟨tgts, ts, b19, t1, hlen, hperm, hsort⟩,
      f2, f1⟩
    · exact (Bool.or_true _).symm
    · exact (Bool.and_false _).symm
    · intro x; simp only [Config.isExcluded, List.contains_iff_mem]; exact m1 x
    · intro x; simp only [Config.hasFeature, List.contains_iff_mem]; exact m4 x

/-- C49: one unknown, malformed or superfluous value rejects the whole file. -/
theorem C49_rejects {cpus : Nat} {valid : String → Bool} {i : Ini} {s : Dict String IniVal} (hs : i.sect = some s)
    (hbad :
      (∃ t x, Gives i s "backports" (.text t) ∧ x ∈ (splitlines (strip t.toList)).map String.ofList ∧ isBackport x = false) ∨
      (∃ t x, Gives i s "features" (.text t) ∧ x ∈ (splitlines (strip t.toList)).map String.ofList ∧ isFeature x = false) ∨
      (∃ t x, Gives i s "targets" (.text t) ∧ x ∈ (splitlines (strip t.toList)).map String.ofList ∧ parseTarget x = none) ∨
      (∃ t, Gives i s "targets" (.text t) ∧ 2 < (splitlines (strip t.toList)).length) ∨
      (∃ t x, Gives i s "exclusion_regex" (.text t) ∧ x ∈ (splitlines (strip t.toList)).map String.ofList ∧ valid x = false) ∨
      (∃ t, Gives i s "format" (.text t) ∧ String.ofList (strip t.toList) ∉ ["default", "parsable"]) ∨
      (∃ o t n, (o = "verbose" ∨ o = "processes") ∧ Gives i s o (.text t) ∧ IntText t.toList n ∧ n < 0) ∨
      (∃ o t, (o = "verbose" ∨ o = "processes") ∧ Gives i s o (.text t) ∧ t ≠ "" ∧ ¬ ∃ n, IntText t.toList n))
    : parseFile cpus valid (some i) = none := by
  cases h : parseFile cpus valid (some i) with
  | none => rfl
  | some c =>
    obtain ⟨i', s', he, hs', -, ⟨_, hv, -⟩, -, ⟨_, hp, -⟩, -, -, -, -, -, -, -, -, -, -, ⟨lr, hr, hr', -⟩, ⟨lb, hb, hb', -⟩,
      ⟨lf, hf, hf', -⟩, ⟨lt, ts, ht, ht', ht2, -⟩, hfm, -⟩ := C49_parsed h
    injection he with he
    subst he
    rw [hs] at hs'
    injection hs' with hs'
    subst hs'
    exfalso
    rcases hbad with ⟨t, x, hg, hx, hn⟩ | ⟨t, x, hg, hx, hn⟩ | ⟨t, x, hg, hx, hn⟩ | ⟨t, hg, hn⟩ | ⟨t, x, hg, hx, hn⟩ |
      ⟨t, hg, hn⟩ | ⟨o, t, n, ho, hg, hi, hn⟩ | ⟨o, t, ho, hg, hne, hn⟩
    · rw [← hb.given t hg] at hx; rw [hb' x hx] at hn; cases hn
    · rw [← hf.given t hg] at hx; rw [hf' x hx] at hn; cases hn
    · rw [← ht.given t hg] at hx
      have : parseTarget x ∈ ts.map some := by rw [← ht']; exact List.mem_map.mpr ⟨x, hx, rfl⟩
      rw [hn] at this
      obtain ⟨y, _, hy⟩ := List.mem_map.mp this
      cases hy
    · rw [ht.given t hg, List.length_map] at ht2; omega
    · rw [← hr.given t hg] at hx; rw [hr' x hx] at hn; cases hn
    · rw [← hfm t hg] at hn
      revert hn; cases c.format <;> decide
    · rcases ho with rfl | rfl
      · have := (hv.given t n hg hi).2; omega
      · have := (hp.given t n hg hi).2; omega
    · rcases ho with rfl | rfl
      · exact hn (hv.numeric t hg hne)
      · exact hn (hp.numeric t hg hne)

/-! Acceptance -/

/-- The option is given a text or not mentioned. -/
def Plain (i : Ini) (s : Dict String IniVal) (opt : String) : Prop := (∃ t, Gives i s opt (.text t)) ∨ Silent i s opt

theorem getBool_ok {i : Ini} {s : Dict String IniVal} {c : Config} {opt : String} {d : Bool}
    (hd : Dict.get? (iniDefaults c) opt = some (.text (strBool d))) (h : Plain i s opt) : ∃ b, i.getBool s c opt = .ok b := by
  have key : ∀ t, i.get s c opt = .ok (.text t) → ∃ b, i.getBool s c opt = .ok b := by
    intro t ht
    simp only [Ini.getBool, ht]
    show ∃ b, (match booleanState t with
      | some b => Except.ok b
      | none => match i.defaults c opt with
        | some v => .ok (decide (v = .text "True"))
        | none => .error .keyError) = (Except.ok b : Except Err _)
    cases booleanState t with
    | some b => exact ⟨b, rfl⟩
    | none =>
      have : ∃ v, i.defaults c opt = some v := by
        unfold Ini.defaults
        cases Dict.get? i.dflt opt with
        | some v => exact ⟨v, rfl⟩
        | none => exact ⟨_, hd⟩
      obtain ⟨v, hv⟩ := this
      simp only [hv]
      exact ⟨_, rfl⟩
  rcases h with ⟨t, h⟩ | h
  · exact key t (get_gives h)
  · exact key _ (get_silent hd h)

/-- The option is given a non-negative number or not mentioned. -/
def PlainUint (i : Ini) (s : Dict String IniVal) (opt : String) : Prop :=
  (∃ t n, Gives i s opt (.text t) ∧ IntText t.toList n ∧ 0 ≤ n) ∨ Silent i s opt

theorem getUint_ok {i : Ini} {s : Dict String IniVal} {c : Config} {opt : String} {d : Nat}
    (hd : Dict.get? (iniDefaults c) opt = some (.text (String.ofList (strNat d)))) (h : PlainUint i s opt) :
    ∃ b, i.getUint s c opt = .ok b := by
  have key : ∀ t (n : Int), i.get s c opt = .ok (.text t) → IntText t.toList n → 0 ≤ n → ∃ b, i.getUint s c opt = .ok b := by
    intro t n hg ht hn
    have hl : ¬ t.length = 0 := by
      intro h0
      have : t.toList = [] := by rw [← List.length_eq_zero_iff, String.length_toList]; exact h0
      exact intText_ne_nil ht this
    simp only [Ini.getUint, hg]
    show ∃ b, (if t.length = 0 then
        match i.defaults c opt with
        | some (.text d) =>
          match int d.toList with
          | some n => .ok n.toNat
          | none => .error .valueError
        | some _ => .error .typeError
        | none => .error .keyError
      else match int t.toList with
        | none => .error .valueError
        | some n => if n < 0 then .error .valueError else .ok n.toNat) = (Except.ok b : Except Err _)
    rw [if_neg hl, int_iff.mpr ht]
    simp only [if_neg (show ¬ n < 0 by omega)]
    exact ⟨_, rfl⟩
  rcases h with ⟨t, n, h, hi, hn⟩ | h
  · exact key t n (get_gives h) hi hn
  · exact key _ (d : Int) (get_silent hd h) (int_iff.mp (by rw [String.toList_ofList]; exact int_strNat d)) (by omega)

/-- The option is given lines that all satisfy `P`, at most `k`, or not mentioned. -/
def PlainList (i : Ini) (s : Dict String IniVal) (opt : String) (k : Option Nat) (P : String → Prop) : Prop :=
  (∃ t, Gives i s opt (.text t) ∧ (∀ x ∈ (splitlines (strip t.toList)).map String.ofList, P x) ∧
    ∀ n ∈ k, (splitlines (strip t.toList)).length ≤ n) ∨ Silent i s opt

theorem getList_ok {i : Ini} {s : Dict String IniVal} {c : Config} {opt : String} {k : Option Nat} {P : String → Prop}
    (hd : Dict.get? (iniDefaults c) opt = some (.text "")) (h : PlainList i s opt k P) :
    ∃ l, i.getList s c opt = .ok l ∧ (∀ x ∈ l, P x) ∧ ∀ n ∈ k, l.length ≤ n := by
  have key : ∀ t, i.get s c opt = .ok (.text t) →
      i.getList s c opt = .ok ((splitlines (strip t.toList)).map String.ofList) := by
    intro t ht
    simp only [Ini.getList, ht]
    rfl
  rcases h with ⟨t, h, hp, hk⟩ | h
  · exact ⟨_, key t (get_gives h), hp, by simpa using hk⟩
  · refine ⟨_, key _ (get_silent hd h), ?_, ?_⟩
    · have : (splitlines (strip "".toList)).map String.ofList = [] := by decide +kernel
      rw [this]; simp
    · have : (splitlines (strip "".toList)).map String.ofList = [] := by decide +kernel
      rw [this]; simp

theorem addRegexes_ok {valid : String → Bool} : ∀ {l : List String} (c : Config), (∀ x ∈ l, valid x = true) →
    ∃ c', addRegexes valid c l = .ok c' ∧ c'.targets = c.targets
  | [], c, _ => ⟨c, rfl, rfl⟩
  | x :: l, c, h => by
    simp only [addRegexes, h x (by simp), if_true]
    exact addRegexes_ok _ fun y hy => h y (by simp [hy])

theorem addEach_targets_ok : ∀ {l : List String} (c : Config), (∀ x ∈ l, (parseTarget x).isSome) →
    c.targets.length + l.length ≤ 2 → ∃ c', addEach (fun c t => c.addTarget (.text t)) c l = some c'
  | [], c, _, _ => ⟨c, rfl⟩
  | x :: l, c, h, hl => by
    simp only [List.length_cons] at hl
    obtain ⟨t, ht⟩ := Option.isSome_iff_exists.mp (h x (by simp))
    have : ¬ c.targets.length = 2 := by omega
    simp only [addEach, Config.addTarget, this, if_false, ht]
    refine addEach_targets_ok _ (fun y hy => h y (by simp [hy])) ?_
    simp [Config.pushTarget, length_sort]; omega

/-- C49: a file whose options are all well-formed is accepted. -/
theorem C49_accepts {cpus : Nat} {valid : String → Bool} {i : Ini} {s : Dict String IniVal} (hs : i.sect = some s)
    (hb : ∀ o ∈ ["quiet", "print_visits", "ignore_incomp", "pessimistic", "show_tips", "analyze_hidden", "eval_annotations",
      "only_show_violations", "parse_comments", "scan_symlink_folders", "make_paths_absolute"], Plain i s o)
    (hn : ∀ o ∈ ["verbose", "processes"], PlainUint i s o)
    (he : PlainList i s "exclusions" none fun _ => True)
    (hr : PlainList i s "exclusion_regex" none fun x => valid x = true)
    (hbp : PlainList i s "backports" none fun x => isBackport x = true)
    (hf : PlainList i s "features" none fun x => isFeature x = true)
    (ht : PlainList i s "targets" (some 2) fun x => (parseTarget x).isSome)
    (hfm : (∃ t, Gives i s "format" (.text t) ∧ String.ofList (strip t.toList) ∈ ["default", "parsable"]) ∨ Silent i s "format") :
    (parseFile cpus valid (some i)).isSome = true := by
  obtain ⟨v1, g1⟩ := getBool_ok (c := Config.init cpus) (d := false) (by rfl) (hb "quiet" (by simp))
  obtain ⟨v2, g2⟩ := getUint_ok (c := Config.init cpus) (d := 0) (by rfl) (hn "verbose" (by simp))
  obtain ⟨v3, g3⟩ := getBool_ok (c := Config.init cpus) (d := false) (by rfl) (hb "print_visits" (by simp))
  obtain ⟨v4, g4⟩ := getUint_ok (c := Config.init cpus) (d := cpus) (by rfl) (hn "processes" (by simp))
  obtain ⟨v5, g5⟩ := getBool_ok (c := Config.init cpus) (d := false) (by rfl) (hb "ignore_incomp" (by simp))
  obtain ⟨v6, g6⟩ := getBool_ok (c := Config.init cpus) (d := false) (by rfl) (hb "pessimistic" (by simp))
  obtain ⟨v7, g7⟩ := getBool_ok (c := Config.init cpus) (d := true) (by rfl) (hb "show_tips" (by simp))
  obtain ⟨v8, g8⟩ := getBool_ok (c := Config.init cpus) (d := false) (by rfl) (hb "analyze_hidden" (by simp))
  obtain ⟨v9, g9⟩ := getBool_ok (c := Config.init cpus) (d := false) (by rfl) (hb "eval_annotations" (by simp))
  obtain ⟨v10, g10⟩ := getBool_ok (c := Config.init cpus) (d := false) (by rfl) (hb "only_show_violations" (by simp))
  obtain ⟨v11, g11⟩ := getBool_ok (c := Config.init cpus) (d := true) (by rfl) (hb "parse_comments" (by simp))
  obtain ⟨v12, g12⟩ := getBool_ok (c := Config.init cpus) (d := false) (by rfl) (hb "scan_symlink_folders" (by simp))
  obtain ⟨v13, g13, -⟩ := getList_ok (c := Config.init cpus) (by rfl) he
  obtain ⟨v14, g14, a14, -⟩ := getList_ok (c := Config.init cpus) (by rfl) hr
  obtain ⟨v16, g16⟩ := getBool_ok (c := Config.init cpus) (d := true) (by rfl) (hb "make_paths_absolute" (by simp))
  obtain ⟨v17, g17, a17, -⟩ := getList_ok (c := Config.init cpus) (by rfl) hbp
  obtain ⟨v18, g18, a18, -⟩ := getList_ok (c := Config.init cpus) (by rfl) hf
  obtain ⟨v19, g19, a19, k19⟩ := getList_ok (c := Config.init cpus) (by rfl) ht
  obtain ⟨ft, f, g20, hff⟩ : ∃ ft f, i.get s (Config.init cpus) "format" = .ok (.text ft) ∧
      Fmt.fromName (String.ofList (strip ft.toList)) = some f := by
    rcases hfm with ⟨t, hg, hm⟩ | hg
    · have : ∃ f, Fmt.fromName (String.ofList (strip t.toList)) = some f := by
        simp only [List.mem_cons, List.not_mem_nil, or_false] at hm
        rcases hm with hm | hm <;> rw [hm]
        · exact ⟨.default, by rfl⟩
        · exact ⟨.parsable, by rfl⟩
      obtain ⟨f, hf⟩ := this
      exact ⟨t, f, get_gives hg, hf⟩
    · exact ⟨_, .default, get_silent (t := "default") (by rfl) hg, by decide +kernel⟩
  have ok : ∀ {α β : Type} (x : α) (k : α → Except Err β), ((Except.ok x : Except Err α) >>= k) = k x := fun _ _ => rfl
  simp only [parseFile, parseFp, hs, g1, g2, g3, g4, g5, g6, g7, g8, g9, g10, g11, g12, g13, g14, ok]
  rw [foldl_addExclusion]
  generalize hc0 : (Config.mk .. : Config) = c0
  obtain ⟨c1, h1, ht1⟩ := addRegexes_ok c0 a14
  rw [h1]
  simp only [g16, g17, g18, g19, ok]
  rw [addEach_backports.mpr ⟨a17, rfl⟩]
  simp only
  rw [addEach_features.mpr ⟨a18, rfl⟩]
  simp only
  generalize hc2 : (Config.mk .. : Config) = c2
  have ht2 : c2.targets = [] := by
    rw [← hc2]; show c1.targets = []; rw [ht1, ← hc0]; rfl
  obtain ⟨c3, h3⟩ := addEach_targets_ok c2 a19 (by rw [ht2]; simpa using k19 2 rfl)
  rw [h3]
  simp only [g20, ok]
  rw [hff]
  rfl

/-- A config file using several options. -/
def sampleIni : Ini :=
  { dflt := [], sect := some [("verbose", .text "2"), ("targets", .text "3.8\n2.7-"), ("backports", .text "typing"),
      ("show_tips", .text "no")] }

example : (parseFile 4 (fun _ => true) (some sampleIni)).isSome = true := by decide +kernel
example : (parseFile 4 (fun _ => true) (some sampleIni)).map (·.targets.length) = some 2 := by decide +kernel
example : parseFile 4 (fun _ => true) (some { sampleIni with sect := some [("format", .text "xml")] }) = none := by
  refine C49_rejects (s := [("format", .text "xml")]) rfl (.inr (.inr (.inr (.inr (.inr (.inl ⟨"xml", ?_, ?_⟩))))))
  · exact .inl ⟨by simp, rfl⟩
  · decide +kernel

end Vermin.Props
