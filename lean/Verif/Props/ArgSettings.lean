import Verif.Props.ArgValues
import Verif.Props.Targets
/-
C84: verbosity, format, targets, exclusions and `--versions` are what the command line says last; C53 exactly.
-/
namespace Vermin.Props
open Vermin Vermin.Py Vermin.Spec

/-! ### Specification -/

/-- A word asking for verbosity: `-v`, `-vv`, .. (everything that starts so). -/
def AsksVerbose (w : String) : Prop := "-v".toList <+: w.toList

/-- The verbosity asked for last: the number of `v`s of the last such word, otherwise as before. -/
def LastVerbosity (args : List String) (before after : Nat) : Prop :=
  (∃ pre w post, args = pre ++ w :: post ∧ AsksVerbose w ∧ (∀ x ∈ post, ¬ AsksVerbose x) ∧ after = w.toList.count 'v') ∨
  ((∀ x ∈ args, ¬ AsksVerbose x) ∧ after = before)

/-- The word names a target: `-t=V` or `--target=V`; anything after another `=` is left out. -/
def NamesTarget (w v : String) : Prop :=
  ∃ o ∈ ["-t", "--target"], ∃ r, w.toList = o.toList ++ '=' :: (v.toList ++ r) ∧ '=' ∉ v.toList ∧ (r = [] ∨ ∃ r', r = '=' :: r')

/-- The targets: those named after the last `--no-target`, and without such a word also those there before. -/
def LastTargets (args : List String) (before after : List Target) : Prop :=
  ∀ t, t ∈ after ↔
    (∃ pre w v post, args = pre ++ w :: post ∧ NamesTarget w v ∧ TargetText v.toList t ∧
      ((⟨2, 0⟩ : Ver) ≤ t.2 ∧ t.2 < (⟨4, 0⟩ : Ver)) ∧ "--no-target" ∉ post) ∨ (t ∈ before ∧ "--no-target" ∉ args)

/-- The exclusions: those named, or in files named, after the last `--no-exclude`, and without such a word also those there
before. -/
def LastExclusions (env : ArgEnv) (args : List String) (before after : List String) : Prop :=
  ∀ x, x ∈ after ↔
    (∃ pre post, args = pre ++ "--exclude" :: x :: post ∧ "--no-exclude" ∉ x :: post) ∨
    (∃ pre f post ls l, args = pre ++ "--exclude-file" :: f :: post ∧ "--no-exclude" ∉ f :: post ∧ env.readLines f = some ls ∧
      l ∈ ls ∧ x = String.ofList (strip l.toList)) ∨
    (x ∈ before ∧ "--no-exclude" ∉ args)

/-- A word of `these` comes after all words of `those`. -/
def Ends (these those args : List String) : Prop :=
  ∃ pre w post, args = pre ++ w :: post ∧ w ∈ these ∧ ∀ x ∈ post, x ∉ these ∧ x ∉ those

/-! ### Verbosity -/

theorem classify_asks {w : String} (h : AsksVerbose w) : classify w = .verbose := by
  have hs := classify_spec w
  have hne : ∀ x : String, ¬ "-v".toList <+: x.toList → w ≠ x := by
    rintro x h1 rfl; exact h1 h
  cases hc : classify w <;> rw [hc] at hs <;> simp only [CmdWord, List.mem_cons, List.not_mem_nil, or_false] at hs
  case switch s b =>
    have : ∀ s b, ∀ x ∈ switchNames s b, ¬ "-v".toList <+: x.toList := by
      intro s b; cases s <;> cases b <;> decide +kernel
    exact absurd rfl (hne w (this s b w hs))
  case target =>
    obtain ⟨u, hu⟩ := h
    rcases hs with ⟨t, ht⟩ | ⟨t, ht⟩ <;> rw [← hu] at ht <;> simp at ht
  case processes =>
    obtain ⟨u, hu⟩ := h
    rcases hs with ⟨t, ht⟩ | ⟨t, ht⟩ <;> rw [← hu] at ht <;> simp at ht
  case other => exact absurd (.inr (.inr ⟨_, by simp [optionPrefixes], h⟩)) hs.1
  all_goals first
    | exact absurd hs (hne _ (by decide +kernel))
    | (rcases hs with hs | hs <;> exact absurd hs (hne _ (by decide +kernel)))

theorem addTarget_more (c : Config) (a : Config.TargetArg) : (c.addTarget a).1.exclusions = c.exclusions := by
  unfold Config.addTarget
  split
  · rfl
  · split <;> (try split) <;> rfl

theorem addExclusionLines_mem : ∀ (ls : List String) (c : Config) (x : String),
    x ∈ (c.addExclusionLines ls).exclusions ↔ x ∈ c.exclusions ∨ ∃ l ∈ ls, x = String.ofList (strip l.toList)
  | [], c, x => by simp [Config.addExclusionLines]
  | l :: ls, c, x => by
    have ih := addExclusionLines_mem ls (c.addExclusion (String.ofList (strip l.toList))) x
    unfold Config.addExclusionLines at *
    rw [List.foldl_cons, ih]
    simp only [Config.addExclusion, mem_addSet, List.mem_cons]
    constructor
    · rintro ((h | h) | ⟨l', hl, h⟩)
      · exact .inr ⟨l, .inl rfl, h⟩
      · exact .inl h
      · exact .inr ⟨l', .inr hl, h⟩
    · rintro (h | ⟨l', rfl | hl, h⟩)
      · exact .inl (.inr h)
      · exact .inl (.inl h)
      · exact .inr ⟨l', hl, h⟩

/-- What a word does to these settings. -/
theorem argStep_more {env : ArgEnv} {a : String} {n : Option String} {s s' : ArgState} (h : argStep env a n s = .ok s') :
    (classify a ≠ .verbose → s'.cfg.verbose = s.cfg.verbose) ∧ s'.cfg.format = s.cfg.format ∧
    (classify a ≠ .target → classify a ≠ .noTarget → s'.cfg.targets = s.cfg.targets) ∧
    (classify a ≠ .exclude → classify a ≠ .excludeFile → classify a ≠ .noExclude → s'.cfg.exclusions = s.cfg.exclusions) ∧
    (classify a ≠ .versions → s'.versions = s.versions) := by
  unfold argStep at h
  cases hc : classify a <;> rw [hc] at h <;> simp only at h
  case switch sw b => cases h; cases sw <;> exact ⟨fun _ => rfl, rfl, fun _ _ => rfl, fun _ _ _ => rfl, fun _ => rfl⟩
  case target =>
    have hr := addTarget_same s.cfg (.text (argValue a))
    have hr' := addTarget_more s.cfg (.text (argValue a))
    split at h
    · rename_i c ha
      rw [ha] at hr hr'
      cases h
      exact ⟨fun _ => hr.1, hr.2.2.2, fun h => absurd rfl h, fun _ _ _ => hr', fun _ => rfl⟩
    · cases h
  case excludeFile =>
    split at h
    · cases h
    split at h
    · cases h; exact ⟨fun _ => rfl, rfl, fun _ _ => rfl, fun _ _ _ => rfl, fun _ => rfl⟩
    · rename_i ls _
      cases h
      have hr := addExclusionLines_same ls s.cfg
      exact ⟨fun _ => hr.1, hr.2.2.2, fun _ _ => addExclusionLines_targets ls s.cfg, fun _ h => absurd rfl h, fun _ => rfl⟩
  case backport =>
    split at h
    · cases h
    unfold Config.addBackport at h
    split at h
    · rename_i ha
      split at ha
      · cases ha; cases h
        exact ⟨fun _ => rfl, rfl, fun _ _ => rfl, fun _ _ _ => rfl, fun _ => rfl⟩
      · cases ha
    · cases h
  case feature =>
    split at h
    · cases h
    unfold Config.enableFeature at h
    split at h
    · rename_i ha
      split at ha
      · cases ha; cases h
        exact ⟨fun _ => rfl, rfl, fun _ _ => rfl, fun _ _ _ => rfl, fun _ => rfl⟩
      · cases ha
    · cases h
  all_goals (repeat' split at h)
  all_goals cases h
  all_goals refine ⟨fun h1 => ?_, rfl, fun h1 h2 => ?_, fun h1 h2 h3 => ?_, fun h1 => ?_⟩
  all_goals first
    | rfl
    | exact absurd rfl h1
    | exact absurd rfl h2
    | exact absurd rfl h3

theorem argStep_verbosity {env : ArgEnv} {a : String} {n : Option String} {s s' : ArgState} (h : argStep env a n s = .ok s') :
    (AsksVerbose a ∧ s'.cfg.verbose = a.toList.count 'v') ∨ (¬ AsksVerbose a ∧ s'.cfg.verbose = s.cfg.verbose) := by
  by_cases ha : AsksVerbose a
  · refine .inl ⟨ha, ?_⟩
    simp only [argStep, classify_asks ha] at h
    cases h
    exact List.count_eq_length_filter.symm
  · exact .inr ⟨ha, (argStep_more h).1 fun hc => ha (classify_word hc)⟩

theorem argLoop_verbosity {env : ArgEnv} : ∀ {args : List String} {st st' : ArgState}, argLoop env args st = .ok st' →
    LastVerbosity args st.cfg.verbose st'.cfg.verbose
  | [], st, st', h => by cases h; exact .inr ⟨by simp, rfl⟩
  | a :: rest, st, st', h => by
    unfold argLoop at h
    split at h
    · cases h
    rename_i st1 h1
    rcases argLoop_verbosity h with ⟨pre, w, post, he, hw, hp, hx⟩ | ⟨hn, he⟩
    · exact .inl ⟨a :: pre, w, post, by rw [he]; rfl, hw, hp, hx⟩
    · rcases argStep_verbosity h1 with ⟨ha, hv⟩ | ⟨ha, hv⟩
      · exact .inl ⟨[], a, rest, rfl, ha, hn, he.trans hv⟩
      · refine .inr ⟨?_, he.trans hv⟩
        intro y hy
        rcases List.mem_cons.mp hy with rfl | hy
        · exact ha
        · exact hn y hy

/-! ### Collections -/

/-- A collection that some words add to, looking at the next word, and one word clears. -/
theorem argLoop_gather {env : ArgEnv} {α : Type} {clear : String} (get : Config → List α) (Add : String → Option String → α → Prop)
    (hstep : ∀ a n s s', argStep env a n s = .ok s' →
      (a = clear → ∀ x, ¬ x ∈ get s'.cfg ∧ ¬ Add a n x) ∧ (a ≠ clear → ∀ x, x ∈ get s'.cfg ↔ x ∈ get s.cfg ∨ Add a n x)) :
    ∀ {args : List String} {st st' : ArgState}, argLoop env args st = .ok st' → ∀ x, x ∈ get st'.cfg ↔
      (∃ pre a post, args = pre ++ a :: post ∧ Add a post.head? x ∧ clear ∉ post) ∨ (x ∈ get st.cfg ∧ clear ∉ args)
  | [], st, st', h, x => by
    cases h
    simp
  | a :: rest, st, st', h, x => by
    rw [argLoop] at h
    cases hs : argStep env a rest.head? st with
    | error e => rw [hs] at h; cases h
    | ok s1 =>
      rw [hs] at h
      rw [argLoop_gather get Add hstep h x]
      obtain ⟨h1, h2⟩ := hstep _ _ _ _ hs
      constructor
      · rintro (⟨pre, b, post, e, hb, hc⟩ | ⟨hx, hc⟩)
        · exact .inl ⟨a :: pre, b, post, by rw [e]; rfl, hb, hc⟩
        · by_cases ha : a = clear
          · exact absurd hx (h1 ha x).1
          · rcases (h2 ha x).mp hx with hx | hx
            · refine .inr ⟨hx, fun hm => ?_⟩
              rcases List.mem_cons.mp hm with hm | hm
              · exact ha hm.symm
              · exact hc hm
            · exact .inl ⟨[], a, rest, rfl, hx, hc⟩
      · rintro (⟨pre, b, post, e, hb, hc⟩ | ⟨hx, hc⟩)
        · cases pre with
          | nil =>
            simp only [List.nil_append, List.cons.injEq] at e
            obtain ⟨rfl, rfl⟩ := e
            refine .inr ⟨?_, hc⟩
            by_cases ha : a = clear
            · exact absurd hb (h1 ha x).2
            · exact (h2 ha x).mpr (.inr hb)
          | cons c pre =>
            simp only [List.cons_append, List.cons.injEq] at e
            exact .inl ⟨pre, b, post, e.2, hb, hc⟩
        · have ha : a ≠ clear := by rintro rfl; exact hc (by simp)
          exact .inr ⟨(h2 ha x).mpr (.inl hx), fun hm => hc (List.mem_cons_of_mem _ hm)⟩

theorem noEq {l : List Char} (h : '=' ∉ l) : ∀ c ∈ l, (c == '=') = false := fun c hc => by
  simp only [beq_eq_false_iff_ne, ne_eq]; rintro rfl; exact h hc

theorem argValue_named {w v : String} (h : NamesTarget w v) : argValue w = v := by
  obtain ⟨o, ho, r, e, hv, hr⟩ := h
  have ho' : '=' ∉ o.toList := by
    simp only [List.mem_cons, List.not_mem_nil, or_false] at ho
    rcases ho with rfl | rfl <;> decide
  unfold argValue
  rw [e, splitOn_append (noEq ho') (by decide)]
  rcases hr with rfl | ⟨r', rfl⟩
  · rw [List.append_nil, splitOn_of_none (noEq hv)]; simp
  · rw [splitOn_append (noEq hv) (by decide)]; simp

theorem split_eq : ∀ l : List Char, ∃ v r : List Char, l = v ++ r ∧ '=' ∉ v ∧ (r = [] ∨ ∃ r', r = '=' :: r')
  | [] => ⟨[], [], rfl, by simp, .inl rfl⟩
  | c :: l => by
    by_cases hc : c = '='
    · subst hc; exact ⟨[], '=' :: l, rfl, by simp, .inr ⟨l, rfl⟩⟩
    · obtain ⟨v, r, e, hv, hr⟩ := split_eq l
      refine ⟨c :: v, r, by rw [e]; rfl, ?_, hr⟩
      intro hm
      rcases List.mem_cons.mp hm with h | h
      · exact hc h.symm
      · exact hv h

theorem names_of_target {w : String} (h : classify w = .target) : ∃ v, NamesTarget w v := by
  have hw : CmdWord w .target := classify_word h
  rcases hw with ⟨t, ht⟩ | ⟨t, ht⟩
  · obtain ⟨v, r, e, hv, hr⟩ := split_eq t
    exact ⟨String.ofList v, "-t", by simp, r, by rw [← ht, e]; simp, by simpa using hv, hr⟩
  · obtain ⟨v, r, e, hv, hr⟩ := split_eq t
    exact ⟨String.ofList v, "--target", by simp, r, by rw [← ht, e]; simp, by simpa using hv, hr⟩

theorem target_of_names {w v : String} (h : NamesTarget w v) : classify w = .target := by
  obtain ⟨o, ho, r, e, -, -⟩ := h
  simp only [List.mem_cons, List.not_mem_nil, or_false] at ho
  refine classify_target ?_
  rw [e]
  rcases ho with rfl | rfl
  · exact .inl ⟨v.toList ++ r, rfl⟩
  · exact .inr ⟨v.toList ++ r, rfl⟩

theorem argLoop_targets {env : ArgEnv} {args : List String} {st st' : ArgState} (h : argLoop env args st = .ok st') :
    LastTargets args st.cfg.targets st'.cfg.targets := by
  intro t
  have := argLoop_gather (clear := "--no-target") (fun c => c.targets)
    (fun a _ t => ∃ v, NamesTarget a v ∧ TargetText v.toList t ∧ ((⟨2, 0⟩ : Ver) ≤ t.2 ∧ t.2 < (⟨4, 0⟩ : Ver))) ?_ h t
  · rw [this]
    constructor
    · rintro (⟨pre, a, post, e, ⟨v, hv, ht, hr⟩, hc⟩ | h)
      · exact .inl ⟨pre, a, v, post, e, hv, ht, hr, hc⟩
      · exact .inr h
    · rintro (⟨pre, a, v, post, e, hv, ht, hr, hc⟩ | h)
      · exact .inl ⟨pre, a, post, e, ⟨v, hv, ht, hr⟩, hc⟩
      · exact .inr h
  · intro a n s s' hst
    refine ⟨?_, fun ha x => ?_⟩
    · rintro rfl x
      have hn : classify "--no-target" = .noTarget := by decide +kernel
      constructor
      · simp only [argStep, hn] at hst
        cases hst; simp [Config.clearTargets]
      · rintro ⟨v, hv, -⟩
        rw [target_of_names hv] at hn; cases hn
    · by_cases hc : classify a = .target
      · simp only [argStep, hc] at hst
        obtain ⟨v, hv⟩ := names_of_target hc
        rw [argValue_named hv] at hst
        have hadd : ∀ {u}, NamesTarget a u → u = v := fun hu => by rw [← argValue_named hu, argValue_named hv]
        unfold Config.addTarget at hst
        split at hst
        · rename_i c heq
          split at heq
          · cases heq
          · simp only at heq
            cases hp : parseTarget v with
            | none => rw [hp] at heq; cases heq
            | some t =>
              rw [hp] at heq
              simp only [Prod.mk.injEq, and_true] at heq
              cases hst
              rw [← heq]
              simp only [Config.pushTarget, mem_sort, List.mem_append, List.mem_singleton]
              constructor
              · rintro (h | rfl)
                · exact .inl h
                · obtain ⟨h1, h2⟩ := (C07_parse_target_iff v x).mp hp
                  exact .inr ⟨v, hv, h1, h2⟩
              · rintro (h | ⟨u, hu, h1, h2⟩)
                · exact .inl h
                · rw [hadd hu] at h1
                  have := (C07_parse_target_iff v x).mpr ⟨h1, h2⟩
                  rw [hp] at this
                  cases this
                  exact .inr rfl
        · cases hst
      · rw [(argStep_more hst).2.2.1 hc fun hn => ha (classify_word hn)]
        constructor
        · exact .inl
        · rintro (h | ⟨u, hu, -⟩)
          · exact h
          · exact absurd (target_of_names hu) hc

theorem argLoop_exclusions {env : ArgEnv} {args : List String} {st st' : ArgState} (h : argLoop env args st = .ok st') :
    LastExclusions env args st.cfg.exclusions st'.cfg.exclusions := by
  intro x
  have := argLoop_gather (clear := "--no-exclude") (fun c => c.exclusions)
    (fun a n x => (a = "--exclude" ∧ n = some x) ∨
      (a = "--exclude-file" ∧ ∃ f ls l, n = some f ∧ env.readLines f = some ls ∧ l ∈ ls ∧ x = String.ofList (strip l.toList))) ?_ h x
  · rw [this]
    constructor
    · rintro (⟨pre, a, post, e, ⟨rfl, hn⟩ | ⟨rfl, f, ls, l, hn, hr, hl, hx⟩, hc⟩ | h)
      · cases post with
        | nil => cases hn
        | cons y post => cases hn; exact .inl ⟨pre, post, e, hc⟩
      · cases post with
        | nil => cases hn
        | cons y post => cases hn; exact .inr (.inl ⟨pre, _, post, ls, l, e, hc, hr, hl, hx⟩)
      · exact .inr (.inr h)
    · rintro (⟨pre, post, e, hc⟩ | ⟨pre, f, post, ls, l, e, hc, hr, hl, hx⟩ | h)
      · exact .inl ⟨pre, _, _, e, .inl ⟨rfl, rfl⟩, hc⟩
      · exact .inl ⟨pre, _, _, e, .inr ⟨rfl, f, ls, l, rfl, hr, hl, hx⟩, hc⟩
      · exact .inr h
  · intro a n s s' hst
    refine ⟨?_, fun ha x => ?_⟩
    · rintro rfl x
      have hn : classify "--no-exclude" = .noExclude := by decide +kernel
      constructor
      · simp only [argStep, hn] at hst
        cases hst; simp [Config.clearExclusions]
      · rintro (⟨h, -⟩ | ⟨h, -⟩) <;> exact absurd h (by decide)
    · by_cases h1 : a = "--exclude"
      · subst h1
        have hn : classify "--exclude" = .exclude := by decide +kernel
        simp only [argStep, hn] at hst
        cases n with
        | none => cases hst
        | some v =>
          cases hst
          simp only [Config.addExclusion, mem_addSet]
          constructor
          · rintro (rfl | h)
            · exact .inr (.inl ⟨trivial, rfl⟩)
            · exact .inl h
          · rintro (h | ⟨-, h⟩ | ⟨h, -⟩)
            · exact .inr h
            · cases h; exact .inl rfl
            · exact absurd h (by decide)
      · by_cases h2 : a = "--exclude-file"
        · subst h2
          have hn : classify "--exclude-file" = .excludeFile := by decide +kernel
          simp only [argStep, hn] at hst
          cases n with
          | none => cases hst
          | some f =>
            simp only at hst
            cases hr : env.readLines f with
            | none =>
              rw [hr] at hst; cases hst
              constructor
              · exact .inl
              · rintro (h | ⟨h, -⟩ | ⟨-, g, ls, l, hg, hl, -⟩)
                · exact h
                · exact absurd h (by decide)
                · cases hg; rw [hr] at hl; cases hl
            | some ls =>
              rw [hr] at hst; cases hst
              rw [addExclusionLines_mem]
              constructor
              · rintro (h | ⟨l, hl, hx⟩)
                · exact .inl h
                · exact .inr (.inr ⟨rfl, f, ls, l, rfl, hr, hl, hx⟩)
              · rintro (h | ⟨h, -⟩ | ⟨-, g, ls', l, hg, hl, hm, hx⟩)
                · exact .inl h
                · exact absurd h (by decide)
                · cases hg; rw [hr] at hl; cases hl; exact .inr ⟨l, hm, hx⟩
        · rw [(argStep_more hst).2.2.2.1 (fun hn => h1 (classify_word hn)) (fun hn => h2 (classify_word hn))
            fun hn => ha (classify_word hn)]
          constructor
          · exact .inl
          · rintro (h | ⟨h, -⟩ | ⟨h, -⟩)
            · exact h
            · exact absurd h h1
            · exact absurd h h2

theorem argLoop_versions {env : ArgEnv} : ∀ {args : List String} {st st' : ArgState}, argLoop env args st = .ok st' →
    (st'.versions = true ↔ st.versions = true ∨ "--versions" ∈ args)
  | [], st, st', h => by cases h; simp
  | a :: rest, st, st', h => by
    unfold argLoop at h
    split at h
    · cases h
    rename_i st1 h1
    rw [argLoop_versions h]
    by_cases ha : a = "--versions"
    · subst ha
      have hn : classify "--versions" = .versions := by decide +kernel
      simp only [argStep, hn] at h1
      cases h1
      simp
    · rw [(argStep_more h1).2.2.2.2 fun hn => ha (classify_word hn)]
      simp [List.mem_cons, Ne.symm ha]

theorem argLoop_format {env : ArgEnv} {args : List String} {st st' : ArgState} (h : argLoop env args st = .ok st') :
    st'.cfg.format = st.cfg.format :=
  argLoop_inv (P := fun s => s.cfg.format = st.cfg.format) h (fun _ _ _ _ _ hs hp => (argStep_more hs).2.1.trans hp) rfl

/-! ### C84 -/

/-- **C84.** Verbosity, format, targets, exclusions and `--versions` after parsing: what the command line says last, otherwise
what the config file says; violations raise the verbosity to 2, the parsable format (asked for on the command line) to 3; that
format turns `--versions` off. -/
theorem C84_settings {env : ArgEnv} (he : RealPaths env) {args : List String} {config : Config} {p : Parsed}
    (h : parseArgs env args config = .ok p) :
    ∃ c0 f v, StartConfig env args config c0 ∧ LastFormat args none f ∧ LastVerbosity args c0.verbose v ∧
      p.cfg.format = f.getD c0.format ∧
      p.cfg.verbose = max (if p.cfg.onlyShowViolations then 2 else 0) (max (if f = some .parsable then 3 else 0) v) ∧
      LastTargets args c0.targets p.cfg.targets ∧
      LastExclusions env args c0.exclusions p.cfg.exclusions ∧
      (p.versions = true ↔ "--versions" ∈ args ∧ p.cfg.format ≠ .parsable) := by
  obtain ⟨c0, st, hs, hl, hf⟩ := parse_inv he h
  obtain ⟨c1, h1, -, h2, -, hv⟩ := finish_cfg hf
  have hver := argLoop_versions hl
  have hfmt : st.cfg.format = c0.format := argLoop_format hl
  have ht := argLoop_targets hl
  have hx := argLoop_exclusions hl
  refine ⟨c0, st.fmt, st.cfg.verbose, hs, argLoop_fmt hl, argLoop_verbosity hl, ?_, ?_, ?_, ?_, ?_⟩
  · rw [h2]
    rcases h1 with ⟨rfl, hn⟩ | ⟨f, hn, rfl⟩
    · rw [hn]; exact hfmt
    · rw [hn]; cases f <;> rfl
  · rw [h2]
    have hc : c1.verbose = max (if st.fmt = some .parsable then 3 else 0) st.cfg.verbose := by
      rcases h1 with ⟨rfl, hn⟩ | ⟨f, hn, rfl⟩
      · rw [hn]; simp
      · rw [hn]; cases f <;> simp [Config.setFormat]
    rw [← hc]
    cases c1.onlyShowViolations <;> simp <;> split <;> omega
  · rw [h2]
    rcases h1 with ⟨rfl, -⟩ | ⟨f, -, rfl⟩
    · exact ht
    · cases f <;> exact ht
  · rw [h2]
    rcases h1 with ⟨rfl, -⟩ | ⟨f, -, rfl⟩
    · exact hx
    · cases f <;> exact hx
  · rw [hv]
    simp only [Bool.and_eq_true, decide_eq_true_eq, hver]
    simp

/-! ### C53 -/

theorem lastSays_true {on off args : List String} (hd : ∀ x ∈ on, x ∉ off) {b : Bool} (h : LastSays on off args true b) :
    b = false ↔ Ends off on args := by
  rcases h with ⟨pre, a, post, e, hp, ⟨ha, hb⟩ | ⟨ha, hb⟩⟩ | ⟨hn, hb⟩
  · subst hb
    refine ⟨nofun, ?_⟩
    rintro ⟨pre', w, post', e', hw, hp'⟩
    exfalso
    rw [e] at e'
    rcases List.append_eq_append_iff.mp e' with ⟨m, h1, h2⟩ | ⟨m, h1, h2⟩
    · cases m with
      | nil => simp only [List.nil_append, List.cons.injEq] at h2; exact hd a ha (h2.1 ▸ hw)
      | cons y m =>
        simp only [List.cons_append, List.cons.injEq] at h2
        exact (hp w (by rw [h2.2]; simp)).2 hw
    · cases m with
      | nil => simp only [List.nil_append, List.cons.injEq] at h2; exact hd a ha (h2.1 ▸ hw)
      | cons y m =>
        simp only [List.cons_append, List.cons.injEq] at h2
        exact (hp' a (by rw [h2.2]; simp)).2 ha
  · subst hb
    exact ⟨fun _ => ⟨pre, a, post, e, ha, fun x hx => ⟨(hp x hx).2, (hp x hx).1⟩⟩, fun _ => rfl⟩
  · subst hb
    refine ⟨nofun, ?_⟩
    rintro ⟨pre', w, post', e', hw, -⟩
    exact absurd hw (hn w (by rw [e']; simp)).2

theorem lastSays_false {on off args : List String} (hd : ∀ x ∈ on, x ∉ off) {b : Bool} (h : LastSays on off args false b) :
    b = true ↔ Ends on off args := by
  have h' : LastSays off on args true !b := by
    rcases h with ⟨pre, a, post, e, hp, hx⟩ | ⟨hn, hb⟩
    · refine .inl ⟨pre, a, post, e, fun x hx => ⟨(hp x hx).2, (hp x hx).1⟩, ?_⟩
      rcases hx with ⟨ha, rfl⟩ | ⟨ha, rfl⟩
      · exact .inr ⟨ha, rfl⟩
      · exact .inl ⟨ha, rfl⟩
    · exact .inr ⟨fun x hx => ⟨(hn x hx).2, (hn x hx).1⟩, by rw [hb]; rfl⟩
  have := lastSays_true (fun x hx hy => hd x hy hx) h'
  rw [← this]
  cases b <;> simp

/-- **C53** exactly: with the parsable format in effect, its settings are in effect if and only if the format is asked for on the
command line, or the last words about them there, if any, do not undo them. -/
theorem C53_exact {env : ArgEnv} (he : RealPaths env) {args : List String} {config : Config} {p : Parsed}
    (hc : config.format = .parsable → ParsableSettings config) (h : parseArgs env args config = .ok p)
    (hf : p.cfg.format = .parsable) :
    ParsableSettings p.cfg ↔ (∃ a ∈ args, a ∈ ["--format", "-f"]) ∨
      (¬ Ends ["--no-ignore"] ["--ignore", "-i"] args ∧ ¬ Ends ["--show-tips"] ["--no-tips"] args ∧
        ¬ ∃ pre w post, args = pre ++ w :: post ∧ AsksVerbose w ∧ (∀ x ∈ post, ¬ AsksVerbose x) ∧ w.toList.count 'v' < 3) := by
  by_cases hw : ∃ a ∈ args, a ∈ ["--format", "-f"]
  · exact ⟨fun _ => .inl hw, fun _ => C53_parsable_partial he hc h hf (.inl hw)⟩
  · have hno : ∀ x ∈ args, x ∉ ["--format", "-f"] := fun x hx hm => hw ⟨x, hx, hm⟩
    obtain ⟨c0, st, hs, hl, hfin⟩ := parse_inv he h
    obtain ⟨c1, h1, -, h2, -, -⟩ := finish_cfg hfin
    have hnone : st.fmt = none := by
      rcases argLoop_fmt hl with ⟨pre, o, v, post, g, e, ho, -⟩ | ⟨-, hn⟩
      · exact absurd ho (hno o (by rw [e]; simp))
      · exact hn
    have hc1 : c1 = st.cfg := by
      rcases h1 with ⟨rfl, -⟩ | ⟨f, hn, -⟩
      · rfl
      · rw [hnone] at hn; cases hn
    subst hc1
    have hf0 : c0.format = .parsable := by
      have : st.cfg.format = c0.format := argLoop_format hl
      rw [← this]; rw [h2] at hf; exact hf
    have hset : ParsableSettings c0 := by
      obtain ⟨r, -, hr⟩ := hs
      cases r with
      | none => rw [hr]; rw [hr] at hf0; exact hc hf0
      | some q =>
        obtain ⟨g, -, rfl⟩ := hr
        revert hf0
        unfold Config.overrideFrom
        cases g.format
        · intro hx; cases hx
        · intro _; exact ⟨Nat.le_max_left _ _, rfl, rfl⟩
    obtain ⟨s1, s2, s3⟩ := hset
    have hi := argLoop_switch .ignore hl
    have ht := argLoop_switch .tips hl
    have hv := argLoop_verbosity hl
    simp only [Config.getSwitch] at hi ht
    rw [s2] at hi
    rw [s3] at ht
    have hi' := lastSays_true (by decide) hi
    have ht' := lastSays_false (by decide) ht
    have hv' : st.cfg.verbose < 3 ↔ ∃ pre w post, args = pre ++ w :: post ∧ AsksVerbose w ∧ (∀ x ∈ post, ¬ AsksVerbose x) ∧
        w.toList.count 'v' < 3 := by
      rcases hv with ⟨pre, w, post, e, hw, hp, hv⟩ | ⟨hn, hv⟩
      · constructor
        · intro h3; exact ⟨pre, w, post, e, hw, hp, by omega⟩
        · rintro ⟨pre', w', post', e', hw', hp', h3⟩
          have : w = w' := by
            rw [e] at e'
            rcases List.append_eq_append_iff.mp e' with ⟨m, q1, q2⟩ | ⟨m, q1, q2⟩
            · cases m with
              | nil => simp only [List.nil_append, List.cons.injEq] at q2; exact q2.1
              | cons y m =>
                simp only [List.cons_append, List.cons.injEq] at q2
                exact absurd hw' (hp w' (by rw [q2.2]; simp))
            · cases m with
              | nil => simp only [List.nil_append, List.cons.injEq] at q2; exact q2.1.symm
              | cons y m =>
                simp only [List.cons_append, List.cons.injEq] at q2
                exact absurd hw (hp' w (by rw [q2.2]; simp))
          subst this; omega
      · constructor
        · intro h3
          have : c0.verbose < 3 := hv ▸ h3
          omega
        · rintro ⟨pre', w', post', e', hw', -⟩
          exact absurd hw' (hn w' (by rw [e']; simp))
    have hverb : 3 ≤ p.cfg.verbose ↔ ¬ st.cfg.verbose < 3 := by
      rw [h2]
      dsimp only
      split
      · rename_i hx
        simp only [Bool.and_eq_true, decide_eq_true_eq] at hx
        omega
      · omega
    have e1 : p.cfg.ignoreIncomp = st.cfg.ignoreIncomp := by rw [h2]
    have e2 : p.cfg.showTips = st.cfg.showTips := by rw [h2]
    have n1 : switchNames .ignore false = ["--no-ignore"] := rfl
    have n2 : switchNames .ignore true = ["--ignore", "-i"] := rfl
    have n3 : switchNames .tips true = ["--show-tips"] := rfl
    have n4 : switchNames .tips false = ["--no-tips"] := rfl
    rw [n1, n2] at hi'
    rw [n3, n4] at ht'
    unfold ParsableSettings
    rw [hverb, e1, e2, hv', ← hi', ← ht']
    constructor
    · rintro ⟨a, b, c⟩
      exact .inr ⟨by rw [b]; simp, by rw [c]; simp, a⟩
    · rintro (hx | ⟨a, b, c⟩)
      · exact absurd hx hw
      · exact ⟨c, by simpa using a, by simpa using b⟩

/-! ### Witnesses -/

/-- An environment with an exclusion file. -/
def excludingEnv : ArgEnv :=
  { plainEnv with readLines := fun f => if f = "ex.txt" then some [" email.parser\n", "abc\n"] else none }

example : (parseArgs excludingEnv ["-t=2.7", "--no-target", "-t=3.4-=x", "--target=2.7", "-vv", "--exclude", "a", "--no-exclude", "--exclude",
      "b", "--exclude-file", "ex.txt", "--versions", "-v", "x.py"] (Config.init 4)).toOption.map
    (fun p => (p.cfg.targets, p.cfg.verbose, p.cfg.exclusions, p.versions, p.paths)) =
    some ([(true, ⟨2, 7⟩), (false, ⟨3, 4⟩)], 1, ["b", "email.parser", "abc"], true, ["x.py"]) := by decide +kernel

example : (parseArgs parsableEnv ["--no-ignore", "-v", "-i", "-vvvv", "a.py"] (Config.init 4)).toOption.map
    (fun p => (p.cfg.verbose, p.cfg.ignoreIncomp, p.cfg.showTips)) = some (4, true, false) := by decide +kernel

end Vermin.Props
