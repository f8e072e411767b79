import Verif.Props.Arguments
/-
C58: values on the command line are checked, and take effect.
-/
namespace Vermin.Props
open Vermin Vermin.Py

/-! ### Steps of the loop -/

/-- Every word is looked at, with the word that follows it. -/
theorem argLoop_step {env : ArgEnv} : ∀ {pre : List String} {a : String} {post : List String} {st st' : ArgState},
    argLoop env (pre ++ a :: post) st = .ok st' → ∃ s s', argStep env a post.head? s = .ok s' ∧ argLoop env post s' = .ok st'
  | [], a, post, st, st', h => by
    rw [List.nil_append, argLoop] at h
    cases hs : argStep env a post.head? st with
    | error e => rw [hs] at h; cases h
    | ok s' => rw [hs] at h; exact ⟨st, s', hs, h⟩
  | b :: pre, a, post, st, st', h => by
    rw [List.cons_append, argLoop] at h
    cases hs : argStep env b (pre ++ a :: post).head? st with
    | error e => rw [hs] at h; cases h
    | ok s' => rw [hs] at h; exact argLoop_step h

theorem classify_processes {w : String} (h : "-p=".toList <+: w.toList ∨ "--processes=".toList <+: w.toList) : classify w = .processes := by
  have hs := classify_spec w
  have hne : ∀ x : String, ¬ "-p=".toList <+: x.toList → ¬ "--processes=".toList <+: x.toList → w ≠ x := by
    rintro x h1 h2 rfl; exact h.elim h1 h2
  cases hc : classify w <;> rw [hc] at hs <;> simp only [CmdWord, List.mem_cons, List.not_mem_nil, or_false] at hs
  case switch s b =>
    have : ∀ s b, ∀ x ∈ switchNames s b, ¬ "-p=".toList <+: x.toList ∧ ¬ "--processes=".toList <+: x.toList := by
      intro s b; cases s <;> cases b <;> decide +kernel
    exact absurd rfl (hne w (this s b w hs).1 (this s b w hs).2)
  case verbose =>
    obtain ⟨t, ht⟩ := hs
    rcases h with ⟨u, hu⟩ | ⟨u, hu⟩ <;> rw [← hu] at ht <;> simp at ht
  case target =>
    rcases hs with ⟨t, ht⟩ | ⟨t, ht⟩ <;> rcases h with ⟨u, hu⟩ | ⟨u, hu⟩ <;> rw [← hu] at ht <;> simp at ht
  case other => exact absurd (.inr (.inr (by rcases h with h | h <;> exact ⟨_, by simp [optionPrefixes], h⟩))) hs.1
  all_goals first
    | exact absurd hs (hne _ (by decide +kernel) (by decide +kernel))
    | (rcases hs with hs | hs <;> exact absurd hs (hne _ (by decide +kernel) (by decide +kernel)))

theorem classify_target {w : String} (h : "-t=".toList <+: w.toList ∨ "--target=".toList <+: w.toList) : classify w = .target := by
  have hs := classify_spec w
  have hne : ∀ x : String, ¬ "-t=".toList <+: x.toList → ¬ "--target=".toList <+: x.toList → w ≠ x := by
    rintro x h1 h2 rfl; exact h.elim h1 h2
  cases hc : classify w <;> rw [hc] at hs <;> simp only [CmdWord, List.mem_cons, List.not_mem_nil, or_false] at hs
  case switch s b =>
    have : ∀ s b, ∀ x ∈ switchNames s b, ¬ "-t=".toList <+: x.toList ∧ ¬ "--target=".toList <+: x.toList := by
      intro s b; cases s <;> cases b <;> decide +kernel
    exact absurd rfl (hne w (this s b w hs).1 (this s b w hs).2)
  case verbose =>
    obtain ⟨t, ht⟩ := hs
    rcases h with ⟨u, hu⟩ | ⟨u, hu⟩ <;> rw [← hu] at ht <;> simp at ht
  case processes =>
    rcases hs with ⟨t, ht⟩ | ⟨t, ht⟩ <;> rcases h with ⟨u, hu⟩ | ⟨u, hu⟩ <;> rw [← hu] at ht <;> simp at ht
  case other => exact absurd (.inr (.inr (by rcases h with h | h <;> exact ⟨_, by simp [optionPrefixes], h⟩))) hs.1
  all_goals first
    | exact absurd hs (hne _ (by decide +kernel) (by decide +kernel))
    | (rcases hs with hs | hs <;> exact absurd hs (hne _ (by decide +kernel) (by decide +kernel)))

/-- The text after the first `=`, if it has no other. -/
theorem argValue_of {o v : String} (ho : '=' ∉ o.toList) (hv : '=' ∉ v.toList) : argValue (o ++ "=" ++ v) = v := by
  have e : (o ++ "=" ++ v).toList = o.toList ++ '=' :: v.toList := by simp
  have hf : ∀ {l : List Char}, '=' ∉ l → ∀ c ∈ l, (c == '=') = false := fun h c hc => by
    simp only [beq_eq_false_iff_ne, ne_eq]; rintro rfl; exact h hc
  unfold argValue
  rw [e, splitOn_append (hf ho) (by decide), splitOn_of_none (hf hv)]
  simp

/-! ### C58 -/

/-- What is asked of the values of options. -/
structure GoodValues (env : ArgEnv) (args : List String) : Prop where
  /-- numbers of processes are positive -/
  processes : ∀ o v, o ∈ ["-p", "--processes"] → '=' ∉ v.toList → o ++ "=" ++ v ∈ args → ∃ n : Int, int v.toList = some n ∧ 0 < n
  /-- targets are versions -/
  target : ∀ o v, o ∈ ["-t", "--target"] → '=' ∉ v.toList → o ++ "=" ++ v ∈ args → ∃ t, parseTarget v = some t
  /-- the others have a value -/
  value : ∀ pre o post, args = pre ++ o :: post → o ∈ valueNames → post ≠ []
  format : ∀ pre o v post, args = pre ++ o :: v :: post → o ∈ ["--format", "-f"] → String.ofList (lower v.toList) ∈ ["default", "parsable"]
  backport : ∀ pre v post, args = pre ++ "--backport" :: v :: post → isBackport v = true
  feature : ∀ pre v post, args = pre ++ "--feature" :: v :: post → isFeature v = true
  excludeRegex : ∀ pre v post, args = pre ++ "--exclude-regex" :: v :: post → env.validRegex v = true

/-- **C58.** A command line is accepted only if all values of options in it are valid. -/
theorem C58_values {env : ArgEnv} (he : RealPaths env) {args : List String} {config : Config} {p : Parsed}
    (h : parseArgs env args config = .ok p) : GoodValues env args := by
  obtain ⟨c0, st, -, hl, -⟩ := parse_inv he h
  refine ⟨?_, ?_, ?_, ?_, ?_, ?_, ?_⟩
  · intro o v ho hv hm
    obtain ⟨pre, post, rfl⟩ := List.append_of_mem hm
    obtain ⟨s, s', hs, -⟩ := argLoop_step hl
    have hc : classify (o ++ "=" ++ v) = .processes := by
      simp only [List.mem_cons, List.not_mem_nil, or_false] at ho
      rcases ho with rfl | rfl
      · exact classify_processes (.inl ⟨v.toList, by simp⟩)
      · exact classify_processes (.inr ⟨v.toList, by simp⟩)
    have ho' : '=' ∉ o.toList := by
      simp only [List.mem_cons, List.not_mem_nil, or_false] at ho
      rcases ho with rfl | rfl <;> decide +kernel
    unfold argStep at hs
    rw [hc] at hs
    simp only [argValue_of ho' hv] at hs
    split at hs
    · cases hs
    · rename_i n hn
      split at hs
      · cases hs
      · rename_i h0; exact ⟨n, hn, by omega⟩
  · intro o v ho hv hm
    obtain ⟨pre, post, rfl⟩ := List.append_of_mem hm
    obtain ⟨s, s', hs, -⟩ := argLoop_step hl
    have hc : classify (o ++ "=" ++ v) = .target := by
      simp only [List.mem_cons, List.not_mem_nil, or_false] at ho
      rcases ho with rfl | rfl
      · exact classify_target (.inl ⟨v.toList, by simp⟩)
      · exact classify_target (.inr ⟨v.toList, by simp⟩)
    have ho' : '=' ∉ o.toList := by
      simp only [List.mem_cons, List.not_mem_nil, or_false] at ho
      rcases ho with rfl | rfl <;> decide +kernel
    unfold argStep at hs
    rw [hc] at hs
    simp only [argValue_of ho' hv] at hs
    split at hs
    · rename_i c ha
      unfold Config.addTarget at ha
      split at ha
      · cases ha
      · simp only at ha
        split at ha
        · cases ha
        · rename_i t ht; exact ⟨t, ht⟩
    · cases hs
  · rintro pre o post rfl ho rfl
    simp only [valueNames, List.mem_cons, List.not_mem_nil, or_false] at ho
    obtain ⟨s, s', hs, -⟩ := argLoop_step hl
    by_cases hcf : o = "--config-file" ∨ o = "-c"
    · -- caught by the first pass
      unfold parseArgs at h
      split at h
      · cases h
      split at h
      · cases h
      split at h
      · cases h
      rename_i q hq
      have : ∀ (pre : List String) (p p' : PreArgs), preArgs env (pre ++ [o]) p = .ok p' → False := by
        intro pre
        induction pre with
        | nil =>
          intro p p' hp
          unfold preArgs at hp
          rcases hcf with rfl | rfl <;> simp at hp
        | cons b pre ih =>
          intro p p' hp
          rw [List.cons_append] at hp
          unfold preArgs at hp
          split at hp
          · cases hp
          split at hp
          · cases hp
          simp only at hp
          generalize (if b = "--no-config-file" then { p with noConfig := true } else p) = q at hp
          split at hp
          · split at hp
            · cases hp
            · exact ih _ _ hp
          · exact ih _ _ hp
      exact this _ _ _ hq
    · unfold argStep at hs
      rcases ho with rfl | rfl | rfl | rfl | rfl | rfl | rfl | rfl | rfl
      · exact hcf (.inl rfl)
      · exact hcf (.inr rfl)
      · rw [show classify "--format" = .format by decide +kernel] at hs; cases hs
      · rw [show classify "-f" = .format by decide +kernel] at hs; cases hs
      · rw [show classify "--exclude" = .exclude by decide +kernel] at hs; cases hs
      · rw [show classify "--exclude-file" = .excludeFile by decide +kernel] at hs; cases hs
      · rw [show classify "--exclude-regex" = .excludeRegex by decide +kernel] at hs; cases hs
      · rw [show classify "--backport" = .backport by decide +kernel] at hs; cases hs
      · rw [show classify "--feature" = .feature by decide +kernel] at hs; cases hs
  · rintro pre o v post rfl ho
    obtain ⟨s, s', hs, -⟩ := argLoop_step hl
    have hc : classify o = .format := by
      simp only [List.mem_cons, List.not_mem_nil, or_false] at ho
      rcases ho with rfl | rfl <;> decide +kernel
    unfold argStep at hs
    rw [hc] at hs
    simp only [List.head?_cons] at hs
    split at hs
    · cases hs
    · rename_i f hf
      have := fromName_name hf
      rw [← this]
      cases f <;> decide +kernel
  · rintro pre v post rfl
    obtain ⟨s, s', hs, -⟩ := argLoop_step hl
    unfold argStep at hs
    rw [show classify "--backport" = .backport by decide +kernel] at hs
    simp only [List.head?_cons] at hs
    split at hs
    · rename_i c ha
      unfold Config.addBackport at ha
      split at ha
      · assumption
      · cases ha
    · cases hs
  · rintro pre v post rfl
    obtain ⟨s, s', hs, -⟩ := argLoop_step hl
    unfold argStep at hs
    rw [show classify "--feature" = .feature by decide +kernel] at hs
    simp only [List.head?_cons] at hs
    split at hs
    · rename_i c ha
      unfold Config.enableFeature at ha
      split at ha
      · assumption
      · cases ha
    · cases hs
  · rintro pre v post rfl
    obtain ⟨s, s', hs, -⟩ := argLoop_step hl
    unfold argStep at hs
    rw [show classify "--exclude-regex" = .excludeRegex by decide +kernel] at hs
    simp only [List.head?_cons] at hs
    split at hs
    · assumption
    · cases hs

/-- The last occurrence of an option with a value is unique. -/
theorem last_value_unique {names : List String} : ∀ {pre pre' : List String} {o o' v v' : String} {post post' : List String},
    pre ++ o :: v :: post = pre' ++ o' :: v' :: post' → o ∈ names → o' ∈ names →
    (∀ x ∈ v :: post, x ∉ names) → (∀ x ∈ v' :: post', x ∉ names) → v = v'
  | [], [], o, o', v, v', post, post', e, _, _, _, _ => by simp at e; exact e.2.1
  | [], y :: pre', o, o', v, v', post, post', e, _, ho', hx, _ => by
    simp only [List.nil_append, List.cons_append, List.cons.injEq] at e
    exact absurd ho' (hx o' (by rw [e.2]; simp))
  | y :: pre, [], o, o', v, v', post, post', e, ho, _, _, hx' => by
    simp only [List.nil_append, List.cons_append, List.cons.injEq] at e
    exact absurd ho (hx' o (by rw [← e.2]; simp))
  | y :: pre, z :: pre', o, o', v, v', post, post', e, ho, ho', hx, hx' => by
    simp only [List.cons_append, List.cons.injEq] at e
    exact last_value_unique e.2 ho ho' hx hx'

theorem fileChoice_unique {env : ArgEnv} {args : List String} {r r' : Option String} (h : FileChoice env args r)
    (h' : FileChoice env args r') : r = r' := by
  rcases h with ⟨pre, o, v, post, h1, h2, h3, h4, h5⟩ | ⟨h1, h2, h3⟩ | ⟨h1, h2, h3⟩ <;>
    rcases h' with ⟨pre', o', v', post', h1', h2', h3', h4', h5'⟩ | ⟨h1', h2', h3'⟩ | ⟨h1', h2', h3'⟩
  · rw [h1] at h1'
    rw [h4, h4', last_value_unique h1' h2 h2' h3 h3']
  · exact absurd h2 (h1' o (by rw [h1]; simp))
  · exact absurd h2 (h1' o (by rw [h1]; simp))
  · exact absurd h2' (h1 o' (by rw [h1']; simp))
  · rw [h3, h3']
  · exact absurd h2 h2'
  · exact absurd h2' (h1 o' (by rw [h1']; simp))
  · exact absurd h2' h2
  · rw [h3] at h3'; injection h3'

/-- Without requests for help or version the first pass can only fail with a message. -/
theorem preArgs_error {env : ArgEnv} : ∀ {args : List String} {p : PreArgs} {e : ArgStop},
    (∀ w ∈ args, w ∉ ["--help", "-h", "--version", "-V"]) → preArgs env args p = .error e → e = .error
  | [], p, e, _, h => by cases h
  | a :: rest, p, e, hw, h => by
    have ha := hw a (by simp)
    simp only [List.mem_cons, List.not_mem_nil, or_false, not_or] at ha
    unfold preArgs at h
    rw [if_neg (by simp [ha.1, ha.2.1]), if_neg (by simp [ha.2.2.1, ha.2.2.2])] at h
    simp only at h
    generalize (if a = "--no-config-file" then { p with noConfig := true } else p) = q at h
    have hr : ∀ w ∈ rest, w ∉ ["--help", "-h", "--version", "-V"] := fun w hm => hw w (List.mem_cons_of_mem _ hm)
    split at h
    · split at h
      · cases h; rfl
      · exact preArgs_error hr h
    · exact preArgs_error hr h

/-- **C58.** A config file that is to be used but cannot be used ends the program with an error. -/
theorem C58_file {env : ArgEnv} (he : RealPaths env) {args : List String} (hargs : args ≠ []) {config : Config} {q : String}
    (hd : ∃ d, env.detected = .ok d) (hw : ∀ w ∈ args, w ∉ ["--help", "-h", "--version", "-V"])
    (hq : FileChoice env args (some q)) (hno : env.parseFile q = none) : parseArgs env args config = .error .error := by
  cases hr : parseArgs env args config with
  | ok p =>
    obtain ⟨c0, st, ⟨r, hr', hc⟩, -, -⟩ := parse_inv he hr
    cases fileChoice_unique hq hr'
    obtain ⟨f, hf, -⟩ := hc
    rw [hno] at hf; cases hf
  | error e =>
    obtain ⟨d, hd⟩ := hd
    unfold parseArgs at hr
    rw [if_neg (by simpa using hargs), hd] at hr
    simp only at hr
    split at hr
    · rename_i e' hp
      cases hr
      rw [preArgs_error hw hp]
    · rename_i pre hpre
      obtain ⟨hn, ha⟩ := preArgs_spec hpre
      simp only [Bool.false_or] at hn
      split at hr
      · cases hr; rfl
      have hcand : (match Option.filter (fun x => decide (x ≠ "")) pre.argConfig with
          | some p => some p
          | none => Option.filter (fun x => decide (x ≠ "")) (if pre.noConfig = true then none else d)) = some q := by
        rcases hq with ⟨pre', o, v, post, h1, h2, h3, h4, h5⟩ | ⟨_, _, h⟩ | ⟨h1, h2, h3⟩
        · rcases ha with ⟨pre'', o', v', post', h1', h2', h3', h4'⟩ | ⟨h1', _⟩
          · have := last_value_unique (h1.symm.trans h1') h2 h2' h3 h3'
            injection h4 with h4
            rw [h4', ← this, ← h4]
            have hne : q ≠ "" := by rw [h4]; exact he.abspath v
            simp [Option.filter, hne]
          · exact absurd h2 (h1' o (by rw [h1]; simp))
        · cases h
        · rcases ha with ⟨pre'', o', v', post', h1', h2', h3', h4'⟩ | ⟨_, hv⟩
          · exact absurd h2' (h1 o' (by rw [h1']; simp))
          · rw [h3] at hd; injection hd with hd; subst hd
            have hne : q ≠ "" := by rintro rfl; exact he.detected h3
            have hnc : pre.noConfig = false := by rw [hn]; simp [h2]
            rw [hv, hnc]
            simp [Option.filter, hne]
      split at hr
      · rename_i hc
        have := hc.symm.trans hcand
        cases this
      · rename_i hc
        have := hc.symm.trans hcand
        injection this with this
        rw [this, hno] at hr
        cases hr; rfl

/-! ### What is collected -/

/-- An element of a collection that words add to and one word clears: it is added after the last of those, or was there
before and is not cleared. -/
def Collected (add clear : String) (args : List String) (before after : List String) : Prop :=
  ∀ x, x ∈ after ↔ (∃ pre post, args = pre ++ add :: x :: post ∧ clear ∉ x :: post) ∨ (x ∈ before ∧ clear ∉ args)

theorem argLoop_collect {env : ArgEnv} {add clear : String} (hac : add ≠ clear) (get : Config → List String)
    (hstep : ∀ a n s s', argStep env a n s = .ok s' →
      (a = add → ∃ v, n = some v ∧ ∀ x, x ∈ get s'.cfg ↔ x ∈ get s.cfg ∨ x = v) ∧
      (a = clear → get s'.cfg = []) ∧ (a ≠ add → a ≠ clear → get s'.cfg = get s.cfg)) :
    ∀ {args : List String} {st st' : ArgState}, argLoop env args st = .ok st' → Collected add clear args (get st.cfg) (get st'.cfg)
  | [], st, st', h => by
    cases h
    intro x
    simp
  | a :: rest, st, st', h => by
    rw [argLoop] at h
    cases hs : argStep env a rest.head? st with
    | error e => rw [hs] at h; cases h
    | ok s1 =>
      rw [hs] at h
      have ih := argLoop_collect hac get hstep h
      obtain ⟨h1, h2, h3⟩ := hstep _ _ _ _ hs
      intro x
      rw [ih x]
      have later : (∃ pre post, rest = pre ++ add :: x :: post ∧ clear ∉ x :: post) →
          ∃ pre post, a :: rest = pre ++ add :: x :: post ∧ clear ∉ x :: post := by
        rintro ⟨pre, post, e, hc⟩; exact ⟨a :: pre, post, by rw [e]; rfl, hc⟩
      have earlier : (∃ pre post, a :: rest = pre ++ add :: x :: post ∧ clear ∉ x :: post) →
          (∃ pre post, rest = pre ++ add :: x :: post ∧ clear ∉ x :: post) ∨ (a = add ∧ rest.head? = some x ∧ clear ∉ rest) := by
        rintro ⟨pre, post, e, hc⟩
        cases pre with
        | nil =>
          simp only [List.nil_append, List.cons.injEq] at e
          exact .inr ⟨e.1, by rw [e.2]; rfl, by rw [e.2]; exact hc⟩
        | cons b pre =>
          simp only [List.cons_append, List.cons.injEq] at e
          exact .inl ⟨pre, post, e.2, hc⟩
      by_cases ha : a = add
      · obtain ⟨v, hv, hg⟩ := h1 ha
        rw [hg x]
        constructor
        · rintro (h | ⟨h | rfl, hc⟩)
          · exact .inl (later h)
          · exact .inr ⟨h, by rw [ha]; simp [hac.symm, hc]⟩
          · left
            cases rest with
            | nil => cases hv
            | cons w post => cases hv; exact ⟨[], post, by rw [ha]; rfl, hc⟩
        · rintro (h | ⟨h, hc⟩)
          · rcases earlier h with h | ⟨-, hx, hc⟩
            · exact .inl h
            · rw [hv] at hx; cases hx; exact .inr ⟨.inr rfl, hc⟩
          · exact .inr ⟨.inl h, fun hm => hc (List.mem_cons_of_mem _ hm)⟩
      · by_cases hcl : a = clear
        · rw [h2 hcl]
          constructor
          · rintro (h | ⟨h, _⟩)
            · exact .inl (later h)
            · cases h
          · rintro (h | ⟨_, hc⟩)
            · rcases earlier h with h | ⟨h, _⟩
              · exact .inl h
              · exact absurd h ha
            · exact absurd (by rw [hcl]; simp) hc
        · rw [h3 ha hcl]
          constructor
          · rintro (h | ⟨h, hc⟩)
            · exact .inl (later h)
            · refine .inr ⟨h, fun hm => ?_⟩
              rcases List.mem_cons.mp hm with hm | hm
              · exact hcl hm.symm
              · exact hc hm
          · rintro (h | ⟨h, hc⟩)
            · rcases earlier h with h | ⟨h, _⟩
              · exact .inl h
              · exact absurd h ha
            · exact .inr ⟨h, fun hm => hc (List.mem_cons_of_mem _ hm)⟩

theorem addTarget_rest (c : Config) (a : Config.TargetArg) :
    (c.addTarget a).1.backports = c.backports ∧ (c.addTarget a).1.features = c.features ∧
    (c.addTarget a).1.exclusionRegex = c.exclusionRegex ∧ (c.addTarget a).1.processes = c.processes := by
  unfold Config.addTarget
  split
  · exact ⟨rfl, rfl, rfl, rfl⟩
  · split <;> (try split) <;> exact ⟨rfl, rfl, rfl, rfl⟩

theorem addExclusionLines_rest : ∀ (ls : List String) (c : Config),
    (c.addExclusionLines ls).backports = c.backports ∧ (c.addExclusionLines ls).features = c.features ∧
    (c.addExclusionLines ls).exclusionRegex = c.exclusionRegex ∧ (c.addExclusionLines ls).processes = c.processes
  | [], _ => ⟨rfl, rfl, rfl, rfl⟩
  | l :: ls, c => by
    have := addExclusionLines_rest ls (c.addExclusion (String.ofList (strip l.toList)))
    unfold Config.addExclusionLines at *
    rw [List.foldl_cons]
    exact this

/-- What a word does to these settings. -/
theorem argStep_rest {env : ArgEnv} {a : String} {n : Option String} {s s' : ArgState} (h : argStep env a n s = .ok s') :
    (classify a ≠ .backport → classify a ≠ .noBackport → s'.cfg.backports = s.cfg.backports) ∧
    (classify a ≠ .feature → classify a ≠ .noFeature → s'.cfg.features = s.cfg.features) ∧
    (classify a ≠ .excludeRegex → classify a ≠ .noExcludeRegex → s'.cfg.exclusionRegex = s.cfg.exclusionRegex) ∧
    (classify a ≠ .processes → s'.cfg.processes = s.cfg.processes) := by
  unfold argStep at h
  cases hc : classify a <;> rw [hc] at h <;> simp only at h
  case switch sw b => cases h; cases sw <;> exact ⟨fun _ _ => rfl, fun _ _ => rfl, fun _ _ => rfl, fun _ => rfl⟩
  case target =>
    have hr := addTarget_rest s.cfg (.text (argValue a))
    split at h
    · rename_i c ha
      rw [ha] at hr
      cases h
      exact ⟨fun _ _ => hr.1, fun _ _ => hr.2.1, fun _ _ => hr.2.2.1, fun _ => hr.2.2.2⟩
    · cases h
  case excludeFile =>
    split at h
    · cases h
    split at h
    · cases h; exact ⟨fun _ _ => rfl, fun _ _ => rfl, fun _ _ => rfl, fun _ => rfl⟩
    · rename_i ls _
      cases h
      have hr := addExclusionLines_rest ls s.cfg
      exact ⟨fun _ _ => hr.1, fun _ _ => hr.2.1, fun _ _ => hr.2.2.1, fun _ => hr.2.2.2⟩
  case backport =>
    split at h
    · cases h
    unfold Config.addBackport at h
    split at h
    · rename_i ha
      split at ha
      · cases ha; cases h
        exact ⟨fun h => absurd rfl h, fun _ _ => rfl, fun _ _ => rfl, fun _ => rfl⟩
      · cases ha
    · cases h
  case feature =>
    split at h
    · cases h
    unfold Config.enableFeature at h
    split at h
    · rename_i ha
      split at ha
      · cases ha; cases h
        exact ⟨fun _ _ => rfl, fun h => absurd rfl h, fun _ _ => rfl, fun _ => rfl⟩
      · cases ha
    · cases h
  all_goals (repeat' split at h)
  all_goals cases h
  all_goals refine ⟨fun h1 h2 => ?_, fun h1 h2 => ?_, fun h1 h2 => ?_, fun h1 => ?_⟩
  all_goals first
    | rfl
    | exact absurd rfl h1
    | exact absurd rfl h2

theorem classify_word {w : String} {c : Cmd} (h : classify w = c) : CmdWord w c := h ▸ classify_spec w

/-- The rest of parsing leaves these settings alone. -/
theorem finish_rest {args : List String} {st : ArgState} {p : Parsed} (h : argFinish args st = .ok p) :
    p.cfg.backports = st.cfg.backports ∧ p.cfg.features = st.cfg.features ∧ p.cfg.exclusionRegex = st.cfg.exclusionRegex ∧
      p.cfg.processes = st.cfg.processes := by
  obtain ⟨c1, h1, -, h2, -, -⟩ := finish_cfg h
  rw [h2]
  rcases h1 with ⟨rfl, -⟩ | ⟨f, -, rfl⟩
  · exact ⟨rfl, rfl, rfl, rfl⟩
  · cases f <;> exact ⟨rfl, rfl, rfl, rfl⟩

/-- **C58.** Backports, features and patterns are those added after the last word that clears them, and without such a word
also those there before. -/
theorem C58_collected {env : ArgEnv} (he : RealPaths env) {args : List String} {config : Config} {p : Parsed}
    (h : parseArgs env args config = .ok p) : ∃ c0, StartConfig env args config c0 ∧
      Collected "--backport" "--no-backport" args c0.backports p.cfg.backports ∧
      Collected "--feature" "--no-feature" args c0.features p.cfg.features ∧
      Collected "--exclude-regex" "--no-exclude-regex" args c0.exclusionRegex p.cfg.exclusionRegex := by
  obtain ⟨c0, st, hs, hl, hf⟩ := parse_inv he h
  obtain ⟨f1, f2, f3, -⟩ := finish_rest hf
  refine ⟨c0, hs, ?_, ?_, ?_⟩
  · rw [f1]
    refine argLoop_collect (by decide) (fun c => c.backports) ?_ hl
    intro a n s s' hst
    refine ⟨?_, ?_, ?_⟩
    · rintro rfl
      unfold argStep at hst
      rw [show classify "--backport" = .backport by decide +kernel] at hst
      cases n with
      | none => cases hst
      | some v =>
        refine ⟨v, rfl, fun x => ?_⟩
        simp only [Config.addBackport] at hst
        by_cases hv : isBackport v = true
        · rw [if_pos hv] at hst; cases hst
          exact (mem_addSet _ _ _).trans or_comm
        · rw [if_neg hv] at hst; cases hst
    · rintro rfl
      unfold argStep at hst
      rw [show classify "--no-backport" = .noBackport by decide +kernel] at hst
      cases hst; rfl
    · intro h1 h2
      exact (argStep_rest hst).1 (fun hc => h1 (classify_word hc)) (fun hc => h2 (classify_word hc))
  · rw [f2]
    refine argLoop_collect (by decide) (fun c => c.features) ?_ hl
    intro a n s s' hst
    refine ⟨?_, ?_, ?_⟩
    · rintro rfl
      unfold argStep at hst
      rw [show classify "--feature" = .feature by decide +kernel] at hst
      cases n with
      | none => cases hst
      | some v =>
        refine ⟨v, rfl, fun x => ?_⟩
        simp only [Config.enableFeature] at hst
        by_cases hv : isFeature v = true
        · rw [if_pos hv] at hst; cases hst
          exact (mem_addSet _ _ _).trans or_comm
        · rw [if_neg hv] at hst; cases hst
    · rintro rfl
      unfold argStep at hst
      rw [show classify "--no-feature" = .noFeature by decide +kernel] at hst
      cases hst; rfl
    · intro h1 h2
      exact (argStep_rest hst).2.1 (fun hc => h1 (classify_word hc)) (fun hc => h2 (classify_word hc))
  · rw [f3]
    refine argLoop_collect (by decide) (fun c => c.exclusionRegex) ?_ hl
    intro a n s s' hst
    refine ⟨?_, ?_, ?_⟩
    · rintro rfl
      unfold argStep at hst
      rw [show classify "--exclude-regex" = .excludeRegex by decide +kernel] at hst
      cases n with
      | none => cases hst
      | some v =>
        refine ⟨v, rfl, fun x => ?_⟩
        simp only at hst
        by_cases hv : env.validRegex v = true
        · rw [if_pos hv] at hst; cases hst
          exact (mem_addSet _ _ _).trans or_comm
        · rw [if_neg hv] at hst; cases hst
    · rintro rfl
      unfold argStep at hst
      rw [show classify "--no-exclude-regex" = .noExcludeRegex by decide +kernel] at hst
      cases hst; rfl
    · intro h1 h2
      exact (argStep_rest hst).2.2.1 (fun hc => h1 (classify_word hc)) (fun hc => h2 (classify_word hc))

/-- Words that set the number of processes. -/
def SetsProcesses (w : String) : Prop := "-p=".toList <+: w.toList ∨ "--processes=".toList <+: w.toList

theorem argLoop_keeps_processes {env : ArgEnv} : ∀ {args : List String} {s s' : ArgState}, (∀ w ∈ args, ¬ SetsProcesses w) →
    argLoop env args s = .ok s' → s'.cfg.processes = s.cfg.processes
  | [], s, s', _, h => by cases h; rfl
  | a :: rest, s, s', hw, h => by
    rw [argLoop] at h
    cases hs : argStep env a rest.head? s with
    | error e => rw [hs] at h; cases h
    | ok s1 =>
      rw [hs] at h
      rw [argLoop_keeps_processes (fun w hm => hw w (List.mem_cons_of_mem _ hm)) h]
      exact (argStep_rest hs).2.2.2 fun hc => hw a (by simp) (classify_word hc)

/-- **C58.** The last `-p` decides the number of processes; without one it stays what it was. -/
theorem C58_processes {env : ArgEnv} (he : RealPaths env) {args : List String} {config : Config} {p : Parsed}
    (h : parseArgs env args config = .ok p) :
    (∀ pre o v post, args = pre ++ (o ++ "=" ++ v) :: post → o ∈ ["-p", "--processes"] → '=' ∉ v.toList →
      (∀ w ∈ post, ¬ SetsProcesses w) → int v.toList = some (p.cfg.processes : Int)) ∧
    ((∀ w ∈ args, ¬ SetsProcesses w) → ∃ c0, StartConfig env args config c0 ∧ p.cfg.processes = c0.processes) := by
  obtain ⟨c0, st, hstart, hl, hf⟩ := parse_inv he h
  obtain ⟨-, -, -, f4⟩ := finish_rest hf
  rw [f4]
  refine ⟨?_, fun hw => ⟨c0, hstart, argLoop_keeps_processes hw hl⟩⟩
  rintro pre o v post rfl ho hv hpost
  obtain ⟨s, s', hs, hl'⟩ := argLoop_step hl
  rw [argLoop_keeps_processes hpost hl']
  have hc : classify (o ++ "=" ++ v) = .processes := by
    simp only [List.mem_cons, List.not_mem_nil, or_false] at ho
    rcases ho with rfl | rfl
    · exact classify_processes (.inl ⟨v.toList, by simp⟩)
    · exact classify_processes (.inr ⟨v.toList, by simp⟩)
  have ho' : '=' ∉ o.toList := by
    simp only [List.mem_cons, List.not_mem_nil, or_false] at ho
    rcases ho with rfl | rfl <;> decide +kernel
  unfold argStep at hs
  rw [hc] at hs
  simp only [argValue_of ho' hv] at hs
  split at hs
  · cases hs
  · rename_i n hn
    split at hs
    · cases hs
    · rename_i h0
      cases hs
      rw [hn]
      have : n > 0 := by omega
      simp only [Config.setProcesses, if_pos this]
      congr 1
      omega

/-! ### Cases -/

example : (parseArgs plainEnv ["--backport", "enum", "--no-backport", "--backport", "typing", "-p=3", "--processes=2", "a.py"]
    (Config.init 4)).toOption.map (fun p => (p.cfg.backports, p.cfg.processes)) = some (["typing"], 2) := by
  decide +kernel

example : parseArgs plainEnv ["-p=0", "a.py"] (Config.init 4) = .error .error := by decide +kernel
example : parseArgs plainEnv ["-t=x", "a.py"] (Config.init 4) = .error .error := by decide +kernel
example : parseArgs plainEnv ["a.py", "--feature"] (Config.init 4) = .error .error := by decide +kernel

/-- An environment in which no config file can be used. -/
def brokenFileEnv : ArgEnv := { plainEnv with parseFile := fun _ => none }

example : parseArgs brokenFileEnv ["-c", "x.conf", "a.py"] (Config.init 4) = .error .error := by decide +kernel

end Vermin.Props
