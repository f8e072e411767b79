import Verif.Spec.Complaints
import Verif.Lemmas.Int
import Verif.Lemmas.Chars
/-
C77: a command line that is refused is explained.
-/
namespace Vermin.Props
open Vermin Vermin.Py Vermin.Spec

/-! ### Values of words -/

theorem eqValue_argValue {w v : String} (h : EqValue w v) : argValue w = v := by
  obtain ⟨hv, o, ho, h⟩ := h
  have hf : ∀ {l : List Char}, '=' ∉ l → ∀ c ∈ l, (c == '=') = false := fun h c hc => by
    simp only [beq_eq_false_iff_ne, ne_eq]; rintro rfl; exact h hc
  unfold argValue
  rcases h with h | ⟨r, h⟩
  · rw [h, splitOn_append (hf ho) (by decide), splitOn_of_none (hf hv)]
    simp
  · rw [h, splitOn_append (hf ho) (by decide), splitOn_append (hf hv) (by decide)]
    simp

theorem eqValue_of {w : String} (h : '=' ∈ w.toList) : EqValue w (argValue w) := by
  have hf : ∀ {l : List Char}, (∀ c ∈ l, (c == '=') = false) → '=' ∉ l := fun h hm => by
    have := h _ hm; simp at this
  unfold argValue
  have hne := splitOn_ne_nil (· == '=') w.toList
  cases hs : splitOn (· == '=') w.toList with
  | nil => exact absurd hs hne
  | cons a l =>
    cases l with
    | nil =>
      have := (splitOn_singleton hs).2 _ h
      simp at this
    | cons b l =>
      obtain ⟨c, r, h1, h2, h3, h4⟩ := splitOn_cons hs (by simp)
      simp only [beq_iff_eq] at h2
      subst h2
      refine ⟨?_, a, hf h3, ?_⟩
      · simp only [String.toList_ofList]
        cases l with
        | nil => exact hf fun c hc => (splitOn_singleton h4).2 c ((splitOn_singleton h4).1 ▸ hc)
        | cons d l =>
          obtain ⟨c', r', g1, g2, g3, g4⟩ := splitOn_cons h4 (by simp)
          exact hf g3
      · simp only [String.toList_ofList]
        cases l with
        | nil => exact .inl (by rw [h1, (splitOn_singleton h4).1])
        | cons d l =>
          obtain ⟨c', r', g1, g2, g3, g4⟩ := splitOn_cons h4 (by simp)
          simp only [beq_iff_eq] at g2
          subst g2
          exact .inr ⟨r', by rw [h1, g1]⟩

theorem target_eq {w : String} (h : GivesTarget w) : '=' ∈ w.toList := by
  rcases h with h | h <;> exact h.subset (by decide +kernel)

theorem processes_eq {w : String} (h : SetsProcesses w) : '=' ∈ w.toList := by
  rcases h with h | h <;> exact h.subset (by decide +kernel)

theorem isTarget_iff {v : String} : IsTarget v ↔ ∃ t, parseTarget v = some t := by
  constructor
  · rintro ⟨t, h⟩; exact ⟨t, (C07_parse_target_iff v t).mpr h⟩
  · rintro ⟨t, h⟩; exact ⟨t, (C07_parse_target_iff v t).mp h⟩

theorem strInt_toString (k : Int) : String.ofList (strInt k) = toString k := by
  cases k with
  | ofNat n => rfl
  | negSucc n => 
    show _ = "-" ++ Nat.repr (n + 1)
    rw [String.ext_iff]
    simp [strInt, strNat, Nat.repr]

/-! ### Suggestions -/

theorem takeWhile_split {p : Char → Bool} : ∀ {g r : List Char}, (∀ c ∈ g, p c = true) → (∀ c, r.head? = some c → p c = false) →
    (g ++ r).takeWhile p = g ∧ (g ++ r).dropWhile p = r
  | [], [], _, _ => by simp
  | [], c :: r, _, h => by
    have := h c rfl
    simp [List.takeWhile_cons, List.dropWhile_cons, this]
  | x :: g, r, hg, h => by
    have hx := hg x (by simp)
    have := takeWhile_split (fun c hc => hg c (List.mem_cons_of_mem _ hc)) h
    simp [List.takeWhile_cons, List.dropWhile_cons, hx, this]

theorem matchVersioned_iff {s g : List Char} : matchVersioned s = some g ↔
    g ≠ [] ∧ (∀ c ∈ g, WordChar c ∨ c = '.') ∧ ∃ c v, c ≠ '\n' ∧ s = g ++ '=' :: '=' :: c :: v := by
  have hw : ∀ c, (isWord c || c == '.') = true ↔ WordChar c ∨ c = '.' := fun c => by
    rw [Bool.or_eq_true, wordChar_iff, beq_iff_eq]
  constructor
  · intro h
    unfold matchVersioned at h
    dsimp only at h
    split at h
    · rename_i x l y c v h1 h2
      split at h
      · cases h
      · rename_i hc
        cases h
        refine ⟨by rw [h1]; simp, fun c hc => (hw c).mp ?_, c, v, by simpa using hc, ?_⟩
        · have := List.all_takeWhile (p := fun c => isWord c || c == '.') (l := s)
          exact List.all_eq_true.mp this c hc
        · rw [← h2, List.takeWhile_append_dropWhile]
    · cases h
  · rintro ⟨hg, hc, c, v, hn, rfl⟩
    have := takeWhile_split (p := fun c => isWord c || c == '.') (g := g) (r := '=' :: '=' :: c :: v) (fun x hx => (hw x).mpr (hc x hx))
      (by simp only [List.head?_cons, Option.some.injEq]; rintro x rfl; decide)
    unfold matchVersioned
    rw [this.1, this.2]
    cases g with
    | nil => exact absurd rfl hg
    | cons x g => simp [hn]

theorem versionFilter_unversioned (name : String) : Unversioned name (versionFilter name) := by
  unfold versionFilter
  cases hm : matchVersioned name.toList with
  | some g =>
    obtain ⟨h1, h2, c, v, h3, h4⟩ := matchVersioned_iff.mp hm
    refine .inl ⟨fun h => h1 (by simpa using congrArg String.toList h), by simpa using h2, String.ofList (c :: v),
      fun h => by simpa using congrArg String.toList h, by simpa using h3, ?_⟩
    rw [String.ext_iff]
    simp [h4]
  | none =>
    refine .inr ⟨?_, rfl⟩
    rintro b v hb hc hv hn rfl
    cases hv' : v.toList with
    | nil => exact hv (by rw [String.ext_iff, hv']; rfl)
    | cons c r =>
      rw [hv'] at hn
      have : matchVersioned (b ++ "==" ++ v).toList = some b.toList :=
        matchVersioned_iff.mpr ⟨fun h => hb (by rw [String.ext_iff, h]; rfl), hc, c, r, by simpa using hn, by simp [hv']⟩
      rw [this] at hm
      cases hm

theorem infos_rows {r : BackportRow × String} (h : r ∈ backportInfos) : r.1 ∈ backports := (List.of_mem_zip h).1

theorem rows_few_eq : ∀ r ∈ backports, (r.1.toList.filter (· == '=')).length ≤ 2 := by decide +kernel

/-- For a name that is not in the table, its variants are the rows that are filtered. -/
theorem variants_of_unknown {name : String} (hn : ∀ r ∈ backports, r.1 ≠ name) {r : BackportRow} (hr : r ∈ backports) :
    versionFilter r.1 = versionFilter name ↔ Variant r.1 (versionFilter name) := by
  by_cases he : '=' ∈ (versionFilter name).toList
  · have hname : versionFilter name = name := by
      rcases versionFilter_unversioned name with ⟨-, h, -⟩ | ⟨-, h⟩
      · rcases h _ he with h | h
        · exact absurd h (by decide)
        · exact absurd h (by decide)
      · exact h
    rw [hname] at he ⊢
    refine ⟨fun h => ?_, fun h => ?_⟩
    · have := List.all_eq_true.mp table_bases _ hr
      simp only [Bool.and_eq_true, beq_iff_eq] at this
      rw [this.1, baseName] at h
      rw [← h] at he
      simp only [String.toList_ofList] at he
      have := List.all_eq_true.mp (List.all_takeWhile (p := fun c => c != '=') (l := r.1.toList)) _ he
      simp at this
    · rcases h with h | ⟨v, -, h⟩
      · exact absurd h (hn r hr)
      · have h1 := rows_few_eq r hr
        have h2 : 1 ≤ (name.toList.filter (· == '=')).length := List.length_pos_of_mem (List.mem_filter.mpr ⟨he, by simp⟩)
        rw [h] at h1
        simp only [String.toList_append, List.filter_append, List.length_append] at h1
        have h3 : ("==".toList.filter (· == '=')).length = 2 := by decide +kernel
        omega
  · exact versionFilter_iff hr he

theorem longest_backport : longestTitle backportModules = 22 := by decide +kernel
theorem short_backports : ∀ r ∈ backports, r.1.toList.length ≤ 22 := by decide +kernel

theorem backportLine_of {r : BackportRow × String} (h : r ∈ backportInfos) :
    BackportLine r (titleText (longestTitle backportModules) 2 r.1.1 ++ (r.2 ++ " (" ++ reqString r.1.2 ++ ")").toList) := by
  have := short_backports _ (infos_rows h)
  rw [longest_backport]
  refine ⟨22 - r.1.1.toList.length, by omega, ?_⟩
  have : List.replicate 2 ' ' = "  ".toList := by decide +kernel
  simp [titleText, filled, List.append_assoc, ← this]

theorem zip_map_mem {α β : Type} {f : α → β} {l : List α} {p : α × β} (h : p ∈ l.zip (l.map f)) : p.1 ∈ l ∧ p.2 = f p.1 := by
  induction l with
  | nil => simp at h
  | cons a l ih =>
    simp only [List.map_cons, List.zip_cons_cons, List.mem_cons] at h
    rcases h with rfl | h
    · simp
    · exact ⟨List.mem_cons_of_mem _ (ih h).1, (ih h).2⟩

theorem suggests_of {name : String} (hn : ∀ r ∈ backports, r.1 ≠ name) :
    ∃ ms, Suggests name ms ∧ unknownBackportMsgs name = ["Unknown backport: " ++ name] ++ ms ++ ["Get the full list of backports via `--help`."] := by
  have hu := versionFilter_unversioned name
  have hm : ∀ r ∈ backportInfos, r ∈ expandInfos (versionFilter name) ↔ Variant r.1.1 (versionFilter name) := by
    intro r hr
    rw [← variants_of_unknown hn (infos_rows hr)]
    simp [expandInfos, hr]
  unfold unknownBackportMsgs
  dsimp only
  by_cases hl : (expandInfos (versionFilter name)).length > 0
  · rw [if_pos hl]
    refine ⟨_, .these (rows := expandInfos (versionFilter name))
      (lines := (expandInfos (versionFilter name)).map fun r => titleText (longestTitle backportModules) 2 r.1.1 ++ (r.2 ++ " (" ++ reqString r.1.2 ++ ")").toList)
      hu ?_ hm (List.ne_nil_of_length_pos hl) (by simp) ?_ ?_, rfl⟩
    · simp only [expandInfos, List.reverse_reverse]
      exact List.filter_sublist
    · intro p hp
      obtain ⟨h', h⟩ := zip_map_mem hp
      rw [h]
      simp only [expandInfos, List.mem_reverse, List.mem_filter] at h'
      exact backportLine_of h'.1
    · unfold backportsStr joinLines backportsLines titleDescLines
      rw [String.toList_ofList]
      congr 1
      rw [List.flatMap_map]
      generalize expandInfos (versionFilter name) = l
      induction l with
      | nil => rfl
      | cons a l ih =>
        rw [List.flatMap_cons, ih]
        rfl
  · rw [if_neg hl]
    have h0 : expandInfos (versionFilter name) = [] := List.eq_nil_of_length_eq_zero (by omega)
    refine ⟨[], .nothing hu fun r hr hv => ?_, rfl⟩
    have := (hm r hr).mpr hv
    rw [h0] at this
    cases this

/-- What is suggested is determined by the name. -/
theorem unversioned_unique {name b b' : String} (h : Unversioned name b) (h' : Unversioned name b') : b = b' := by
  rcases h with ⟨h1, h2, v, h3, h4, h5⟩ | ⟨h1, rfl⟩ <;> rcases h' with ⟨g1, g2, v', g3, g4, g5⟩ | ⟨g1, rfl⟩
  · have := h5.symm.trans g5
    have hl := congrArg (fun s : String => s.toList.takeWhile (· != '=')) this
    have ht : ∀ {b v : String}, (∀ c ∈ b.toList, WordChar c ∨ c = '.') → (b ++ "==" ++ v).toList.takeWhile (· != '=') = b.toList := by
      intro b v hb
      have : (b ++ "==" ++ v).toList = b.toList ++ '=' :: '=' :: v.toList := by simp
      rw [this]
      refine (takeWhile_split (fun c hc => ?_) (by simp)).1
      rcases hb c hc with h | rfl
      · simp only [bne_iff_ne, ne_eq]; rintro rfl; revert h; decide
      · decide
    rw [ht h2, ht g2] at hl
    exact String.ext_iff.mpr hl
  · exact absurd h5 (g1 _ _ h1 h2 h3 h4)
  · exact absurd g5 (h1 _ _ g1 g2 g3 g4)
  · rfl

/-! ### One word -/

theorem isBackport_iff {v : String} : isBackport v = true ↔ ∃ r ∈ backports, r.1 = v := by
  simp [isBackport, backportModules, eq_comm]

theorem classify_lack {w m : String} (h : (w, m) ∈ lackText) :
    classify w ∈ [.format, .exclude, .excludeFile, .excludeRegex, .backport, .feature] ∧ missingValueMsg (classify w) = m := by
  have : ∀ e ∈ lackText, classify e.1 ∈ [.format, .exclude, .excludeFile, .excludeRegex, .backport, .feature] ∧ missingValueMsg (classify e.1) = e.2 := by
    decide +kernel
  exact this _ h

/-- When a word is refused, by the branch it belongs to. -/
def BadWord (n : Nat) (w : String) (next : Option String) : Cmd → Prop
  | .target => n = 2 ∨ ¬ ∃ t, parseTarget (argValue w) = some t
  | .processes => ∀ k, int (argValue w).toList = some k → k ≤ 0
  | .format => ∀ v, next = some v → Fmt.fromName (String.ofList (lower v.toList)) = none
  | .exclude => next = none
  | .excludeFile => next = none
  | .excludeRegex => next = none
  | .backport => ∀ v, next = some v → isBackport v = false
  | .feature => ∀ v, next = some v → isFeature v = false
  | _ => False

theorem fromName_none {t : String} : Fmt.fromName t = none ↔ t ∉ ["default", "parsable"] := by
  unfold Fmt.fromName
  by_cases h : t = "default"
  · simp [h]
  · by_cases h' : t = "parsable"
    · simp [h']
    · simp [h, h']

theorem mistake_bad {n : Nat} {w : String} {next : Option String} {ms : List String} (h : Mistake n w next ms) : BadWord n w next (classify w) := by
  cases h with
  | lacks h =>
    obtain ⟨h, -⟩ := classify_lack h
    simp only [List.mem_cons, List.not_mem_nil, or_false] at h
    rcases h with h | h | h | h | h | h <;> rw [h] <;> simp [BadWord]
  | format h hv =>
    have hc : classify w = .format := by
      simp only [List.mem_cons, List.not_mem_nil, or_false] at h
      rcases h with rfl | rfl <;> decide +kernel
    rw [hc]
    rintro v ⟨⟩
    exact fromName_none.mpr hv
  | backport h hv _ =>
    subst h
    rw [show classify "--backport" = .backport by decide +kernel]
    intro v e
    cases e
    rename_i v _ _
    cases hb : isBackport v with
    | false => rfl
    | true => obtain ⟨r, hr, e⟩ := isBackport_iff.mp hb; exact absurd e (hv r hr)
  | feature h hv =>
    subst h
    rw [show classify "--feature" = .feature by decide +kernel]
    rintro v ⟨⟩
    simpa [isFeature, featureNames] using hv
  | tooMany h _ hn => rw [classify_target h]; exact .inl hn
  | target h hv _ ht =>
    rw [classify_target h]
    refine .inr fun h' => ht ?_
    rw [eqValue_argValue hv] at h'
    exact isTarget_iff.mpr h'
  | number h hv hk =>
    rw [classify_processes h]
    intro k h'
    rw [eqValue_argValue hv] at h'
    exact absurd (int_iff.mp h') (hk k)
  | positive h hv hk h0 =>
    rw [classify_processes h]
    intro k h'
    rw [eqValue_argValue hv, int_iff.mpr hk] at h'
    cases h'
    exact h0

/-- What is printed about a word that is not refused. -/
def warning (env : MsgEnv) (w : String) (next : Option String) : List String :=
  match next with
  | some v => if w = "--exclude-file" ∧ env.args.readLines v = none then [env.readError v] else []
  | none => []

theorem classify_excludeFile {w : String} : classify w = .excludeFile ↔ w = "--exclude-file" := by
  refine ⟨fun h => classify_word h, ?_⟩
  rintro rfl; decide +kernel

theorem classify_regex {w : String} : classify w = .excludeRegex ↔ w = "--exclude-regex" := by
  refine ⟨fun h => classify_word h, ?_⟩
  rintro rfl; decide +kernel

theorem classify_target_iff {w : String} : classify w = .target ↔ GivesTarget w := ⟨fun h => classify_word h, classify_target⟩

theorem classify_noTarget_iff {w : String} : classify w = .noTarget ↔ w = "--no-target" := by
  refine ⟨fun h => classify_word h, ?_⟩
  rintro rfl; decide +kernel

theorem pushTarget_length (c : Config) (t : Target) : (c.pushTarget t).targets.length = c.targets.length + 1 := by
  simp [Config.pushTarget, length_sort]

theorem addExclusionLines_length (ls : List String) (c : Config) : (c.addExclusionLines ls).targets.length = c.targets.length := by
  rw [addExclusionLines_targets]

/-- The number of targets after one word. -/
def afterWord (n : Nat) (w : String) : Nat := if w = "--no-target" then 0 else if GivesTarget w then n + 1 else n

theorem afterWord_other {n : Nat} {w : String} (h1 : classify w ≠ .noTarget) (h2 : classify w ≠ .target) : afterWord n w = n := by
  unfold afterWord
  rw [if_neg fun h => h1 (classify_noTarget_iff.mpr h), if_neg fun h => h2 (classify_target_iff.mpr h)]

theorem suggested_msgs {v : String} (h : isBackport v = false) :
    ∃ ms, (∀ r ∈ backports, r.1 ≠ v) ∧ Suggests v ms ∧ unknownBackportMsgs v = ["Unknown backport: " ++ v] ++ ms ++ ["Get the full list of backports via `--help`."] := by
  have hn : ∀ r ∈ backports, r.1 ≠ v := fun r hr e => by
    rw [isBackport_iff.mpr ⟨r, hr, e⟩] at h; cases h
  obtain ⟨ms, h1, h2⟩ := suggests_of hn
  exact ⟨ms, hn, h1, h2⟩

/-- One word: it is accepted, or refused with an explanation, or raises. -/
theorem step_cases (env : MsgEnv) (w : String) (next : Option String) (st : ArgState) :
    (∃ st', argStep env.args w next st = .ok st' ∧ ¬ BadWord st.cfg.targets.length w next (classify w) ∧ ¬ BadPattern env.args w next ∧
      st'.cfg.targets.length = afterWord st.cfg.targets.length w ∧ argStepMsgs env w next st = warning env w next) ∨
    (argStep env.args w next st = .error .error ∧ Mistake st.cfg.targets.length w next (argStepMsgs env w next st) ∧ ¬ BadPattern env.args w next) ∨
    (argStep env.args w next st = .error (.raised .regexError) ∧ BadPattern env.args w next ∧ argStepMsgs env w next st = []) := by
  have hspec := classify_spec w
  have hpat : classify w ≠ .excludeRegex → ¬ BadPattern env.args w next := fun h hb => h (classify_regex.mpr hb.1)
  have hwarn : classify w ≠ .excludeFile → warning env w next = [] := by
    intro h
    unfold warning
    cases next with
    | none => rfl
    | some v => simp only; rw [if_neg]; rintro ⟨e, -⟩; exact h (classify_excludeFile.mpr e)
  have hlack : ∀ {c m}, next = none → classify w = c → (c = .format ∨ c = .exclude ∨ c = .excludeFile ∨ c = .excludeRegex ∨ c = .backport ∨ c = .feature) →
      missingValueMsg c = m → Mistake st.cfg.targets.length w next [m] := by
    rintro c m rfl hc h rfl
    rw [hc] at hspec
    rcases h with rfl | rfl | rfl | rfl | rfl | rfl <;> simp only [CmdWord] at hspec
    · simp only [List.mem_cons, List.not_mem_nil, or_false] at hspec
      rcases hspec with rfl | rfl <;> exact .lacks (by decide +kernel)
    all_goals (subst hspec; exact .lacks (by decide +kernel))
  unfold argStep argStepMsgs
  cases hc : classify w <;> simp only <;> rw [hc] at hspec hpat hwarn
  case target =>
    have ht := classify_target_iff.mp hc
    have hv := eqValue_of (target_eq ht)
    by_cases hn : st.cfg.targets.length = 2
    · refine .inr (.inl ?_)
      simp only [Config.addTarget, if_pos hn, Config.addTargetMsgs, List.cons_append, List.nil_append]
      exact ⟨trivial, .tooMany ht hv hn, hpat (by decide)⟩
    · cases hp : parseTarget (argValue w) with
      | none =>
        refine .inr (.inl ?_)
        simp only [Config.addTarget, if_neg hn, hp, Config.addTargetMsgs, List.nil_append]
        exact ⟨trivial, .target ht hv hn (fun h => by obtain ⟨t, h⟩ := isTarget_iff.mp h; rw [hp] at h; cases h), hpat (by decide)⟩
      | some t =>
        refine .inl ?_
        simp only [Config.addTarget, if_neg hn, hp]
        refine ⟨_, rfl, ?_, hpat (by decide), ?_, (hwarn (by decide)).symm⟩
        · rintro (h | h)
          · exact hn h
          · exact h ⟨t, hp⟩
        · have : w ≠ "--no-target" := fun h => by rw [classify_noTarget_iff.mpr h] at hc; cases hc
          unfold afterWord
          rw [if_neg this, if_pos ht]
          exact pushTarget_length _ _
  case processes =>
    have hv := eqValue_of (processes_eq hspec)
    cases hi : int (argValue w).toList with
    | none =>
      refine .inr (.inl ⟨rfl, .number hspec hv fun k hk => ?_, hpat (by decide)⟩)
      rw [int_iff.mpr hk] at hi; cases hi
    | some k =>
      simp only
      by_cases hk : k ≤ 0
      · simp only [if_pos hk]
        refine .inr (.inl ⟨trivial, ?_, hpat (by decide)⟩)
        rw [strInt_toString]
        exact .positive hspec hv (int_iff.mp hi) hk
      · simp only [if_neg hk]
        refine .inl ⟨_, rfl, fun h => hk (h k hi), hpat (by decide), ?_, (hwarn (by decide)).symm⟩
        rw [afterWord_other (by rw [hc]; decide) (by rw [hc]; decide)]
        rfl
  case format =>
    cases next with
    | none => exact .inr (.inl ⟨rfl, hlack rfl hc (.inl rfl) rfl, hpat (by decide)⟩)
    | some v =>
      simp only
      cases hf : Fmt.fromName (String.ofList (lower v.toList)) with
      | none => exact .inr (.inl ⟨rfl, .format hspec (fromName_none.mp hf), hpat (by decide)⟩)
      | some f =>
        refine .inl ⟨_, rfl, (fun h => by rw [h v rfl] at hf; cases hf), hpat (by decide), ?_, (hwarn (by decide)).symm⟩
        rw [afterWord_other (by rw [hc]; decide) (by rw [hc]; decide)]
  case exclude =>
    cases next with
    | none => exact .inr (.inl ⟨rfl, hlack rfl hc (.inr (.inl rfl)) rfl, hpat (by decide)⟩)
    | some v =>
      refine .inl ⟨_, rfl, nofun, hpat (by decide), ?_, (hwarn (by decide)).symm⟩
      rw [afterWord_other (by rw [hc]; decide) (by rw [hc]; decide)]; rfl
  case excludeFile =>
    cases next with
    | none => exact .inr (.inl ⟨rfl, hlack rfl hc (.inr (.inr (.inl rfl))) rfl, hpat (by decide)⟩)
    | some v =>
      have hw := classify_excludeFile.mp hc
      simp only [warning, hw, true_and]
      cases hr : env.args.readLines v with
      | none =>
        refine .inl ⟨_, rfl, nofun, hw ▸ hpat (by decide), ?_, by simp⟩
        rw [afterWord_other (by decide +kernel) (by decide +kernel)]
      | some ls =>
        refine .inl ⟨_, rfl, nofun, hw ▸ hpat (by decide), ?_, by simp⟩
        rw [afterWord_other (by decide +kernel) (by decide +kernel)]
        exact addExclusionLines_length _ _
  case excludeRegex =>
    have hw := classify_regex.mp hc
    cases next with
    | none => exact .inr (.inl ⟨rfl, hlack rfl hc (.inr (.inr (.inr (.inl rfl)))) rfl, fun ⟨_, v, h, _⟩ => by cases h⟩)
    | some v =>
      simp only
      cases hr : env.args.validRegex v with
      | true =>
        simp only [if_true]
        refine .inl ⟨_, rfl, nofun, (fun ⟨_, u, h, hu⟩ => by cases h; rw [hr] at hu; cases hu), ?_, (hwarn (by decide)).symm⟩
        rw [afterWord_other (by rw [hc]; decide) (by rw [hc]; decide)]; rfl
      | false => exact .inr (.inr ⟨by simp, ⟨hw, v, rfl, hr⟩, rfl⟩)
  case backport =>
    cases next with
    | none => exact .inr (.inl ⟨rfl, hlack rfl hc (.inr (.inr (.inr (.inr (.inl rfl))))) rfl, hpat (by decide)⟩)
    | some v =>
      cases hb : isBackport v with
      | false =>
        obtain ⟨ms, h1, h2, h3⟩ := suggested_msgs hb
        simp only [Config.addBackport, hb, Bool.false_eq_true, if_false, h3]
        exact .inr (.inl ⟨trivial, .backport hspec h1 h2, hpat (by decide)⟩)
      | true =>
        simp only [Config.addBackport, hb, if_true]
        refine .inl ⟨_, rfl, (fun h => by rw [h v rfl] at hb; cases hb), hpat (by decide), ?_, (hwarn (by decide)).symm⟩
        rw [afterWord_other (by rw [hc]; decide) (by rw [hc]; decide)]
  case feature =>
    cases next with
    | none => exact .inr (.inl ⟨rfl, hlack rfl hc (.inr (.inr (.inr (.inr (.inr rfl))))) rfl, hpat (by decide)⟩)
    | some v =>
      cases hb : isFeature v with
      | false =>
        simp only [Config.enableFeature, hb, Bool.false_eq_true, if_false]
        exact .inr (.inl ⟨trivial, .feature hspec (by simpa [isFeature, featureNames] using hb), hpat (by decide)⟩)
      | true =>
        simp only [Config.enableFeature, hb, if_true]
        refine .inl ⟨_, rfl, (fun h => by rw [h v rfl] at hb; cases hb), hpat (by decide), ?_, (hwarn (by decide)).symm⟩
        rw [afterWord_other (by rw [hc]; decide) (by rw [hc]; decide)]
  case noTarget =>
    refine .inl ⟨_, rfl, nofun, hpat (by decide), ?_, (hwarn (by decide)).symm⟩
    unfold afterWord
    rw [if_pos (classify_noTarget_iff.mp hc)]
    rfl
  case switch s b =>
    refine .inl ⟨_, rfl, nofun, hpat (by simp), ?_, (hwarn (by simp)).symm⟩
    rw [afterWord_other (by rw [hc]; simp) (by rw [hc]; simp)]
    cases s <;> rfl
  all_goals
    refine .inl ⟨_, rfl, nofun, hpat (by decide), ?_, (hwarn (by decide)).symm⟩
    rw [afterWord_other (by rw [hc]; decide) (by rw [hc]; decide)]
    try rfl

/-! ### All words -/

theorem targetsAfter_cons (n : Nat) (w : String) (ws : List String) : targetsAfter n (w :: ws) = targetsAfter (afterWord n w) ws := rfl

theorem sound_nil (env : ArgEnv) (n : Nat) (rest : List String) : Sound env n [] rest := by
  intro pre w post h
  cases pre <;> cases h

theorem sound_cons {env : ArgEnv} {n : Nat} {w : String} {ws rest : List String} : Sound env n (w :: ws) rest ↔
    ((∀ m, ¬ Mistake n w (ws ++ rest).head? m) ∧ ¬ BadPattern env w (ws ++ rest).head?) ∧ Sound env (afterWord n w) ws rest := by
  constructor
  · intro h
    refine ⟨h [] w ws rfl, ?_⟩
    rintro pre x post rfl
    exact h (w :: pre) x post rfl
  · rintro ⟨h1, h2⟩ pre x post e
    cases pre with
    | nil => cases e; exact h1
    | cons y pre => cases e; exact h2 pre x post rfl

theorem unreadable_cons (env : MsgEnv) (w : String) (ws : List String) : unreadable env (w :: ws) = warning env w ws.head? ++ unreadable env ws := by
  cases ws with
  | nil => rfl
  | cons v ws => rfl

theorem head?_cut (pre : List String) (w : String) (post : List String) : (pre ++ [w]).head? = (pre ++ w :: post).head? := by
  cases pre <;> rfl

theorem loop_cases (env : MsgEnv) : ∀ (args : List String) (st : ArgState),
    (∃ st', argLoop env.args args st = .ok st' ∧ Sound env.args st.cfg.targets.length args [] ∧
      st'.cfg.targets.length = targetsAfter st.cfg.targets.length args ∧ argLoopMsgs env args st = unreadable env args) ∨
    (∃ pre w post ms, args = pre ++ w :: post ∧ argLoop env.args args st = .error .error ∧ Sound env.args st.cfg.targets.length pre (w :: post) ∧
      Mistake (targetsAfter st.cfg.targets.length pre) w post.head? ms ∧ argLoopMsgs env args st = unreadable env (pre ++ [w]) ++ ms) ∨
    (∃ pre w post, args = pre ++ w :: post ∧ argLoop env.args args st = .error (.raised .regexError) ∧
      Sound env.args st.cfg.targets.length pre (w :: post) ∧ BadPattern env.args w post.head? ∧ argLoopMsgs env args st = unreadable env (pre ++ [w]))
  | [], st => .inl ⟨st, rfl, sound_nil _ _ _, rfl, rfl⟩
  | a :: rest, st => by
    rw [argLoop, argLoopMsgs]
    rcases step_cases env a rest.head? st with ⟨st1, h1, h2, h3, h4, h5⟩ | ⟨h1, h2, h3⟩ | ⟨h1, h2, h3⟩
    · simp only [h1, h5]
      rcases loop_cases env rest st1 with ⟨st', g1, g2, g3, g4⟩ | ⟨pre, w, post, ms, g1, g2, g3, g4, g5⟩ | ⟨pre, w, post, g1, g2, g3, g4, g5⟩
      · refine .inl ⟨st', g1, sound_cons.mpr ⟨⟨fun m hm => h2 (mistake_bad (by simpa using hm)), by simpa using h3⟩, h4 ▸ g2⟩, ?_, ?_⟩
        · rw [g3, h4]; rfl
        · rw [g4, unreadable_cons]
      · subst g1
        refine .inr (.inl ⟨a :: pre, w, post, ms, rfl, g2, sound_cons.mpr ⟨⟨fun m hm => h2 (mistake_bad hm), h3⟩, h4 ▸ g3⟩, ?_, ?_⟩)
        · rw [targetsAfter_cons, ← h4]; exact g4
        · rw [g5, List.cons_append, unreadable_cons, head?_cut pre w post, List.append_assoc]
      · subst g1
        refine .inr (.inr ⟨a :: pre, w, post, rfl, g2, sound_cons.mpr ⟨⟨fun m hm => h2 (mistake_bad hm), h3⟩, h4 ▸ g3⟩, g4, ?_⟩)
        rw [g5, List.cons_append, unreadable_cons, head?_cut pre w post]
    · simp only [h1, List.append_nil]
      exact .inr (.inl ⟨[], a, rest, _, rfl, trivial, sound_nil _ _ _, h2, rfl⟩)
    · simp only [h1, h3, List.append_nil]
      exact .inr (.inr ⟨[], a, rest, rfl, trivial, sound_nil _ _ _, h2, rfl⟩)

/-- The word at which parsing stops. -/
def StopsAt (env : ArgEnv) (n : Nat) (w : String) (next : Option String) : Prop := (∃ m, Mistake n w next m) ∨ BadPattern env w next

theorem not_both {env : ArgEnv} {n : Nat} {w : String} {next : Option String} {m : List String} (h : Mistake n w next m) : ¬ BadPattern env w next := by
  rintro ⟨rfl, v, rfl, -⟩
  have := mistake_bad h
  rw [classify_regex.mpr rfl] at this
  cases this

theorem stop_unique {env : ArgEnv} : ∀ {pre pre' : List String} {n : Nat} {w w' : String} {post post' : List String}, pre ++ w :: post = pre' ++ w' :: post' →
    Sound env n pre (w :: post) → StopsAt env (targetsAfter n pre) w post.head? →
    Sound env n pre' (w' :: post') → StopsAt env (targetsAfter n pre') w' post'.head? → pre = pre' ∧ w = w' ∧ post = post'
  | [], [], n, w, w', post, post', e, _, _, _, _ => by cases e; exact ⟨rfl, rfl, rfl⟩
  | [], y :: pre', n, w, w', post, post', e, _, hs, h', _ => by
    cases e
    have := (sound_cons.mp h').1
    rcases hs with ⟨m, hm⟩ | hb
    · exact absurd hm (this.1 m)
    · exact absurd hb this.2
  | y :: pre, [], n, w, w', post, post', e, h, _, _, hs' => by
    cases e
    have := (sound_cons.mp h).1
    rcases hs' with ⟨m, hm⟩ | hb
    · exact absurd hm (this.1 m)
    · exact absurd hb this.2
  | y :: pre, z :: pre', n, w, w', post, post', e, h, hs, h', hs' => by
    simp only [List.cons_append, List.cons.injEq] at e
    obtain ⟨rfl, e⟩ := e
    obtain ⟨h1, h2, h3⟩ := stop_unique e (sound_cons.mp h).2 hs (sound_cons.mp h').2 hs'
    exact ⟨by rw [h1], h2, h3⟩

theorem sound_no_stop {env : ArgEnv} {n : Nat} {pre : List String} {w : String} {post : List String} (h : Sound env n (pre ++ w :: post) []) :
    ¬ StopsAt env (targetsAfter n pre) w post.head? := by
  have := h pre w post rfl
  rw [List.append_nil] at this
  rintro (⟨m, hm⟩ | hb)
  · exact this.1 m hm
  · exact this.2 hb

/-! ### The end -/

theorem classify_verbose {w : String} (h : "-v".toList <+: w.toList) : classify w = .verbose := by
  have hs := classify_spec w
  have hne : ∀ x : String, ¬ "-v".toList <+: x.toList → w ≠ x := by rintro x h1 rfl; exact h1 h
  cases hc : classify w <;> rw [hc] at hs <;> simp only [CmdWord, List.mem_cons, List.not_mem_nil, or_false] at hs
  case switch s b =>
    have : ∀ s b, ∀ x ∈ switchNames s b, ¬ "-v".toList <+: x.toList := by
      intro s b; cases s <;> cases b <;> decide +kernel
    exact absurd rfl (hne w (this s b w hs))
  case target =>
    obtain ⟨u, hu⟩ := h
    rcases hs with ⟨t, ht⟩ | ⟨t, ht⟩ <;> rw [← hu] at ht <;> simp at ht
  case processes =>
    obtain ⟨u, hu⟩ := h
    rcases hs with ⟨t, ht⟩ | ⟨t, ht⟩ <;> rw [← hu] at ht <;> simp at ht
  case other => exact absurd (.inr (.inr ⟨_, by simp [optionPrefixes], h⟩)) hs.1
  all_goals first
    | exact absurd hs (hne _ (by decide +kernel))
    | (rcases hs with hs | hs <;> exact absurd hs (hne _ (by decide +kernel)))

theorem argStep_verbose {env : ArgEnv} {a : String} {n : Option String} {st st' : ArgState} (h : argStep env a n st = .ok st') :
    0 < st'.cfg.verbose ↔ "-v".toList <+: a.toList ∨ 0 < st.cfg.verbose := by
  by_cases hc : classify a = .verbose
  · have hs := classify_word hc
    simp only [CmdWord] at hs
    simp only [argStep, hc] at h
    cases h
    refine ⟨fun _ => .inl hs, fun _ => ?_⟩
    exact List.length_pos_of_mem (a := 'v') (List.mem_filter.mpr ⟨hs.subset (by decide +kernel), by simp⟩)
  · have hne : ¬ "-v".toList <+: a.toList := fun h' => hc (classify_verbose h')
    have : st'.cfg.verbose = st.cfg.verbose := by
      unfold argStep at h
      cases hk : classify a <;> rw [hk] at h <;> simp only at h
      case verbose => exact absurd hk hc
      case switch s b => cases h; cases s <;> rfl
      case target =>
        have hr := (addTarget_same st.cfg (.text (argValue a))).1
        split at h
        · rename_i ha; rw [ha] at hr; cases h; exact hr
        · cases h
      case excludeFile =>
        split at h
        · cases h
        split at h
        · cases h; rfl
        · cases h; exact (addExclusionLines_same _ st.cfg).1
      case backport =>
        split at h
        · cases h
        unfold Config.addBackport at h
        split at h
        · rename_i ha
          split at ha
          · cases ha; cases h; rfl
          · cases ha
        · cases h
      case feature =>
        split at h
        · cases h
        unfold Config.enableFeature at h
        split at h
        · rename_i ha
          split at ha
          · cases ha; cases h; rfl
          · cases ha
        · cases h
      all_goals (repeat' split at h)
      all_goals cases h
      all_goals rfl
    rw [this]
    exact ⟨.inr, fun h => h.resolve_left hne⟩

theorem argLoop_verbose {env : ArgEnv} : ∀ {args : List String} {st st' : ArgState}, argLoop env args st = .ok st' →
    (0 < st'.cfg.verbose ↔ (∃ w ∈ args, "-v".toList <+: w.toList) ∨ 0 < st.cfg.verbose)
  | [], st, st', h => by
    cases h
    exact ⟨.inr, fun h => h.elim (fun ⟨w, hw, _⟩ => by cases hw) id⟩
  | a :: rest, st, st', h => by
    unfold argLoop at h
    split at h
    · cases h
    rename_i st1 h1
    rw [argLoop_verbose h, argStep_verbose h1]
    constructor
    · rintro (⟨w, hw, hv⟩ | hv | hv)
      · exact .inl ⟨w, List.mem_cons_of_mem _ hw, hv⟩
      · exact .inl ⟨a, List.mem_cons_self, hv⟩
      · exact .inr hv
    · rintro (⟨w, hw, hv⟩ | hv)
      · rcases List.mem_cons.mp hw with rfl | hw
        · exact .inr (.inl hv)
        · exact .inl ⟨w, hw, hv⟩
      · exact .inr (.inr hv)

/-- What the end depends on. -/
theorem formatted_facts {env : ArgEnv} {args : List String} {c0 : Config} {st : ArgState}
    (h : argLoop env args { cfg := c0, pathPos := 0, versions := false, fmt := none } = .ok st) :
    st.formatted.onlyShowViolations = st.cfg.onlyShowViolations ∧ st.formatted.targets = st.cfg.targets ∧ st.formatted.quiet = st.cfg.quiet ∧
    (0 < st.formatted.verbose ↔ (∃ w ∈ args, "-v".toList <+: w.toList) ∨ 0 < c0.verbose ∨ st.fmt = some .parsable) := by
  have hv := argLoop_verbose h
  simp only at hv
  unfold ArgState.formatted
  cases hf : st.fmt with
  | none => exact ⟨rfl, rfl, rfl, by rw [hv]; simp⟩
  | some f =>
    cases f with
    | default => exact ⟨rfl, rfl, rfl, by show 0 < st.cfg.verbose ↔ _; rw [hv]; simp⟩
    | parsable =>
      refine ⟨rfl, rfl, rfl, ⟨fun _ => .inr (.inr rfl), fun _ => ?_⟩⟩
      show 0 < max 3 st.cfg.verbose
      omega

theorem lastFormat_unique {args : List String} {b f g : Option Fmt} (hf : LastFormat args b f) (hg : LastFormat args b g) : f = g := by
  rcases hf with ⟨pre, o, v, post, k, e, ho, hp, rfl, hk⟩ | ⟨hn, rfl⟩
  · rcases hg with ⟨pre', o', v', post', k', e', ho', hp', rfl, hk'⟩ | ⟨hn, rfl⟩
    · have := last_value_unique (e.symm.trans e') ho ho' hp hp'
      subst this
      rw [← hk] at hk'
      cases k <;> cases k' <;> first | rfl | (revert hk'; decide)
    · exact absurd ho (hn o (by rw [e]; simp))
  · rcases hg with ⟨pre', o', v', post', k', e', ho', hp', rfl, hk'⟩ | ⟨hn', rfl⟩
    · exact absurd ho' (hn o' (by rw [e']; simp))
    · rfl

theorem lastSays_unique {on off args : List String} (hd : ∀ x ∈ on, x ∉ off) {b x y : Bool} (hx : LastSays on off args b x) (hy : LastSays on off args b y) : x = y := by
  have key : ∀ {pre pre' post post' : List String} {a a' : String}, pre ++ a :: post = pre' ++ a' :: post' →
      (∀ z ∈ post, z ∉ on ∧ z ∉ off) → (∀ z ∈ post', z ∉ on ∧ z ∉ off) → (a ∈ on ∨ a ∈ off) → (a' ∈ on ∨ a' ∈ off) → a = a' := by
    intro pre
    induction pre with
    | nil =>
      intro pre' post post' a a' e hp hp' ha ha'
      cases pre' with
      | nil => cases e; rfl
      | cons z pre' =>
        cases e
        have := hp a' (by simp)
        exact absurd ha' (by simp [this])
    | cons u pre ih =>
      intro pre' post post' a a' e hp hp' ha ha'
      cases pre' with
      | nil =>
        cases e
        have := hp' a (by simp)
        exact absurd ha (by simp [this])
      | cons z pre' => exact ih (List.cons.inj e).2 hp hp' ha ha'
  rcases hx with ⟨pre, a, post, e, hp, ha⟩ | ⟨hn, rfl⟩
  · rcases hy with ⟨pre', a', post', e', hp', ha'⟩ | ⟨hn, rfl⟩
    · have := key (e.symm.trans e') hp hp' (ha.imp And.left And.left) (ha'.imp And.left And.left)
      subst this
      rcases ha with ⟨h1, rfl⟩ | ⟨h1, rfl⟩ <;> rcases ha' with ⟨h2, rfl⟩ | ⟨h2, rfl⟩
      · rfl
      · exact absurd h2 (hd _ h1)
      · exact absurd h1 (fun h => hd _ h2 h1)
      · rfl
    · have := hn a (by rw [e]; simp)
      rcases ha with ⟨h1, _⟩ | ⟨h1, _⟩
      · exact absurd h1 this.1
      · exact absurd h1 this.2
  · rcases hy with ⟨pre', a', post', e', hp', ha'⟩ | ⟨hn', rfl⟩
    · have := hn a' (by rw [e']; simp)
      rcases ha' with ⟨h1, _⟩ | ⟨h1, _⟩
      · exact absurd h1 this.1
      · exact absurd h1 this.2
    · rfl

/-- How parsing ends if no word is refused. -/
theorem finish_cases {env : ArgEnv} {args : List String} {c0 : Config} {st : ArgState} (used : Option String)
    (h : argLoop env args { cfg := c0, pathPos := 0, versions := false, fmt := none } = .ok st)
    (ht : st.cfg.targets.length = targetsAfter c0.targets.length args) :
    (argFinish args st = .error .error ∧ LastSays ["--violations", "--lint"] ["--no-violations", "--no-lint"] args c0.onlyShowViolations true ∧
      targetsAfter c0.targets.length args = 0 ∧ argFinishMsgs used st = ["Showing violations requires target(s) to be specified!"]) ∨
    (argFinish args st = .error .error ∧ LastSays ["--violations", "--lint"] ["--no-violations", "--no-lint"] args c0.onlyShowViolations false ∧
      LastSays ["--quiet", "-q"] ["--no-quiet"] args c0.quiet true ∧ Loud args c0 ∧ argFinishMsgs used st = ["Cannot use quiet and verbose modes together!"]) ∨
    (∃ p, argFinish args st = .ok p ∧
      ¬ (LastSays ["--violations", "--lint"] ["--no-violations", "--no-lint"] args c0.onlyShowViolations true ∧ targetsAfter c0.targets.length args = 0) ∧
      ¬ (LastSays ["--violations", "--lint"] ["--no-violations", "--no-lint"] args c0.onlyShowViolations false ∧
        LastSays ["--quiet", "-q"] ["--no-quiet"] args c0.quiet true ∧ Loud args c0) ∧
      argFinishMsgs used st = if p.cfg.format ≠ .parsable ∧ p.cfg.quiet = false then (used.map ("Using detected config: " ++ ·)).toList else []) := by
  have hvio := argLoop_switch .violations h
  have hq := argLoop_switch .quiet h
  have hfmt := argLoop_fmt h
  obtain ⟨f1, f2, f3, f4⟩ := formatted_facts h
  simp only [switchNames, Config.getSwitch] at hvio hq hfmt
  have loud : Loud args c0 ↔ 0 < st.formatted.verbose := by
    rw [f4]
    unfold Loud
    refine or_congr Iff.rfl (or_congr Iff.rfl ⟨fun h' => lastFormat_unique hfmt h', fun h' => h' ▸ hfmt⟩)
  have hvu : ∀ b, LastSays ["--violations", "--lint"] ["--no-violations", "--no-lint"] args c0.onlyShowViolations b → st.cfg.onlyShowViolations = b :=
    fun b hb => lastSays_unique (by decide +kernel) hvio hb
  have hqu : LastSays ["--quiet", "-q"] ["--no-quiet"] args c0.quiet true → st.cfg.quiet = true :=
    fun hb => lastSays_unique (by decide +kernel) hq hb
  have hemp : st.formatted.targets.isEmpty = true ↔ targetsAfter c0.targets.length args = 0 := by
    rw [f2, ← ht]; cases st.cfg.targets <;> simp
  unfold argFinish argFinishMsgs
  simp only
  generalize st.formatted = c1 at *
  generalize hc : (if (c1.onlyShowViolations && decide (c1.verbose < 2)) = true then { c1 with verbose := 2 } else c1) = c
  have hco : c.onlyShowViolations = c1.onlyShowViolations := by
    rw [← hc]; split <;> rfl
  have hcs : c1.onlyShowViolations = false → c = c1 := by
    intro h0; rw [← hc, h0]; rfl
  rw [hco]
  by_cases hv : st.cfg.onlyShowViolations = true
  · rw [f1, hv]
    by_cases hz : c1.targets.isEmpty = true
    · refine .inl ⟨by simp [hz], hv ▸ hvio, hemp.mp hz, by simp [hz]⟩
    · refine .inr (.inr ?_)
      have hz' : c1.targets.isEmpty = false := by simpa using hz
      rw [hz']
      simp only [Bool.and_false, Bool.false_eq_true, if_false, Bool.not_true]
      refine ⟨_, rfl, fun h' => hz (hemp.mpr h'.2), (fun h' => by have := hvu _ h'.1; rw [hv] at this; cases this), ?_⟩
      cases used with
      | none => simp
      | some q => by_cases h1 : c.format = .parsable <;> cases h2 : c.quiet <;> simp [h1]
  · have hv' : st.cfg.onlyShowViolations = false := by simpa using hv
    rw [hcs (f1.trans hv')]
    rw [f1, hv']
    simp only [Bool.false_and, Bool.false_eq_true, if_false, Bool.not_false, Bool.and_true, Bool.and_eq_true, decide_eq_true_eq]
    by_cases hb : c1.quiet = true ∧ c1.verbose > 0
    · rw [if_pos hb, if_pos hb]
      refine .inr (.inl ⟨rfl, hv' ▸ hvio, ?_, loud.mpr hb.2, rfl⟩)
      rw [f3] at hb
      exact hb.1 ▸ hq
    · rw [if_neg hb, if_neg hb]
      refine .inr (.inr ⟨_, rfl, (fun h' => by have := hvu _ h'.1; rw [hv'] at this; cases this), fun h' => hb ⟨f3 ▸ hqu h'.2.1, loud.mp h'.2.2⟩, ?_⟩)
      cases used with
      | none => simp
      | some q => by_cases h1 : c1.format = .parsable <;> cases h2 : c1.quiet <;> simp [h1]

/-! ### The whole -/

/-- The first pass. -/
theorem pre_cases {env : ArgEnv} : ∀ {args : List String} {p : PreArgs}, (∀ w ∈ args, w ∉ ["--help", "-h", "--version", "-V"]) →
    (∃ p', preArgs env args p = .ok p' ∧ ¬ ∃ pre o, args = pre ++ [o] ∧ o ∈ namesFile) ∨
    (preArgs env args p = .error .error ∧ (∃ pre o, args = pre ++ [o] ∧ o ∈ namesFile) ∧
      preArgsMsgs args = ["Requires config file path! Example: --config-file /path/to/vermin.ini"])
  | [], p, _ => .inl ⟨p, rfl, by rintro ⟨pre, o, h, -⟩; cases pre <;> cases h⟩
  | a :: rest, p, hw => by
    have ha := hw a (by simp)
    simp only [List.mem_cons, List.not_mem_nil, or_false, not_or] at ha
    have h1 : a ∉ ["--help", "-h"] := by simp [ha.1, ha.2.1]
    have h2 : a ∉ ["--version", "-V"] := by simp [ha.2.2.1, ha.2.2.2]
    have hr : ∀ w ∈ rest, w ∉ ["--help", "-h", "--version", "-V"] := fun w hm => hw w (List.mem_cons_of_mem _ hm)
    unfold preArgs preArgsMsgs
    rw [if_neg h1, if_neg h2, if_neg h1, if_neg h2]
    simp only
    generalize (if a = "--no-config-file" then { p with noConfig := true } else p) = q
    have step : ∀ q', (rest = [] → a ∉ namesFile) →
        (∃ p', preArgs env rest q' = .ok p' ∧ ¬ ∃ pre o, a :: rest = pre ++ [o] ∧ o ∈ namesFile) ∨
        (preArgs env rest q' = .error .error ∧ (∃ pre o, a :: rest = pre ++ [o] ∧ o ∈ namesFile) ∧
          preArgsMsgs rest = ["Requires config file path! Example: --config-file /path/to/vermin.ini"]) := by
      intro q' hq
      rcases pre_cases (p := q') hr with ⟨p', g1, g2⟩ | ⟨g1, ⟨pre, o, rfl, ho⟩, g3⟩
      · refine .inl ⟨p', g1, ?_⟩
        rintro ⟨pre, o, e, ho⟩
        cases pre with
        | nil => cases e; exact hq rfl ho
        | cons x pre => cases e; exact g2 ⟨pre, o, rfl, ho⟩
      · exact .inr ⟨g1, ⟨a :: pre, o, rfl, ho⟩, g3⟩
    by_cases hc : a ∈ namesFile
    · have hc' : a ∈ ["--config-file", "-c"] := hc
      rw [if_pos hc']
      cases rest with
      | nil => exact .inr ⟨rfl, ⟨[], a, rfl, hc⟩, by rw [if_pos ⟨hc', rfl⟩]⟩
      | cons v rest =>
        rw [if_neg (by simp)]
        exact step _ (by simp)
    · have hc' : a ∉ ["--config-file", "-c"] := hc
      rw [if_neg hc', if_neg (fun h => hc' h.1)]
      exact step _ (fun _ => hc)

/-- The config file that is used because it was detected. -/
def Detected (env : ArgEnv) (args : List String) (r : Option String) : Prop :=
  ((∀ x ∈ args, x ∉ namesFile) ∧ "--no-config-file" ∉ args ∧ env.detected = .ok r) ∨
  (¬ ((∀ x ∈ args, x ∉ namesFile) ∧ "--no-config-file" ∉ args) ∧ r = none)

/-- What is printed by the main loop and after it. -/
def runMsgs (env : MsgEnv) (args : List String) (c0 : Config) (used : Option String) : List String :=
  argLoopMsgs env args { cfg := c0, pathPos := 0, versions := false, fmt := none } ++
  match argLoop env.args args { cfg := c0, pathPos := 0, versions := false, fmt := none } with
  | .error _ => []
  | .ok st => argFinishMsgs used st

theorem parse_cases {env : MsgEnv} (he : RealPaths env.args) {args : List String} (hargs : args ≠ []) {config : Config}
    (hd : ∃ d, env.args.detected = .ok d) (hw : ∀ w ∈ args, w ∉ ["--help", "-h", "--version", "-V"]) :
    (parseArgs env.args args config = .error .error ∧ (∃ pre o, args = pre ++ [o] ∧ o ∈ namesFile) ∧
      parseArgsMsgs env args config = ["Requires config file path! Example: --config-file /path/to/vermin.ini"]) ∨
    (parseArgs env.args args config = .error .error ∧
      (∃ pre o v post, args = pre ++ o :: v :: post ∧ o ∈ namesFile ∧ (∀ x ∈ v :: post, x ∉ namesFile) ∧ "--no-config-file" ∈ args) ∧
      parseArgsMsgs env args config = ["--config-file cannot be used together with --no-config-file!"]) ∨
    (parseArgs env.args args config = .error .error ∧ ∃ q, FileChoice env.args args (some q) ∧ env.args.parseFile q = none ∧
      parseArgsMsgs env args config = env.fileMsgs q) ∨
    (∃ c0 used fm, StartConfig env.args args config c0 ∧ Detected env.args args used ∧
      (fm = [] ∨ ∃ q f, FileChoice env.args args (some q) ∧ env.args.parseFile q = some f ∧ fm = env.fileMsgs q) ∧
      parseArgsMsgs env args config = fm ++ runMsgs env args c0 used ∧
      parseArgs env.args args config =
        match argLoop env.args args { cfg := c0, pathPos := 0, versions := false, fmt := none } with
        | .error e => .error e
        | .ok st => argFinish args st) := by
  obtain ⟨d, hd⟩ := hd
  have hne : args.isEmpty = false := by simpa using hargs
  unfold parseArgs parseArgsMsgs
  rw [hne, hd]
  simp only [Bool.false_eq_true, if_false]
  rcases pre_cases (env := env.args) (p := { noConfig := false, argConfig := none }) hw with ⟨pre, hpre, -⟩ | ⟨hpre, hlast, hm⟩
  · simp only [hpre]
    obtain ⟨hn, ha⟩ := preArgs_spec hpre
    simp only [Bool.false_or] at hn
    have hdet : d.filter (· ≠ "") = d := by
      cases d with
      | none => rfl
      | some d =>
        have : d ≠ "" := fun h0 => he.detected (by rw [hd, h0])
        simp [Option.filter, this]
    rcases ha with ⟨pr, o, v, post, hargs', ho, hx, hv⟩ | ⟨hx, hv⟩
    · have hf : pre.argConfig.filter (fun x => decide (x ≠ "")) = some (env.args.abspath v) := by
        rw [hv]; simp [Option.filter, he.abspath v]
      simp only [hf]
      by_cases hm : "--no-config-file" ∈ args
      · have : pre.noConfig = true := by rw [hn]; simp [hm]
        rw [this]
        simp only [Option.isSome_some, Bool.and_self, if_true]
        exact .inr (.inl ⟨trivial, ⟨pr, o, v, post, hargs', ho, hx, hm⟩, trivial⟩)
      · have : pre.noConfig = false := by rw [hn]; simp [hm]
        rw [this]
        simp only [Bool.false_and, Bool.false_eq_true, if_false]
        have hch : FileChoice env.args args (some (env.args.abspath v)) := .inl ⟨pr, o, v, post, hargs', ho, hx, rfl, hm⟩
        cases hpf : env.args.parseFile (env.args.abspath v) with
        | none => exact .inr (.inr (.inl ⟨rfl, _, hch, hpf, by simp [hpf]⟩))
        | some f =>
          refine .inr (.inr (.inr ⟨config.overrideFrom f, none, _, ⟨_, hch, f, hpf, rfl⟩, .inr ⟨?_, rfl⟩, .inr ⟨_, f, hch, hpf, rfl⟩, rfl, rfl⟩))
          exact fun h => h.1 o (by rw [hargs']; simp) ho
    · have hf : pre.argConfig.filter (fun x => decide (x ≠ "")) = none := by rw [hv]; rfl
      simp only [hf]
      by_cases hm : "--no-config-file" ∈ args
      · have : pre.noConfig = true := by rw [hn]; simp [hm]
        rw [this]
        simp only [Option.isSome_none, Bool.and_false, Bool.false_eq_true, if_false, if_true, Option.filter_none]
        exact .inr (.inr (.inr ⟨config, none, [], ⟨none, .inr (.inl ⟨hx, hm, rfl⟩), rfl⟩, .inr ⟨fun h => h.2 hm, rfl⟩, .inl rfl, rfl, rfl⟩))
      · have : pre.noConfig = false := by rw [hn]; simp [hm]
        rw [this]
        simp only [Bool.false_and, Bool.false_eq_true, if_false, hdet]
        cases d with
        | none => exact .inr (.inr (.inr ⟨config, none, [], ⟨none, .inr (.inr ⟨hx, hm, hd⟩), rfl⟩, .inl ⟨hx, hm, hd⟩, .inl rfl, rfl, rfl⟩))
        | some q =>
          have hch : FileChoice env.args args (some q) := .inr (.inr ⟨hx, hm, hd⟩)
          cases hpf : env.args.parseFile q with
          | none => exact .inr (.inr (.inl ⟨by simp only [hpf], _, hch, hpf, by simp [hpf]⟩))
          | some f =>
            exact .inr (.inr (.inr ⟨config.overrideFrom f, some q, _, ⟨_, hch, f, hpf, rfl⟩, .inl ⟨hx, hm, hd⟩, .inr ⟨_, f, hch, hpf, rfl⟩, by simp only [hpf]; rfl, by simp only [hpf]; rfl⟩))
  · simp only [hpre]
    exact .inl ⟨trivial, hlast, hm⟩

theorem ends_unchosen {env : ArgEnv} {args : List String} (h : ∃ pre o, args = pre ++ [o] ∧ o ∈ namesFile) (r : Option String) : ¬ FileChoice env args r := by
  obtain ⟨pre, o, e, ho⟩ := h
  rintro (⟨pre', o', v, post, e', -, hx, -⟩ | ⟨hx, -⟩ | ⟨hx, -⟩)
  · refine hx o ?_ ho
    have : (pre ++ [o]).getLast? = (pre' ++ o' :: v :: post).getLast? := by rw [← e, e']
    rw [List.getLast?_append, List.getLast?_append] at this
    simp only [List.getLast?_singleton, Option.some_or, List.getLast?_cons_cons] at this
    cases hl : (v :: post).getLast? with
    | none => simp at hl
    | some z =>
      rw [hl] at this
      simp only [Option.some_or, Option.some.injEq] at this
      exact List.mem_of_getLast? (this ▸ hl)
  · exact hx o (by rw [e]; simp) ho
  · exact hx o (by rw [e]; simp) ho

theorem both_unchosen {env : ArgEnv} {args : List String} {pre post : List String} {o v : String} (e : args = pre ++ o :: v :: post) (ho : o ∈ namesFile)
    (hn : "--no-config-file" ∈ args) (r : Option String) : ¬ FileChoice env args r := by
  rintro (⟨_, _, _, _, _, _, _, _, h⟩ | ⟨hx, -⟩ | ⟨hx, -⟩)
  · exact h hn
  · exact hx o (by rw [e]; simp) ho
  · exact hx o (by rw [e]; simp) ho

theorem start_unique {env : ArgEnv} {args : List String} {config c c' : Config} (h : StartConfig env args config c) (h' : StartConfig env args config c') : c = c' := by
  obtain ⟨r, h1, h2⟩ := h
  obtain ⟨r', h1', h2'⟩ := h'
  have := fileChoice_unique h1 h1'
  subst this
  cases r with
  | none => exact h2.trans h2'.symm
  | some q =>
    obtain ⟨f, e, rfl⟩ := h2
    obtain ⟨f', e', rfl⟩ := h2'
    rw [e] at e'
    cases e'
    rfl

/-- **C77.** A command line without requests for help or version is refused exactly if it has one of the mistakes, and the
messages are those for the first of them. -/
theorem C77_refused {env : MsgEnv} (he : RealPaths env.args) (hfm : ∀ q f, env.args.parseFile q = some f → env.fileMsgs q = [])
    {args : List String} (hargs : args ≠ []) {config : Config} (hd : ∃ d, env.args.detected = .ok d)
    (hw : ∀ w ∈ args, w ∉ ["--help", "-h", "--version", "-V"]) :
    (parseArgs env.args args config = .error .error ↔ ∃ msgs, Refused env args config msgs) ∧
    (parseArgs env.args args config = .error .error → Refused env args config (parseArgsMsgs env args config)) := by
  rcases parse_cases he hargs (config := config) hd hw with ⟨h1, ⟨pre, o, e, ho⟩, h3⟩ | ⟨h1, ⟨pre, o, v, post, e, ho, hx, hn⟩, h3⟩ | ⟨h1, q, h2, h3, h4⟩ |
    ⟨c0, used, fm, hs, hu, hfm', hm, hp⟩
  · have := Refused.noFile (env := env) (config := config) e ho
    rw [h3]
    exact ⟨⟨fun _ => ⟨_, this⟩, fun _ => h1⟩, fun _ => this⟩
  · have := Refused.both (env := env) (config := config) e ho hx hn
    rw [h3]
    exact ⟨⟨fun _ => ⟨_, this⟩, fun _ => h1⟩, fun _ => this⟩
  · have := Refused.file (env := env) (config := config) h2 h3
    rw [h4]
    exact ⟨⟨fun _ => ⟨_, this⟩, fun _ => h1⟩, fun _ => this⟩
  · have hfm0 : fm = [] := by
      rcases hfm' with h | ⟨q, f, -, h1, h2⟩
      · exact h
      · rw [h2, hfm q f h1]
    subst hfm0
    rw [hm, List.nil_append]
    obtain ⟨r, hr, hr'⟩ := id hs
    have back : ∀ {msgs}, Refused env args config msgs →
        (∃ pre w post ms, args = pre ++ w :: post ∧ Sound env.args c0.targets.length pre (w :: post) ∧
          Mistake (targetsAfter c0.targets.length pre) w post.head? ms) ∨
        (Sound env.args c0.targets.length args [] ∧
          (LastSays ["--violations", "--lint"] ["--no-violations", "--no-lint"] args c0.onlyShowViolations true ∧ targetsAfter c0.targets.length args = 0 ∨
          LastSays ["--violations", "--lint"] ["--no-violations", "--no-lint"] args c0.onlyShowViolations false ∧
            LastSays ["--quiet", "-q"] ["--no-quiet"] args c0.quiet true ∧ Loud args c0)) := by
      intro msgs h
      cases h with
      | noFile e ho => exact absurd hr (ends_unchosen ⟨_, _, e, ho⟩ r)
      | both e ho hx hn => exact absurd hr (both_unchosen e ho hn r)
      | file h2 h3 =>
        have := fileChoice_unique h2 hr
        subst this
        obtain ⟨f, hf, -⟩ := hr'
        rw [h3] at hf
        cases hf
      | word h1 e h2 h3 =>
        cases start_unique h1 hs
        exact .inl ⟨_, _, _, _, e, h2, h3⟩
      | violations h1 h2 h3 h4 =>
        cases start_unique h1 hs
        exact .inr ⟨h2, .inl ⟨h3, h4⟩⟩
      | quiet h1 h2 h3 h4 h5 =>
        cases start_unique h1 hs
        exact .inr ⟨h2, .inr ⟨h3, h4, h5⟩⟩
    rcases loop_cases env args { cfg := c0, pathPos := 0, versions := false, fmt := none } with ⟨st, g1, g2, g3, g4⟩ | ⟨pre, w, post, ms, g1, g2, g3, g4, g5⟩ | ⟨pre, w, post, g1, g2, g3, g4, g5⟩
    · rw [hp]
      simp only [runMsgs, g1, g4]
      rcases finish_cases used g1 g3 with ⟨k1, k2, k3, k4⟩ | ⟨k1, k2, k3, k4, k5⟩ | ⟨p, k1, k2, k3, k4⟩
      · have := Refused.violations (env := env) hs g2 k2 k3
        rw [k4]
        exact ⟨⟨fun _ => ⟨_, this⟩, fun _ => k1⟩, fun _ => this⟩
      · have := Refused.quiet (env := env) hs g2 k2 k3 k4
        rw [k5]
        exact ⟨⟨fun _ => ⟨_, this⟩, fun _ => k1⟩, fun _ => this⟩
      · rw [k1]
        refine ⟨⟨(fun h => by cases h), ?_⟩, (fun h => by cases h)⟩
        rintro ⟨msgs, h⟩
        rcases back h with ⟨pre, w, post, ms, e, -, h2⟩ | ⟨-, h | h⟩
        · subst e
          exact absurd (.inl ⟨ms, h2⟩) (sound_no_stop g2)
        · exact absurd h k2
        · exact absurd h k3
    · have := Refused.word (env := env) hs g1 g3 g4
      rw [hp]
      simp only [runMsgs, g2, g5, List.append_nil]
      exact ⟨⟨fun _ => ⟨_, this⟩, fun _ => trivial⟩, fun _ => this⟩
    · rw [hp]
      simp only [g2]
      refine ⟨⟨(fun h => by cases h), ?_⟩, (fun h => by cases h)⟩
      rintro ⟨msgs, h⟩
      subst g1
      rcases back h with ⟨pre', w', post', ms, e, h1, h2⟩ | ⟨h, -⟩
      · obtain ⟨rfl, rfl, rfl⟩ := stop_unique e g3 (.inr g4) h1 (.inl ⟨ms, h2⟩)
        exact absurd g4 (not_both h2)
      · exact absurd (.inr g4) (sound_no_stop h)

/-- **C77.** Where an exception ends parsing: a pattern that cannot be compiled, and nothing refused before it. -/
theorem C77_raised {env : MsgEnv} (he : RealPaths env.args) {args : List String} (hargs : args ≠ []) {config : Config}
    (hd : ∃ d, env.args.detected = .ok d) (hw : ∀ w ∈ args, w ∉ ["--help", "-h", "--version", "-V"]) (e : Err) :
    parseArgs env.args args config = .error (.raised e) ↔ e = .regexError ∧ ∃ c0 pre w post, StartConfig env.args args config c0 ∧
      args = pre ++ w :: post ∧ Sound env.args c0.targets.length pre (w :: post) ∧ BadPattern env.args w post.head? := by
  have unstarted : (∀ r, ¬ FileChoice env.args args r) → ∀ c, ¬ StartConfig env.args args config c := fun h c ⟨r, h1, _⟩ => h r h1
  rcases parse_cases he hargs (config := config) hd hw with ⟨h1, h2, -⟩ | ⟨h1, ⟨pre, o, v, post, e, ho, hx, hn⟩, -⟩ | ⟨h1, q, h2, h3, -⟩ |
    ⟨c0, used, fm, hs, hu, hfm', hm, hp⟩
  · rw [h1]
    exact ⟨fun h => by (cases h), fun ⟨_, c, _, _, _, h, _⟩ => absurd h (unstarted (ends_unchosen h2) c)⟩
  · rw [h1]
    exact ⟨fun h => by (cases h), fun ⟨_, c, _, _, _, h, _⟩ => absurd h (unstarted (both_unchosen e ho hn) c)⟩
  · rw [h1]
    refine ⟨fun h => by (cases h), ?_⟩
    rintro ⟨_, c, _, _, _, ⟨r, hr, hr'⟩, _⟩
    have := fileChoice_unique h2 hr
    subst this
    obtain ⟨f, hf, -⟩ := hr'
    rw [h3] at hf
    cases hf
  · rw [hp]
    rcases loop_cases env args { cfg := c0, pathPos := 0, versions := false, fmt := none } with ⟨st, g1, g2, g3, g4⟩ | ⟨pre, w, post, ms, g1, g2, g3, g4, g5⟩ | ⟨pre, w, post, g1, g2, g3, g4, g5⟩
    · simp only [g1]
      constructor
      · intro h
        rcases finish_cases none g1 g3 with ⟨k1, -⟩ | ⟨k1, -⟩ | ⟨p, k1, -⟩ <;> rw [k1] at h <;> cases h
      · rintro ⟨-, c, pre, w, post, h, rfl, -, hb⟩
        exact absurd (.inr hb) (sound_no_stop g2)
    · simp only [g2]
      refine ⟨fun h => by (cases h), ?_⟩
      rintro ⟨-, c, pre', w', post', h, e, h1, hb⟩
      cases start_unique h hs
      obtain ⟨rfl, rfl, rfl⟩ := stop_unique (g1.symm.trans e) g3 (.inl ⟨ms, g4⟩) h1 (.inr hb)
      exact absurd hb (not_both g4)
    · simp only [g2]
      constructor
      · intro h
        cases h
        exact ⟨rfl, c0, pre, w, post, hs, g1, g3, g4⟩
      · rintro ⟨rfl, -⟩
        rfl

/-- The first word that asks for help or the version decides. -/
theorem pre_asked {env : ArgEnv} {w : String} {post : List String} (hw : w ∈ ["--help", "-h", "--version", "-V"]) :
    ∀ {pre : List String} {p : PreArgs}, (∀ x ∈ pre, x ∉ ["--help", "-h", "--version", "-V"]) →
    preArgs env (pre ++ w :: post) p = .error (if w ∈ ["--help", "-h"] then .usage 0 true else .exit0) ∧
    preArgsMsgs (pre ++ w :: post) = if w ∈ ["--help", "-h"] then [] else [versionText]
  | [], p, _ => by
    rw [List.nil_append]
    unfold preArgs preArgsMsgs
    by_cases h : w ∈ ["--help", "-h"]
    · simp only [if_pos h]; trivial
    · have : w ∈ ["--version", "-V"] := by
        simp only [List.mem_cons, List.not_mem_nil, or_false, not_or] at hw h ⊢
        rcases hw with h' | h' | h' | h'
        · exact absurd h' h.1
        · exact absurd h' h.2
        · exact .inl h'
        · exact .inr h'
      simp only [if_neg h, if_pos this]
      trivial
  | a :: pre, p, hp => by
    have ha := hp a (by simp)
    simp only [List.mem_cons, List.not_mem_nil, or_false, not_or] at ha
    have h1 : a ∉ ["--help", "-h"] := by simp [ha.1, ha.2.1]
    have h2 : a ∉ ["--version", "-V"] := by simp [ha.2.2.1, ha.2.2.2]
    have hr : ∀ x ∈ pre, x ∉ ["--help", "-h", "--version", "-V"] := fun x hm => hp x (List.mem_cons_of_mem _ hm)
    rw [List.cons_append]
    unfold preArgs preArgsMsgs
    have h5 : ¬ (a ∈ ["--config-file", "-c"] ∧ pre ++ w :: post = []) := by simp
    rw [if_neg h1, if_neg h2, if_neg h1, if_neg h2, if_neg h5]
    simp only
    generalize (if a = "--no-config-file" then { p with noConfig := true } else p) = q
    split
    · cases hh : (pre ++ w :: post).head? with
      | none => cases pre <;> cases hh
      | some v => exact pre_asked hw hr
    · exact pre_asked hw hr

theorem first_asked : ∀ {args : List String}, ¬ (∀ w ∈ args, w ∉ ["--help", "-h", "--version", "-V"]) →
    ∃ pre w post, args = pre ++ w :: post ∧ w ∈ ["--help", "-h", "--version", "-V"] ∧ ∀ x ∈ pre, x ∉ ["--help", "-h", "--version", "-V"]
  | [], h => absurd (by simp) h
  | a :: rest, h => by
    by_cases ha : a ∈ ["--help", "-h", "--version", "-V"]
    · exact ⟨[], a, rest, rfl, ha, by simp⟩
    · obtain ⟨pre, w, post, rfl, h1, h2⟩ := first_asked (args := rest) (fun h' => h (by
        intro w hw
        rcases List.mem_cons.mp hw with rfl | hw
        · exact ha
        · exact h' w hw))
      refine ⟨a :: pre, w, post, rfl, h1, ?_⟩
      intro x hx
      rcases List.mem_cons.mp hx with rfl | hx
      · exact ha
      · exact h2 x hx

/-- **C77.** The first word that asks for help or the version decides, whatever else there is: help is shown in full with
exit code 0; the version is printed with exit code 0. -/
theorem C77_asked {env : MsgEnv} {pre post : List String} {w : String} (hd : ∃ d, env.args.detected = .ok d) (hw : w ∈ ["--help", "-h", "--version", "-V"])
    (hp : ∀ x ∈ pre, x ∉ ["--help", "-h", "--version", "-V"]) (config : Config) :
    (w ∈ ["--help", "-h"] → parseArgs env.args (pre ++ w :: post) config = .error (.usage 0 true) ∧ parseArgsMsgs env (pre ++ w :: post) config = []) ∧
    (w ∈ ["--version", "-V"] → parseArgs env.args (pre ++ w :: post) config = .error .exit0 ∧ parseArgsMsgs env (pre ++ w :: post) config = ["1.6.0"]) := by
  obtain ⟨d, hd⟩ := hd
  obtain ⟨h1, h2⟩ := pre_asked (env := env.args) (p := { noConfig := false, argConfig := none }) (post := post) hw hp
  have hne : (pre ++ w :: post).isEmpty = false := by cases pre <;> rfl
  unfold parseArgs parseArgsMsgs
  simp only [hne, hd, h1, h2, Bool.false_eq_true, if_false]
  constructor
  · intro h
    simp [h]
  · intro h
    have : w ∉ ["--help", "-h"] := by
      simp only [List.mem_cons, List.not_mem_nil, or_false] at h
      rcases h with rfl | rfl <;> decide
    simp only [if_neg this]
    exact ⟨trivial, by rfl⟩

/-- A command line that is accepted or refused does not ask for help or the version. -/
theorem unasked_of {env : ArgEnv} {args : List String} {config : Config} {r : Except ArgStop Parsed} (h : parseArgs env args config = r)
    (hr : (∃ p, r = .ok p) ∨ r = .error .error) : args ≠ [] ∧ (∃ d, env.detected = .ok d) ∧ ∀ w ∈ args, w ∉ ["--help", "-h", "--version", "-V"] := by
  have hargs : args ≠ [] := by
    rintro rfl
    subst h
    rcases hr with ⟨p, hr⟩ | hr <;> cases hr
  have hd : ∃ d, env.detected = .ok d := by
    unfold parseArgs at h
    rw [if_neg (by simpa using hargs)] at h
    split at h
    · subst h
      rcases hr with ⟨p, hr⟩ | hr <;> cases hr
    · exact ⟨_, by assumption⟩
  refine ⟨hargs, hd, Classical.byContradiction fun hn => ?_⟩
  obtain ⟨pre, w, post, rfl, h1, h2⟩ := first_asked hn
  obtain ⟨d, hd⟩ := hd
  have h3 := (pre_asked (env := env) (p := { noConfig := false, argConfig := none }) (post := post) h1 h2).1
  have hne : (pre ++ w :: post).isEmpty = false := by cases pre <;> rfl
  unfold parseArgs at h
  simp only [hne, hd, h3, Bool.false_eq_true, if_false] at h
  subst h
  rcases hr with ⟨p, hr⟩ | hr
  · cases hr
  · split at hr <;> cases hr

theorem refused_plain {env : ArgEnv} {args : List String} {config : Config} (h : parseArgs env args config = .error .error) :
    args ≠ [] ∧ (∃ d, env.detected = .ok d) ∧ ∀ w ∈ args, w ∉ ["--help", "-h", "--version", "-V"] := unasked_of h (.inr rfl)

/-- The project on PyPI that provides a module. -/
def projectOf (m : String) : String :=
  if m = "enum" then "enum34" else if m = "zoneinfo" then "backports.zoneinfo"
  else if m = "typing_extensions" then "typing-extensions" else m

/-- **C77.** The link of a backport is the page on PyPI of the project that provides the module; the one of a backport
`m==v` is the page of the release `v.0`. -/
theorem C77_links : ∀ r ∈ backportInfos, ∃ m rest, r.2 = "https://pypi.org/project/" ++ projectOf m ++ "/" ++ rest ∧
    ((r.1.1 = m ∧ (rest = "" ∨ ∃ v, rest = v ++ ".0/")) ∨ ∃ v, r.1.1 = m ++ "==" ++ v ∧ rest = v ++ ".0/") := by
  intro r hr
  have key : ∀ r ∈ backportInfos,
      (r.2 = "https://pypi.org/project/" ++ projectOf r.1.1 ++ "/" ∧ r.1.1 ≠ "typing_extensions") ∨
      (r.1.1 = "typing_extensions" ∧ r.2 = "https://pypi.org/project/" ++ "typing-extensions" ++ "/" ++ ("4.3" ++ ".0/")) ∨
      ∃ v ∈ ["4.0", "4.3"], r.1.1 = "typing_extensions" ++ "==" ++ v ∧
        r.2 = "https://pypi.org/project/" ++ "typing-extensions" ++ "/" ++ (v ++ ".0/") := by decide +kernel
  rcases key r hr with ⟨h, -⟩ | ⟨h1, h2⟩ | ⟨v, -, h1, h2⟩
  · exact ⟨r.1.1, "", by rw [h]; simp, .inl ⟨rfl, .inl rfl⟩⟩
  · exact ⟨"typing_extensions", "4.3" ++ ".0/", h2, .inl ⟨h1, .inr ⟨_, rfl⟩⟩⟩
  · exact ⟨"typing_extensions", v ++ ".0/", h2, .inr ⟨v, h1, rfl⟩⟩

/-- **C77.** A command line that is accepted prints the exclusion files it could not read, and then the config file that was
detected and is used, unless the run is quiet or has the parsable format. -/
theorem C77_accepted {env : MsgEnv} (he : RealPaths env.args) (hfm : ∀ q f, env.args.parseFile q = some f → env.fileMsgs q = [])
    {args : List String} {config : Config} {p : Parsed} (h : parseArgs env.args args config = .ok p) : ∃ used, Detected env.args args used ∧
      parseArgsMsgs env args config = unreadable env args ++
        if p.cfg.format ≠ .parsable ∧ p.cfg.quiet = false then (used.map ("Using detected config: " ++ ·)).toList else [] := by
  obtain ⟨hargs, hd, hw⟩ := unasked_of h (.inl ⟨p, rfl⟩)
  rcases parse_cases he hargs (config := config) hd hw with ⟨h1, -⟩ | ⟨h1, -⟩ | ⟨h1, -⟩ | ⟨c0, used, fm, hs, hu, hfm', hm, hp⟩
  · rw [h1] at h; cases h
  · rw [h1] at h; cases h
  · rw [h1] at h; cases h
  · have hfm0 : fm = [] := by
      rcases hfm' with h | ⟨q, f, -, h1, h2⟩
      · exact h
      · rw [h2, hfm q f h1]
    subst hfm0
    refine ⟨used, hu, ?_⟩
    rw [hm, List.nil_append]
    rw [hp] at h
    rcases loop_cases env args { cfg := c0, pathPos := 0, versions := false, fmt := none } with ⟨st, g1, g2, g3, g4⟩ | ⟨_, _, _, _, _, g, _⟩ | ⟨_, _, _, _, g, _⟩
    · simp only [g1] at h
      simp only [runMsgs, g1, g4]
      rcases finish_cases used g1 g3 with ⟨k1, -⟩ | ⟨k1, -⟩ | ⟨p', k1, -, -, k⟩
      · rw [k1] at h; cases h
      · rw [k1] at h; cases h
      · rw [k1] at h; cases h
        rw [k]
    · rw [g] at h; cases h
    · rw [g] at h; cases h

end Vermin.Props
