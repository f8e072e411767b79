import Verif.Lemmas.Spoken
import Verif.Props.Visit
import Verif.Props.Formats
import Verif.Props.Imports
import Verif.Props.Report
/-
What is printed about a file: C67, C68, C69.
-/
namespace Vermin.Props
open Vermin Vermin.Py Vermin.Spec

/-! ### C67: the lines of a file are the findings behind its minimum -/

/-- A requirement is to be listed by configurations of at least verbosity `l`: lines are printed, and only violations of a target
if only these are wanted. -/
structure ToList (cfg : Config) (l : Nat) (r : Req) : Prop where
  verbose : l ≤ cfg.verbose
  prints : cfg.format = .parsable ∨ cfg.quiet = false
  violating : cfg.onlyShowViolations = true → ∃ t ∈ cfg.targets, Violates r t.2

theorem violates_iff {env : Env} (ht : env.cfg.onlyShowViolations = true → DistinctMajors env.cfg.targets) (r : Req) :
    violates env (some r) = .ok true ↔ (env.cfg.onlyShowViolations = true → ∃ t ∈ env.cfg.targets, Violates r t.2) := by
  cases hv : env.cfg.onlyShowViolations with
  | true =>
    obtain ⟨b, h1, h2⟩ := C41_violations hv (ht hv) r
    rw [h1]
    exact ⟨fun h _ => h2.mp (Except.ok.inj h), fun h => by rw [h2.mpr (h rfl)]⟩
  | false => simp [C41_all hv]

theorem skip_iff (cfg : Config) : skipOutputLine cfg = false ↔ cfg.format = .parsable ∨ cfg.quiet = false := by
  unfold skipOutputLine
  cases cfg.format <;> simp

theorem shows_iff {env : Env} (ht : env.cfg.onlyShowViolations = true → DistinctMajors env.cfg.targets) (l : Nat) (r : Req) :
    Shows env l r ↔ ToList env.cfg l r := by
  unfold Shows
  rw [violates_iff ht, skip_iff]
  exact ⟨fun ⟨h1, h2, h3⟩ => ⟨h3, h2, h1⟩, fun ⟨h3, h2, h1⟩ => ⟨h1, h2, h3⟩⟩

/-- The verbosity from which on the requirement of a feature is listed. -/
def shownFrom (f : Flag) : Nat := if f = .boolConst then 3 else 2

/-- The line is that of the construct or of one of its decorators. -/
def AtConstruct (k : Node) (line : Option Nat) : Prop := line = some k.line ∨ ∃ d ∈ k.fields .decoratorList, line = some d.line

/-- The entries about the program `n`, for which the visit ended in the state `s`. -/
structure Listing (env : Env) (n : Node) (s : S) (es : List Entry) : Prop where
  /-- What is listed was found, and violates a target if only violations are wanted. -/
  found : ∀ msg line col r pl, .message msg line col (some r) pl ∈ es →
    (env.cfg.onlyShowViolations = true → ∃ t ∈ env.cfg.targets, Violates r t.2) ∧
    ((∃ f k, s.has f = true ∧ In k n ∧ Construct env f k ∧ Enforced f = some r ∧ f ≠ .longv2 ∧ col = none ∧
        (roaming f = false → f ≠ .printv3 → AtConstruct k line)) ∨
      ∃ ent, Ruled env s ent msg r ∧ (env.cfg.verbose ≥ 3 → ∃ l m, line = some l ∧ In m n ∧ Recorded env m ent l))
  /-- The features are listed, except for `long`; annotations possibly by a variable annotation. -/
  features : ∀ f r, s.has f = true → Enforced f = some r → f ≠ .longv2 → ToList env.cfg (shownFrom f) r →
    ∃ msg line col r' pl, .message msg line col (some r') pl ∈ es ∧ (r' = r ∨ f = .annotations ∧ r' = ⟨none, some ⟨3, 6⟩⟩)
  /-- The findings with rules are listed with their names. -/
  rules : ∀ ent msg r, Ruled env s ent msg r → ToList env.cfg 2 r → ∃ line col, .message msg line col (some r) none ∈ es
  /-- Visited nodes are listed only on demand. -/
  nodes : ∀ x, .node x ∈ es → env.cfg.printVisits = true ∧ env.cfg.quiet = false


theorem ruled_holds {env : Env} {s : S} {ent : Ent} {msg : String} {r : Req} (h : Ruled env s ent msg r) : Holds s ent := by
  cases h with
  | strftime h => exact .inr (.inr (.inr (.inl h)))
  | bytesDir h => exact .inr (.inr (.inr (.inr (.inl h))))
  | typecode h => exact .inr (.inr (.inr (.inr (.inr (.inl h)))))
  | errorHandler h => exact .inr (.inr (.inr (.inr (.inr (.inr (.inl h))))))
  | encoding h => exact .inr (.inr (.inr (.inr (.inr (.inr (.inr h))))))
  | module h => exact .inl h
  | member h => exact .inr (.inl h)
  | kwarg h => exact h
  | decorator h => exact .inr (.inr (.inl h))

/-- **C67, C69.** The lines of the text about a file are exactly those of the entries of a listing. -/
theorem C67_lines {env : Env} {n : Node} {s s' : S} {m : Req} (ho : SetOrder env)
    (htg : env.cfg.onlyShowViolations = true → DistinctMajors env.cfg.targets) (ht : tour env n S.init = .ok s)
    (hm : minimumVersions env s = .ok (s', m)) :
    ∃ es : List Entry, (∀ line, line ∈ outputLines env s' ↔ ∃ e ∈ es, e.text env = line) ∧ Listing env n s es := by
  obtain ⟨es, hs⟩ := tour_voices env n _ _ ht
  obtain ⟨es', h1, h2, h3, h4, h5⟩ := Recites.minimum hm
  refine ⟨es ++ es', fun line => ?_, ?_⟩
  · rw [(C38_once ho s').1, h1, hs.out]
    simp [S.init, or_and_right, exists_or]
  · constructor
    · intro msg line col r pl he
      rcases List.mem_append.mp he with he | he
      · obtain ⟨hv, k, f, hk, hc, hf, ⟨x, hx, hxf, hxr⟩, hcol, hlong, hl⟩ := hs.sound _ he r rfl
        exact ⟨(violates_iff htg r).mp hv, .inl ⟨f, k, hf, hk, hc, (features_enforced f r).mpr (.inr (.inr ⟨x, hx, hxf, hxr⟩)), hlong, hcol, fun hr _ => hl hr⟩⟩
      · obtain ⟨h, hv⟩ := h3 _ he
        refine ⟨(violates_iff htg r).mp (hv r rfl), ?_⟩
        rcases h with ⟨hp, h⟩ | ⟨ent, info, r', hr, h⟩
        · have hr : some r = some (both23 0 0) := by injection h
          have hcol : col = none := by injection h
          obtain ⟨k, hk, hc⟩ := C29_features_partial env n s ht _ hp
          exact .inl ⟨.printv3, k, hp, hk, hc, by rw [hr]; rfl, by decide, hcol, fun _ h => absurd rfl h⟩
        · have hmsg : msg = info := by injection h
          have hl : line = (shownAt env s (some ent) .absent).1 := by injection h
          have hrr : r = r' := by injection h with _ _ _ h _; exact Option.some.inj h
          subst hmsg
          subst hrr
          refine .inr ⟨ent, hr, fun hv3 => ?_⟩
          have hplaced := (hs.placed ent (ruled_holds hr)).resolve_left (by cases ent <;> simp [Holds, S.init])
          cases hg : Dict.get? s.lineCol ent with
          | none => rw [hg] at hplaced; cases hplaced
          | some p =>
            obtain ⟨l, c⟩ := p
            have hsite := (hs.sites ent l c hg).resolve_left (by simp [S.init, Dict.get?_nil])
            obtain ⟨m', hm', hrec⟩ := hsite
            refine ⟨l, m', ?_, hm', hrec⟩
            rw [hl]
            unfold shownAt
            rw [if_pos (show env.cfg.verbose > 2 from hv3)]
            simp only [Option.bind_some, hg]
    · intro f r hf he hlong hsh
      have hsh' := (shows_iff htg _ _).mpr hsh
      rcases (features_enforced f r).mp he with ⟨rfl, -⟩ | ⟨rfl, rfl⟩ | ⟨x, hx, hxf, rfl⟩
      · obtain ⟨k, hk, hc⟩ := C29_features_partial env n s ht _ hf
        exact hc.elim
      · exact ⟨_, _, _, _, _, List.mem_append_right _ (h4 hf hsh'), .inl rfl⟩
      · rcases hs.full f hf with h | h
        · simp [S.has, S.init] at h
        · obtain ⟨e, he', r', hr, hrr⟩ := h x hx hxf hlong hsh'
          cases e with
          | node x => exact hr.elim
          | message msg line col vs pl =>
            subst hr
            exact ⟨msg, line, col, r', pl, List.mem_append_left _ he', hrr⟩
    · intro ent msg r hr hsh
      exact ⟨_, _, List.mem_append_right _ (h5 ent msg r hr ((shows_iff htg _ _).mpr hsh))⟩
    · intro x hx
      rcases List.mem_append.mp hx with hx | hx
      · exact hs.sound _ hx
      · rcases (h3 _ hx).1 with ⟨_, h⟩ | ⟨_, _, _, _, h⟩ <;> cases h

theorem ruled_iff {env : Env} {s : S} {r : Req} :
    Requires env s r ↔ (∃ f, s.has f = true ∧ Enforced f = some r) ∨ ∃ ent msg, Ruled env s ent msg r := by
  constructor
  · intro h
    cases h with
    | feature hf he => exact .inl ⟨_, hf, he⟩
    | strftime h1 h2 => exact .inr ⟨_, _, .strftime h1 h2⟩
    | bytesDir h1 h2 => exact .inr ⟨_, _, .bytesDir h1 h2⟩
    | typecode h1 h2 => exact .inr ⟨_, _, .typecode h1 h2⟩
    | errorHandler h1 h2 => exact .inr ⟨_, _, .errorHandler h1 h2⟩
    | encoding h1 h2 h3 => exact .inr ⟨_, _, .encoding h1 h2 h3⟩
    | module h1 h2 => exact .inr ⟨_, _, .module h1 h2⟩
    | member h1 h2 => exact .inr ⟨_, _, .member h1 h2⟩
    | kwarg h1 h2 => exact .inr ⟨_, _, .kwarg h1 h2⟩
    | decorator h1 h2 => exact .inr ⟨_, _, .decorator h1 h2⟩
  · rintro (⟨f, hf, he⟩ | ⟨ent, msg, h⟩)
    · exact .feature hf he
    · cases h with
      | strftime h1 h2 => exact .strftime h1 h2
      | bytesDir h1 h2 => exact .bytesDir h1 h2
      | typecode h1 h2 => exact .typecode h1 h2
      | errorHandler h1 h2 => exact .errorHandler h1 h2
      | encoding h1 h2 h3 => exact .encoding h1 h2 h3
      | module h1 h2 => exact .module h1 h2
      | member h1 h2 => exact .member h1 h2
      | kwarg h1 h2 => exact .kwarg h1 h2
      | decorator h1 h2 => exact .decorator h1 h2

/-- Nothing of what the listing states is missing, and nothing is added: with verbosity 3 and all requirements wanted, the
interpreters that satisfy all the listed requirements are those that satisfy the minimum. -/
theorem C67_explains {env : Env} {n : Node} {s s' : S} {m : Req} (ho : SetOrder env) (hall : env.cfg.onlyShowViolations = false)
    (hv : env.cfg.verbose ≥ 3) (hp : env.cfg.format = .parsable ∨ env.cfg.quiet = false) (ht : tour env n S.init = .ok s)
    (hm : minimumVersions env s = .ok (s', m)) (hlong : s.has .longv2 = false) :
    ∃ es : List Entry, (∀ line, line ∈ outputLines env s' ↔ ∃ e ∈ es, e.text env = line) ∧
      ∀ v, Satisfies v m ↔ (v.major = 2 ∨ v.major = 3) ∧ ∀ msg line col r pl, .message msg line col (some r) pl ∈ es → Satisfies v r := by
  have htg : env.cfg.onlyShowViolations = true → DistinctMajors env.cfg.targets := by rw [hall]; nofun
  obtain ⟨es, hlines, hl⟩ := C67_lines ho htg ht hm
  refine ⟨es, hlines, fun v => ?_⟩
  rw [C32_satisfies hm]
  have htl : ∀ l r, l ≤ 3 → ToList env.cfg l r := fun l r h => ⟨Nat.le_trans h hv, hp, by rw [hall]; nofun⟩
  refine and_congr_right fun _ => ⟨fun h msg line col r pl he => h r (ruled_iff.mpr ?_), fun h r hr => ?_⟩
  · rcases (hl.found _ _ _ _ _ he).2 with ⟨f, k, hf, _, _, he, _⟩ | ⟨ent, h, _⟩
    · exact .inl ⟨f, hf, he⟩
    · exact .inr ⟨ent, msg, h⟩
  · rcases ruled_iff.mp hr with ⟨f, hf, he⟩ | ⟨ent, msg, hr⟩
    · have hfl : f ≠ .longv2 := fun h => by rw [h, hlong] at hf; cases hf
      obtain ⟨msg, line, col, r', pl, hin, hrr⟩ := hl.features f r hf he hfl (htl _ _ (by unfold shownFrom; split <;> omega))
      have := h _ _ _ _ _ hin
      rcases hrr with rfl | ⟨rfl, rfl⟩
      · exact this
      · have hr : r = ⟨none, some ⟨3, 0⟩⟩ := (Option.some.inj he).symm
        subst hr
        rcases this with ⟨_, _, h, _⟩ | ⟨h3, x, hx, hle⟩
        · cases h
        · refine .inr ⟨h3, _, rfl, ?_⟩
          injection hx with hx
          subst hx
          obtain ⟨a, b⟩ := v
          have hmaj : a = 3 := h3
          subst hmaj
          exact .inr ⟨rfl, Nat.zero_le _⟩
    · obtain ⟨line, col, hin⟩ := hl.rules ent msg r hr (htl 2 r (by omega))
      exact h _ _ _ _ _ hin

/-- C67: the text consists of the lines, each followed by a line break. -/
theorem C67_text (env : Env) (s : S) (h : outputLines env s ≠ [""]) :
    outputText env s = String.ofList ((outputLines env s).flatMap fun l => l.toList ++ ['\n']) := by
  have key : ∀ ls : List (List Char), ls ≠ [[]] → (if (join ['\n'] ls).length > 0 then join ['\n'] ls ++ ['\n'] else join ['\n'] ls) = ls.flatMap (· ++ ['\n']) := by
    intro ls hne
    have hj : ∀ l (ls : List (List Char)), join ['\n'] (l :: ls) ++ ['\n'] = (l :: ls).flatMap (· ++ ['\n']) := by
      intro l ls
      induction ls generalizing l with
      | nil => simp [join]
      | cons k ls ih =>
        rw [List.flatMap_cons, ← ih k]
        simp [join]
    cases ls with
    | nil => rfl
    | cons l ls =>
      rw [← hj]
      split
      · rfl
      · rename_i hl
        exfalso
        cases ls with
        | nil =>
          apply hne
          have : l = [] := by
            cases l with
            | nil => rfl
            | cons => simp [join] at hl
          rw [this]
        | cons k ls => simp [join] at hl
  unfold outputText
  dsimp only
  rw [key _ (fun hc => h ?_), List.flatMap_map]
  cases hl : outputLines env s with
  | nil => rw [hl] at hc; cases hc
  | cons l ls =>
    rw [hl] at hc
    cases ls with
    | nil =>
      have : l.toList = [] := by injection hc
      rw [String.toList_eq_nil_iff.mp this]
    | cons => injection hc with _ h; cases h

/-! ### C68: the form of the lines -/

/-- A number -/
def numberText (n : Nat) : String := String.ofList (Nat.toDigits 10 n)

/-- The position as shown: only from verbosity 3 on. -/
def PositionText (cfg : Config) : Option Nat → Option Nat → String
  | some l, some c => if cfg.verbose ≥ 3 then "L" ++ numberText l ++ " C" ++ numberText c ++ ": " else ""
  | some l, none => if cfg.verbose ≥ 3 then "L" ++ numberText l ++ ": " else ""
  | none, some c => if cfg.verbose ≥ 3 then " C" ++ numberText c ++ ": " else ""
  | none, none => ""

/-- Messages that end with an `s` (ignoring white space) are plural. -/
def Plural (msg : String) (plural : Option Bool) : Prop :=
  plural = some true ∨ plural = none ∧ ∃ a b, msg.toList = a ++ 's' :: b ∧ ∀ c ∈ b, isSpace c = true

theorem rstrip_ends {s : List Char} : endsWith ['s'] (rstrip s) = true ↔ ∃ a b, s = a ++ 's' :: b ∧ ∀ c ∈ b, isSpace c = true := by
  rw [endsWith, List.isSuffixOf_iff_suffix]
  constructor
  · rintro ⟨t, ht⟩
    refine ⟨t, (s.reverse.takeWhile isSpace).reverse, ?_, fun c hc => ?_⟩
    · have h1 : s = (s.reverse.dropWhile isSpace).reverse ++ (s.reverse.takeWhile isSpace).reverse := by
        rw [← List.reverse_append, List.takeWhile_append_dropWhile, List.reverse_reverse]
      have h2 : (s.reverse.dropWhile isSpace).reverse = t ++ ['s'] := ht.symm
      rw [h2] at h1
      exact h1.trans (by simp)
    · exact List.all_eq_true.mp (List.all_takeWhile (l := s.reverse) (p := isSpace)) c (List.mem_reverse.mp hc)
  · rintro ⟨a, b, rfl, hb⟩
    refine ⟨a, ?_⟩
    unfold rstrip
    have : ∀ (b l : List Char), (∀ c ∈ b, isSpace c = true) → (b ++ 's' :: l).dropWhile isSpace = 's' :: l := by
      intro b l hb
      induction b with
      | nil => rfl
      | cons c b ih =>
        rw [List.cons_append, List.dropWhile_cons, if_pos (hb c (by simp))]
        exact ih fun c hc => hb c (by simp [hc])
    rw [List.reverse_append, List.reverse_cons, List.append_assoc, List.singleton_append, this _ _ fun c hc => hb c (List.mem_reverse.mp hc)]
    simp

theorem lstrip_ends : ∀ {s : List Char}, (∃ a b, lstrip s = a ++ 's' :: b ∧ ∀ c ∈ b, isSpace c = true) ↔ ∃ a b, s = a ++ 's' :: b ∧ ∀ c ∈ b, isSpace c = true
  | [] => Iff.rfl
  | c :: s => by
    unfold lstrip
    rw [List.dropWhile_cons]
    split
    · rename_i hc
      refine lstrip_ends.trans ⟨fun ⟨a, b, h, hb⟩ => ⟨c :: a, b, by rw [h]; rfl, hb⟩, fun ⟨a, b, h, hb⟩ => ?_⟩
      cases a with
      | nil =>
        injection h with h _
        rw [h] at hc
        exact absurd hc (by decide)
      | cons x a =>
        injection h with _ h
        exact ⟨a, b, h, hb⟩
    · exact Iff.rfl

theorem plural_iff (msg : String) (plural : Option Bool) : plural.getD (endsWith ['s'] (strip msg.toList)) = true ↔ Plural msg plural := by
  unfold Plural
  cases plural with
  | some b => simp
  | none =>
    rw [Option.getD_none, strip, rstrip_ends, lstrip_ends]
    simp

/-- C68: a line of the default format. -/
theorem C68_default {cfg : Config} (hf : cfg.format = .default) (msg : String) (path : Option String) (line col : Option Nat)
    (r : Req) (plural : Option Bool) :
    ∃ verb, (Plural msg plural ∧ verb = " require " ∨ ¬ Plural msg plural ∧ verb = " requires ") ∧
      formatLine cfg msg path line col (some r) plural =
        PositionText cfg line col ++ msg ++ verb ++ String.ofList (PartText 2 (some r.py2)) ++ ", " ++ String.ofList (PartText 3 (some r.py3)) := by
  have hreq : (reqString r).toList = PartText 2 (some r.py2) ++ ", ".toList ++ PartText 3 (some r.py3) := by
    simp only [reqString, Req.vals, versionStringsFrom, versionString_part, String.toList_ofList]
    rw [if_neg (by decide)]
    simp [join]
  unfold formatLine
  rw [hf]
  simp only [formatDefault, hreq]
  have hv : cfg.verbose < 3 ∧ ¬ cfg.verbose ≥ 3 ∨ ¬ cfg.verbose < 3 ∧ cfg.verbose ≥ 3 := by omega
  by_cases hp : plural.getD (endsWith ['s'] (strip msg.toList)) = true
  · refine ⟨" require ", .inl ⟨(plural_iff _ _).mp hp, rfl⟩, ?_⟩
    apply String.toList_inj.mp
    rcases hv with hv | hv <;> cases line <;> cases col <;> simp [hp, PositionText, hv, numberText, strNat]
  · refine ⟨" requires ", .inr ⟨fun h => hp ((plural_iff _ _).mpr h), rfl⟩, ?_⟩
    apply String.toList_inj.mp
    rcases hv with hv | hv <;> cases line <;> cases col <;> simp [hp, PositionText, hv, numberText, strNat]

/-- C68: a line without requirement. -/
theorem C68_note {cfg : Config} (hf : cfg.format = .default) (msg : String) (path : Option String) (line col : Option Nat)
    (plural : Option Bool) : formatLine cfg msg path line col none plural = PositionText cfg line col ++ msg := by
  unfold formatLine
  rw [hf]
  simp only [formatDefault]
  have hv : cfg.verbose < 3 ∧ ¬ cfg.verbose ≥ 3 ∨ ¬ cfg.verbose < 3 ∧ cfg.verbose ≥ 3 := by omega
  apply String.toList_inj.mp
  rcases hv with hv | hv <;> cases line <;> cases col <;> simp [PositionText, hv, numberText, strNat]

/-- C68: whatever the verbosity, the parsable output about a file is its text and then one line with the path, no position, the
minimum versions, and no message. -/
theorem C68_summary {cfg : Config} (hf : cfg.format = .parsable) (path text : String) (m : Req) (hp : ':' ∉ path.toList) :
    ∃ line : String, outputResult cfg path text m = [text, line ++ "\n"] ∧
      SplitFive line.toList path.toList [] [] (PartText 2 (some m.py2)) (PartText 3 (some m.py3)) [] := by
  refine ⟨_, by unfold outputResult; rw [hf]; rfl, ?_⟩
  exact C43_split none (some path) none none (some m) hp

/-! ### Examples and counterexamples -/

/-- `import argparse`, and `nonlocal` (line 3) in a function (line 2). -/
def listedProg : Node :=
  prog [nd .body .import 1 [nd .names (.alias "argparse" none) 1 []],
    nd .body (.functionDef "f") 2 [nd .args .arguments 2 [], nd .body .nonlocal 3 []]]

/-- The findings, the minimum and the lines of a program. -/
def linesOf (cfg : Config) (n : Node) : Option (S × Req × List String) :=
  match tour (exampleEnv cfg) n S.init with
  | .ok s => match minimumVersions (exampleEnv cfg) s with
    | .ok (s', m) => some (s, m, outputLines (exampleEnv cfg) s')
    | .error _ => none
  | .error _ => none

theorem linesOf_run {cfg : Config} {n : Node} {s : S} {m : Req} {ls : List String} (h : linesOf cfg n = some (s, m, ls)) :
    tour (exampleEnv cfg) n S.init = .ok s ∧ ∃ s', minimumVersions (exampleEnv cfg) s = .ok (s', m) ∧ outputLines (exampleEnv cfg) s' = ls := by
  unfold linesOf at h
  split at h
  · rename_i s0 hs
    split at h
    · rename_i s' m' hm
      injection h with h
      injection h with h1 h
      injection h with h2 h3
      subst h1; subst h2; subst h3
      exact ⟨hs, s', hm, rfl⟩
    · cases h
  · cases h

/-- Example of `C67_explains`: the lines of `listedProg` state 2.7, 3.2 and !2, 3.0; its minimum is !2, 3.2. -/
theorem C67_witness : SetOrder (exampleEnv (verboseCfg 3)) ∧ (verboseCfg 3).onlyShowViolations = false ∧ (verboseCfg 3).verbose ≥ 3 ∧
    (verboseCfg 3).quiet = false ∧ ∃ s, linesOf (verboseCfg 3) listedProg = some (s, ⟨none, some ⟨3, 2⟩⟩,
      ["L1 C7: 'argparse' module requires 2.7, 3.2", "L2: `nonlocal` requires !2, 3.0"]) ∧ s.has .longv2 = false := by
  refine ⟨fun l => .refl l, rfl, by decide, rfl, ?_⟩
  have key : ((linesOf (verboseCfg 3) listedProg).map fun x => (x.2, x.1.has .longv2)) = some ((⟨none, some ⟨3, 2⟩⟩,
      ["L1 C7: 'argparse' module requires 2.7, 3.2", "L2: `nonlocal` requires !2, 3.0"]), false) := by decide +kernel
  obtain ⟨⟨s, x⟩, h1, h2⟩ := Option.map_eq_some_iff.mp key
  injection h2 with h2 h3
  exact ⟨s, by rw [h1, ← h2], h3⟩

/-- Without the exception of `long` the claim is false: its line states no requirement. -/
theorem C67_false_long : ∃ s, linesOf (verboseCfg 3) (prog [st 1 (nm .value "long")]) = some (s, ⟨some ⟨2, 0⟩, none⟩, ["L1: long is a v2 feature"]) ∧
    s.has .longv2 = true := by
  have key : ((linesOf (verboseCfg 3) (prog [st 1 (nm .value "long")])).map fun x => (x.2, x.1.has .longv2)) =
    some ((⟨some ⟨2, 0⟩, none⟩, ["L1: long is a v2 feature"]), true) := by decide +kernel
  obtain ⟨⟨s, x⟩, h1, h2⟩ := Option.map_eq_some_iff.mp key
  injection h2 with h2 h3
  exact ⟨s, by rw [h1, ← h2], h3⟩

/-- With verbosity 2 the claim is false: the constants `True` and `False` are not listed. -/
theorem C67_false_constants : ∃ s, linesOf (verboseCfg 2) (prog [st 1 (nd .value (.const (.bool true)) 1 [])]) =
    some (s, ⟨some ⟨2, 3⟩, some ⟨3, 0⟩⟩, []) := by
  have key : ((linesOf (verboseCfg 2) (prog [st 1 (nd .value (.const (.bool true)) 1 [])])).map fun x => x.2) =
    some (⟨some ⟨2, 3⟩, some ⟨3, 0⟩⟩, []) := by decide +kernel
  obtain ⟨⟨s, x⟩, h1, h2⟩ := Option.map_eq_some_iff.mp key
  exact ⟨s, by rw [h1, ← h2]⟩

/-- Examples of the lines of C68: default output, plural and singular, from verbosity 3 with the position, and parsable output. -/
theorem C68_witness :
    formatLine (verboseCfg 3) "function decorators" (some "a.py") (some 12) none (some ⟨some ⟨2, 4⟩, some ⟨3, 0⟩⟩) none =
      "L12: function decorators require 2.4, 3.0" ∧
    formatLine (verboseCfg 2) "`nonlocal`" (some "a.py") (some 12) (some 4) (some ⟨none, some ⟨3, 0⟩⟩) none = "`nonlocal` requires !2, 3.0" ∧
    formatLine (verboseCfg 3) "long is a v2 feature" none (some 1) (some 4) none none = "L1 C4: long is a v2 feature" ∧
    outputResult { Config.init 1 with format := .parsable } "a.py" "" ⟨none, some ⟨3, 0⟩⟩ = ["", "a.py:::!2:3.0:\n"] := by
  decide +kernel

/-! ### C69: the line of a finding -/

/-- **C69**, the provable part: from verbosity 3 on, the line shown with a feature that is not `roaming` is that of a construct of
the feature or of one of its decorators, and the line shown with any other finding is recorded at a node that can give rise to
a finding of its name, namely that of this node or of a node in it.  Missing: the line of roaming features, which can be any
(`C69_false`), and of keyword arguments. -/
theorem C69_lines_partial {env : Env} {n : Node} {s s' : S} {m : Req} (ho : SetOrder env) (hv : env.cfg.verbose ≥ 3)
    (htg : env.cfg.onlyShowViolations = true → DistinctMajors env.cfg.targets) (ht : tour env n S.init = .ok s)
    (hm : minimumVersions env s = .ok (s', m)) :
    ∃ es : List Entry, (∀ line, line ∈ outputLines env s' ↔ ∃ e ∈ es, e.text env = line) ∧
      ∀ msg line col r pl, .message msg line col (some r) pl ∈ es →
        (∃ f k, In k n ∧ Construct env f k ∧ Enforced f = some r ∧ (roaming f = true ∨ f = .printv3 ∨ AtConstruct k line)) ∨
        (∃ ent l k, Ruled env s ent msg r ∧ line = some l ∧ In k n ∧ Recorded env k ent l) := by
  obtain ⟨es, hlines, hl⟩ := C67_lines ho htg ht hm
  refine ⟨es, hlines, fun msg line col r pl he => ?_⟩
  rcases (hl.found _ _ _ _ _ he).2 with ⟨f, k, _, hk, hc, hr, _, _, hat⟩ | ⟨ent, hr, hpos⟩
  · refine .inl ⟨f, k, hk, hc, hr, ?_⟩
    cases hro : roaming f with
    | true => exact .inl rfl
    | false =>
      by_cases hp : f = .printv3
      · exact .inr (.inl hp)
      · exact .inr (.inr (hat hro hp))
  · obtain ⟨l, k, h1, h2, h3⟩ := hpos hv
    exact .inr ⟨ent, l, k, hr, h1, h2, h3⟩

/-- Example: the line shown with a decorated function (line 2) is that of its decorator (line 1). -/
theorem C69_witness : SetOrder (exampleEnv (verboseCfg 3)) ∧ roaming .functionDecorators = false ∧ ∃ s, linesOf (verboseCfg 3)
    (prog [nd .body (.functionDef "f") 2 [nd .args .arguments 2 [], nd .decoratorList (.name "g" .load) 1 [], nd .body .pass 3 []]]) =
      some (s, ⟨some ⟨2, 4⟩, some ⟨3, 0⟩⟩, ["L1: function decorators require 2.4, 3.0"]) := by
  refine ⟨fun l => .refl l, rfl, ?_⟩
  have key : ((linesOf (verboseCfg 3)
    (prog [nd .body (.functionDef "f") 2 [nd .args .arguments 2 [], nd .decoratorList (.name "g" .load) 1 [], nd .body .pass 3 []]])).map
      fun x => x.2) = some (⟨some ⟨2, 4⟩, some ⟨3, 0⟩⟩, ["L1: function decorators require 2.4, 3.0"]) := by decide +kernel
  obtain ⟨⟨s, x⟩, h1, h2⟩ := Option.map_eq_some_iff.mp key
  exact ⟨s, by rw [h1, ← h2]⟩

/-- The program of the example has a single `nonlocal` statement, in line 3. -/
theorem listedProg_nonlocal {k : Node} (h : In k listedProg) (hk : k.kind = .nonlocal) : k.line = 3 := by
  have : ∀ k ∈ walk listedProg, k.kind = .nonlocal → k.line = 3 := by decide +kernel
  exact this k (walk_mem h) hk

/-- **C69 is false**: the only `nonlocal` statement is in line 3, and the line shown with it is that of the function around it. -/
theorem C69_false : (∀ k, In k listedProg → Construct (exampleEnv (verboseCfg 3)) .nonlocalStmt k → k.line = 3) ∧
    ∃ s m ls, linesOf (verboseCfg 3) listedProg = some (s, m, ls) ∧ "L2: `nonlocal` requires !2, 3.0" ∈ ls := by
  refine ⟨fun k hk hc => listedProg_nonlocal hk hc, ?_⟩
  obtain ⟨_, _, _, _, s, h, _⟩ := C67_witness
  exact ⟨s, _, _, h, by decide⟩

end Vermin.Props
