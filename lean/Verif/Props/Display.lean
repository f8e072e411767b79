import Verif.Lemmas.Display
import Verif.Props.Visit
/-
C33: options that are not about the analysis do not change its verdict.
-/
namespace Vermin.Props
open Vermin Vermin.Py Vermin.Spec Vermin.V

/-- The verdict of an analysis: minimum versions, incompatible versions, or another error. -/
inductive Verdict where
  | minimum (r : Req)
  | incompatible
  | crash (e : Err)
  deriving DecidableEq

/-- The verdict in a result -/
def verdict : Except Err Req → Verdict
  | .ok r => .minimum r
  | .error (.invalidVersion _) => .incompatible
  | .error e => .crash e

/-- Two configurations agree on the options about the analysis of a file. -/
structure SameAnalysis (c c' : Config) : Prop where
  ignoreIncomp : c'.ignoreIncomp = c.ignoreIncomp
  exclusions : c'.exclusions = c.exclusions
  backports : c'.backports = c.backports
  features : c'.features = c.features
  evalAnnotations : c'.evalAnnotations = c.evalAnnotations
  parseComments : c'.parseComments = c.parseComments

/-- A configuration whose output can be produced: violations have targets, the path can be printed. -/
def Printable (c : Config) (path : String) : Prop :=
  (c.onlyShowViolations = true → c.targets ≠ []) ∧ (c.format = .parsable → ':' ∉ path.toList ∧ '\n' ∉ path.toList)

theorem SameAnalysis.show {c c' : Config} (h : SameAnalysis c c') (t : Tables) : c' = c.show (c'.display t) := by
  cases c'
  obtain ⟨h1, h2, h3, h4, h5, h6⟩ := h
  simp only at h1 h2 h3 h4 h5 h6
  subst h1 h2 h3 h4 h5 h6
  rfl

/-- Analyses that agree on which parts of a file are looked at differ in what `Display` is about. -/
theorem Env.make_show {c c' : Config} {h : Host} {path : String} {toks : List Tok} (h1 : c'.ignoreIncomp = c.ignoreIncomp)
    (h3 : c'.evalAnnotations = c.evalAnnotations) (h4 : c'.parseComments = c.parseComments) :
    Env.make c' h path toks = (Env.make c h path toks).show (c'.display (Tables.std c')) := by
  have hc : c' = c.show (c'.display (Tables.std c')) := by
    generalize Tables.std c' = t
    cases c'
    simp only at h1 h3 h4
    subst h1 h3 h4
    rfl
  unfold Env.make Env.show
  rw [h4]
  dsimp only
  rw [← hc]
  unfold Tables.std
  simp only [Config.display, Option.getD_none]

theorem Printable.goodPath {c : Config} {path : String} (h : Printable c path) : badPath c path = false := by
  unfold badPath
  by_cases hf : c.format = .parsable
  · have := h.2 hf
    simp [this.1, this.2]
  · simp [hf]

/-- **C33.** Verbosity, quiet mode, violations mode, targets, tips, AST dumping, the output format, the number of processes and the
options about finding files do not change the minimum versions of a source. -/
theorem C33_detect (c c' : Config) (h : Host) (path : String) (node : Node) (toks : List Tok) (hs : SameAnalysis c c')
    (hp : Printable c path) (hp' : Printable c' path) :
    verdict (detectSource c' h path node toks) = verdict (detectSource c h path node toks) := by
  have hsame : ∀ {e e' : Err}, SameErr e e' → verdict (.error e') = verdict (.error e) := by
    rintro e e' (rfl | ⟨m, m', rfl, rfl⟩)
    · rfl
    · rfl
  have htab : Tables.std c' = Tables.std c := by
    unfold Tables.std
    rw [hs.backports]
  have henv : Env.make c' h path toks = (Env.make c h path toks).show (c'.display (Tables.std c)) := by
    rw [Env.make_show hs.ignoreIncomp hs.evalAnnotations hs.parseComments, htab]
  have ht : TargetsOk (Env.make c h path toks) := hp.1
  have ht' : TargetsOk ((Env.make c h path toks).show (c'.display (Tables.std c))) := hp'.1
  have hx : (c'.display (Tables.std c)).exclusions = (Env.make c h path toks).cfg.exclusions := hs.exclusions
  have hfe : (c'.display (Tables.std c)).features = (Env.make c h path toks).cfg.features := hs.features
  have hq : (c'.display (Tables.std c)).path = none := rfl
  have hm : ∀ m, ((c'.display (Tables.std c)).mem m).isSome = ((Env.make c h path toks).tables.mem m).isSome := fun _ => by simp only [Config.display, Env.make]
  have hT : ((Env.make c h path toks).show (c'.display (Tables.std c))).tables = (Env.make c h path toks).tables := by
    simp only [Config.display, Env.make, Env.show, Option.getD_none]
  unfold detectSource visitSource
  rw [hp.goodPath, hp'.goodPath, henv]
  generalize Env.make c h path toks = env at *
  generalize c'.display (Tables.std c) = d at *
  simp only [Bool.false_eq_true, if_false]
  have h1 := tour_alike hx hfe hq hm ht ht' node S.init S.init.out S.init.infoVersions
  rw [S.aloud_self] at h1
  revert h1
  cases tour env node S.init with
  | error e =>
    cases tour (env.show d) node S.init with
    | ok t => exact False.elim
    | error e' => intro h1; rw [show e = e' from h1]
  | ok s =>
    cases tour (env.show d) node S.init with
    | error e => exact False.elim
    | ok s' =>
      rintro ⟨o, i, rfl⟩
      have h2 := minimumVersions_alike hT ht ht' s o i
      revert h2
      dsimp only
      cases minimumVersions env s with
      | error e =>
        cases minimumVersions (env.show d) (s.aloud o i) with
        | ok x => exact False.elim
        | error e' => exact hsame
      | ok x =>
        obtain ⟨t, m⟩ := x
        cases minimumVersions (env.show d) (s.aloud o i) with
        | error e => exact False.elim
        | ok x' =>
          obtain ⟨t', m'⟩ := x'
          rintro ⟨rfl, o', i', rfl⟩
          have h3 := minimumVersions_alike hT ht ht' t o' i'
          revert h3
          dsimp only
          cases minimumVersions env t with
          | error e =>
            cases minimumVersions (env.show d) (t.aloud o' i') with
            | ok x => exact False.elim
            | error e' => exact hsame
          | ok y =>
            obtain ⟨u, k⟩ := y
            cases minimumVersions (env.show d) (t.aloud o' i') with
            | error e => exact False.elim
            | ok y' =>
              obtain ⟨u', k'⟩ := y'
              rintro ⟨rfl, _⟩
              rfl

/-- The findings of a visit are the same, too. -/
theorem C33_findings (env : Env) (c' : Config) (node : Node) (hs : SameAnalysis env.cfg c')
    (hp : env.cfg.onlyShowViolations = true → env.cfg.targets ≠ []) (hp' : c'.onlyShowViolations = true → c'.targets ≠ []) (s : S)
    (h : tour env node S.init = .ok s) : ∃ s', tour { env with cfg := c' } node S.init = .ok s' ∧
      s' = { s with out := s'.out, infoVersions := s'.infoVersions } := by
  have henv : ({ env with cfg := c' } : Env) = env.show (c'.display env.tables) := by
    unfold Env.show
    rw [← hs.show]
    rfl
  rw [henv]
  have h1 := tour_alike (env := env) (d := c'.display env.tables) hs.exclusions hs.features rfl (fun _ => rfl) hp (by rw [← henv]; exact hp') node S.init S.init.out S.init.infoVersions
  rw [S.aloud_self, h] at h1
  revert h1
  cases tour (env.show (c'.display env.tables)) node S.init with
  | error e => exact False.elim
  | ok s' =>
    rintro ⟨o, i, rfl⟩
    exact ⟨_, rfl, rfl⟩

/-- Example: very verbose, violations of a target, parsable. -/
def loud : Config := { Config.init 1 with verbose := 3, onlyShowViolations := true, targets := [(true, ⟨3, 4⟩)], format := .parsable, printVisits := true }
theorem C33_witness : SameAnalysis (Config.init 1) loud ∧ Printable (Config.init 1) "a.py" ∧ Printable loud "a.py" ∧ loud ≠ Config.init 1 :=
  ⟨⟨rfl, rfl, rfl, rfl, rfl, rfl⟩, ⟨nofun, nofun⟩, ⟨fun _ => nofun, fun _ => by decide⟩, by decide⟩

/-- Without targets the violations mode does change the verdict: it crashes. -/
theorem C33_needs_targets : ∃ n, tour (exampleEnv (Config.init 1)) n S.init ≠ .error .indexError ∧
    tour (exampleEnv { Config.init 1 with onlyShowViolations := true }) n S.init = .error .indexError :=
  ⟨prog [st 1 (nd .value .joinedStr 1 [])], by decide +kernel, by decide +kernel⟩

end Vermin.Props
