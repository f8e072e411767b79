import Verif.Model.File
import Verif.Props.Parser
import Verif.Props.Minimum
import Verif.Props.ConfigFile
import Verif.Props.Visit
/-
C63: what becomes of a single file, and `detect`.
-/
namespace Vermin.Props
open Vermin Vermin.Py Vermin.Spec

/-- The path can be printed: in the parsable format it has neither colons nor line breaks. -/
def GoodPath (c : Config) (path : String) : Prop := c.format = .parsable → ':' ∉ path.toList ∧ '\n' ∉ path.toList

theorem badPath_iff {c : Config} {path : String} : badPath c path = false ↔ GoodPath c path := by
  unfold badPath GoodPath
  cases h : c.format <;> simp

/-- The state the visit of the file ends with. -/
def Visits (c : Config) (h : Host) (path : String) (node : Node) (toks : List Tok) (s : S) : Prop :=
  tour (Env.make c h path toks) node S.init = .ok s

theorem nodup_foldl_addSet (l : List String) : ∀ {s : List String}, s.Nodup → (l.foldl addSet s).Nodup := by
  induction l with
  | nil => exact id
  | cons x l ih => exact fun h => ih (nodup_addSet h x)

theorem minimumVersions_frame {env : Env} {s s' : S} {m : Req} (h : minimumVersions env s = .ok (s', m)) : Frame s s' := by
  rcases minimumVersions_spec env s with ⟨e, h', _⟩ | ⟨m', s'', _, h', hf⟩ | ⟨e, msg, _, h'⟩
  · rw [h'] at h; cases h
  · rw [h'] at h
    injection h with h
    injection h with h _
    rw [← h]; exact hf
  · rw [h'] at h; cases h

theorem processIndividual_parsed {c : Config} {h : Host} {path : String} {node : Node} {toks : List Tok} {out : List String}
    {f : Option ProcRes} (hr : processIndividual c h path (.ok node toks) = (out, .ok f)) :
    GoodPath c path ∧ out = [] ∧ analyse (Env.make c h path toks) node = .ok f := by
  unfold processIndividual at hr
  dsimp only at hr
  split at hr
  · injection hr with _ hr; cases hr
  · rename_i hb
    injection hr with h1 h2
    exact ⟨badPath_iff.mp (by simpa using hb), h1.symm, h2⟩

/-- C63: the result of a parsed file that is not incompatible.  An interpreter satisfies its minimum iff it satisfies every
finding of the visit; the lines of its marks are kept if comments are parsed; its potential backports are the modules found that
are known backports. -/
theorem C63_result {c : Config} {h : Host} {path : String} {node : Node} {toks : List Tok} {out : List String} {f : ProcRes} {m : Req}
    (hr : processIndividual c h path (.ok node toks) = (out, .ok (some f))) (hm : f.mins = some m) :
    GoodPath c path ∧ out = [] ∧ f.path = path ∧ ∃ s, Visits c h path node toks s ∧
      (∀ v, Satisfies v m ↔ (v.major = 2 ∨ v.major = 3) ∧ ∀ r, Requires (Env.make c h path toks) s r → Satisfies v r) ∧
      f.novermin = (if c.parseComments then comments toks else []) ∧
      (∀ b, b ∈ f.bps ↔ b ∈ s.modules ∧ isBackport b = true) ∧ f.bps.Nodup ∧
      (f.maybeAnnotations = true ↔ s.has .maybeAnnotations = true) := by
  obtain ⟨h1, h2, h3⟩ := processIndividual_parsed hr
  refine ⟨h1, h2, ?_⟩
  unfold analyse at h3
  cases ht : tour (Env.make c h path toks) node S.init with
  | error e => rw [ht] at h3; cases h3
  | ok s =>
    rw [ht] at h3
    dsimp only at h3
    cases hv : minimumVersions (Env.make c h path toks) s with
    | error e =>
      rw [hv] at h3
      cases e <;> first
        | (cases h3; done)
        | (injection h3 with h3; injection h3 with h3; rw [← h3] at hm; cases hm)
    | ok x =>
      obtain ⟨s', m'⟩ := x
      rw [hv] at h3
      injection h3 with h3
      injection h3 with h3
      subst h3
      injection hm with hm
      subst hm
      have hf := minimumVersions_frame hv
      refine ⟨rfl, s, ht, C32_satisfies hv, rfl, fun b => ?_, nodup_foldl_addSet _ List.nodup_nil, ?_⟩
      · rw [mem_foldl_addSet, List.mem_filter, hf]; simp
      · exact Iff.of_eq (congrArg (· = true) (has_frame hf _))

/-- C63: a parsed file is incompatible only if some finding needs Python 2, some finding needs Python 3, and that is not ignored. -/
theorem C63_incompatible {c : Config} {h : Host} {path : String} {node : Node} {toks : List Tok} {out : List String} {f : ProcRes}
    (hr : processIndividual c h path (.ok node toks) = (out, .ok (some f))) (hm : f.mins = none) :
    f.path = path ∧ c.ignoreIncomp = false ∧ ∃ s, Visits c h path node toks s ∧
      (∃ a, Requires (Env.make c h path toks) s a ∧ Py2Only a) ∧ (∃ b, Requires (Env.make c h path toks) s b ∧ Py3Only b) := by
  obtain ⟨_, _, h3⟩ := processIndividual_parsed hr
  unfold analyse at h3
  cases ht : tour (Env.make c h path toks) node S.init with
  | error e => rw [ht] at h3; cases h3
  | ok s =>
    rw [ht] at h3
    dsimp only at h3
    rcases minimumVersions_spec (Env.make c h path toks) s with ⟨e, hv, hc⟩ | ⟨m', s'', _, hv, _⟩ | ⟨e, msg, hc, hv⟩
    · rw [hv] at h3
      cases e with
      | invalidVersion msg => exact absurd rfl (hc msg)
      | _ => cases h3
    · rw [hv] at h3
      injection h3 with h3
      injection h3 with h3
      rw [← h3] at hm; cases hm
    · rw [hv] at h3
      injection h3 with h3
      injection h3 with h3
      subst h3
      have hs' : ∀ r ∈ allReqs (Env.make c h path toks) s, Sane r := fun r hr => requires_sane rfl ((mem_allReqs _ s r).mp hr)
      have key := (C03_error_iff (Env.make c h path toks).cfg.ignoreIncomp none hs').mp ⟨e, hc⟩
      simp only [mem_allReqs] at key
      exact ⟨rfl, key.1, s, ht, key.2⟩

/-- C63: conversely, such findings make the file incompatible; the file is then known only by the message of the conflict. -/
theorem C63_conflict {c : Config} {h : Host} {path : String} {node : Node} {toks : List Tok} {s : S} (hp : GoodPath c path)
    (hs : Visits c h path node toks s) (ht : TargetsOk (Env.make c h path toks)) (he : EncodingsOk s) (hi : c.ignoreIncomp = false)
    (h2 : ∃ a, Requires (Env.make c h path toks) s a ∧ Py2Only a) (h3 : ∃ b, Requires (Env.make c h path toks) s b ∧ Py3Only b) :
    ∃ msg, processIndividual c h path (.ok node toks) = ([], .ok (some
      { path := path, mins := none, text := msg, novermin := if c.parseComments then comments toks else [], bps := [],
        maybeAnnotations := false })) := by
  obtain ⟨k1, k2⟩ := C32_raises_std (env := Env.make c h path toks) (s := s) rfl ht he
  obtain ⟨e, hev⟩ := k1.mpr ⟨hi, h2, h3⟩
  obtain ⟨msg, rfl⟩ := k2 e hev
  refine ⟨msg, ?_⟩
  unfold processIndividual analyse
  dsimp only
  have hs : tour (Env.make c h path toks) node S.init = .ok s := hs
  rw [badPath_iff.mpr hp, hs]
  simp only [hev, Bool.false_eq_true, if_false]
  rfl

/-- C63: input with null bytes is left out; a file that cannot be read or parsed for another reason counts as a file without
requirements, with the reason as its text; a syntax error yields the requirement of the error (C23). -/
theorem C63_unparsed (c : Config) (h : Host) (path : String) :
    processIndividual c h path .notPython = ([], .ok none) ∧
    (∀ reason, ∃ f, processIndividual c h path (.failed reason) = ([], .ok (some f)) ∧ f.path = path ∧
      f.mins = some ⟨some ⟨0, 0⟩, some ⟨0, 0⟩⟩ ∧ f.text = reason ∧ f.novermin = [] ∧ f.bps = [] ∧ f.maybeAnnotations = false) ∧
    ∀ e, ∃ f, processIndividual c h path (.syntaxError e) = ((detectSyntaxError c h.major e).1, .ok (some f)) ∧ f.path = path ∧
      f.mins = some (detectSyntaxError c h.major e).2 ∧ f.text = "" ∧ f.novermin = [] ∧ f.bps = [] ∧ f.maybeAnnotations = false :=
  ⟨rfl, fun _ => ⟨_, rfl, rfl, rfl, rfl, rfl, rfl, rfl⟩, fun _ => ⟨_, rfl, rfl, rfl, rfl, rfl, rfl, rfl⟩⟩

/-- C63: in the parsable format a path with a colon or a line break stops the analysis. -/
theorem C63_bad_path (c : Config) (h : Host) (path : String) (node : Node) (toks : List Tok) (hp : ¬ GoodPath c path) :
    processIndividual c h path (.ok node toks) = ([], .error .assertion) := by
  unfold processIndividual
  have : badPath c path = true := by
    cases hb : badPath c path with
    | true => rfl
    | false => exact absurd (badPath_iff.mp hb) hp
  simp [this]

/-- C63: `detect` returns `m` iff the analysis of the file yields the minimum `m`. -/
theorem C63_detect (c : Config) (h : Host) (path : String) (node : Node) (toks : List Tok) (m : Req) :
    detectSource c h path node toks = .ok m ↔
      ∃ f, (processIndividual c h path (.ok node toks)).2 = .ok (some f) ∧ f.mins = some m := by
  unfold detectSource visitSource processIndividual analyse
  dsimp only
  cases hb : badPath c path with
  | true => simp
  | false =>
    simp only [Bool.false_eq_true, if_false]
    cases ht : tour (Env.make c h path toks) node S.init with
    | error e => simp
    | ok s =>
      dsimp only
      cases hv : minimumVersions (Env.make c h path toks) s with
      | error e => cases e <;> simp
      | ok x =>
        obtain ⟨s', m'⟩ := x
        have hf := minimumVersions_frame hv
        dsimp only
        obtain ⟨s2, hr⟩ : ∃ s2, minimumVersions (Env.make c h path toks) s' = .ok (s2, m') := by
          obtain ⟨_, s2, h2, _⟩ := minimumVersions_repeats _ (.refl s) hf hv
          exact ⟨s2, h2⟩
        rw [hr]
        simp

/-- Python 3.11, and a source without text. -/
def exampleHost : Host := { source := none, dump := fun _ => "", order := id, major := 3 }

/-- `nonlocal x`. -/
def nonlocalProg : Node := prog [nd .body (.nonlocal) 1 []]

/-- A file with a `nonlocal` statement requires Python 3.0. -/
theorem C63_witness : processIndividual (Config.init 1) exampleHost "a.py" (.ok nonlocalProg []) = ([], .ok (some
    { path := "a.py", mins := some ⟨none, some ⟨3, 0⟩⟩, text := "", novermin := [], bps := [],
      maybeAnnotations := false })) := by decide +kernel

/-- `nonlocal x` and `long`. -/
def clashProg : Node := prog [nd .body (.nonlocal) 1 [], st 2 (nm .value "long" 2)]

/-- A `nonlocal` statement needs Python 3 and the type `long` Python 2: the hypotheses of `C63_conflict`. -/
theorem C63_witness_conflict : GoodPath (Config.init 1) "a.py" ∧ (Config.init 1).ignoreIncomp = false ∧
    TargetsOk (Env.make (Config.init 1) exampleHost "a.py" []) ∧ ∃ s, Visits (Config.init 1) exampleHost "a.py" clashProg [] s ∧
      EncodingsOk s ∧ (∃ a, Requires (Env.make (Config.init 1) exampleHost "a.py" []) s a ∧ Py2Only a) ∧
      (∃ b, Requires (Env.make (Config.init 1) exampleHost "a.py" []) s b ∧ Py3Only b) := by
  refine ⟨nofun, rfl, nofun, ?_⟩
  have key : ((match tour (Env.make (Config.init 1) exampleHost "a.py" []) clashProg S.init with
      | .ok s => s.has .longv2 && s.has .nonlocalStmt && s.codecsEnc.isEmpty | .error _ => false) = true) := by decide +kernel
  split at key
  · rename_i s hs
    simp only [Bool.and_eq_true] at key
    refine ⟨s, hs, fun c hc => ?_, ⟨_, .feature key.1.1 rfl, ⟨_, rfl⟩, rfl⟩, ⟨_, .feature key.1.2 rfl, rfl, ⟨_, rfl⟩⟩⟩
    rw [List.isEmpty_iff.mp key.2] at hc
    cases hc
  · cases key

end Vermin.Props
