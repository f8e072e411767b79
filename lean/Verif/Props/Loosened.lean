import Verif.Props.EndToEnd
import Verif.Props.Display
/-
C91: the exit codes of two runs over the same files.
-/
namespace Vermin.Props
open Vermin Vermin.Py Vermin.Spec Vermin.V

/-- Two command lines whose runs look at the same files, for the same things. -/
structure SameTask (p p' : Vermin.Parsed) : Prop where
  paths : p'.paths = p.paths
  hidden : p'.cfg.analyzeHidden = p.cfg.analyzeHidden
  links : p'.cfg.scanSymlinkFolders = p.cfg.scanSymlinkFolders
  absolute : p'.cfg.makePathsAbsolute = p.cfg.makePathsAbsolute
  regex : p'.cfg.exclusionRegex = p.cfg.exclusionRegex
  analysis : SameAnalysis p.cfg p'.cfg
  pessimistic : p'.cfg.pessimistic = p.cfg.pessimistic
  parsable : p'.cfg.format = .parsable ↔ p.cfg.format = .parsable

theorem SameTask.symm {p p' : Vermin.Parsed} (h : SameTask p p') : SameTask p' p where
  paths := h.paths.symm
  hidden := h.hidden.symm
  links := h.links.symm
  absolute := h.absolute.symm
  regex := h.regex.symm
  analysis := ⟨h.analysis.1.symm, h.analysis.2.symm, h.analysis.3.symm, h.analysis.4.symm, h.analysis.5.symm, h.analysis.6.symm⟩
  pessimistic := h.pessimistic.symm
  parsable := h.parsable.symm

theorem SameTask.file {w : World} {p p' : Vermin.Parsed} (h : SameTask p p') {q : List Char} (hq : AnalysedPath w p q) :
    AnalysedPath w p' q := by
  have hu : ∀ a, Used w.fs (mainOpts p'.cfg) a = Used w.fs (mainOpts p.cfg) a := fun a => by
    unfold Used mainOpts; dsimp only; rw [h.absolute]
  have hi : ∀ a, Ignored w.fs (mainOpts p'.cfg) a ↔ Ignored w.fs (mainOpts p.cfg) a := fun a => by
    unfold Ignored mainOpts; simp only [h.parsable, h.regex]
  have hh : ∀ a, HiddenPath (mainOpts p'.cfg) a ↔ HiddenPath (mainOpts p.cfg) a := fun a => by
    unfold HiddenPath mainOpts; dsimp only; rw [h.hidden]
  obtain ⟨d, a, hv, h1, h2, h3, h4, h5⟩ := hq
  refine ⟨d, a, ?_, fun hc => h1 ((hi a).mp hc), fun hc => h2 ((hh a).mp hc), by rw [hu]; exact h3, h4, h5⟩
  clear h1 h2 h3 h4 h5 q
  rw [h.paths, List.map_congr_left fun a _ => hu a]
  induction hv with
  | arg hp => exact .arg hp
  | @entry d a n _ he ih =>
    obtain ⟨e1, e2, e3, e4⟩ := he
    rw [← hu a]
    refine .entry ih ⟨fun hc => e1 ((hi a).mp hc), fun hc => e2 ((hh a).mp hc), ?_, ?_⟩
    · rw [hu, show (mainOpts p'.cfg).scanSymlinkFolders = (mainOpts p.cfg).scanSymlinkFolders from h.links]
      exact e3
    · rw [hu, show (mainOpts p'.cfg).hidden = (mainOpts p.cfg).hidden from h.hidden]
      exact e4

/-- They look at the same files. -/
theorem SameTask.files {w : World} {p p' : Vermin.Parsed} (h : SameTask p p') (q : List Char) :
    AnalysedPath w p' q ↔ AnalysedPath w p q := ⟨h.symm.file, h.file⟩

/-- Targets that ask for less: for each there was a target of the same major version that was the same, or that was at most this
version (and now a minimum is asked for, not an exact version). -/
def Looser (ts ts' : List Target) : Prop :=
  ∀ t' ∈ ts', ∃ t ∈ ts, t' = t ∨ (t'.2.major = t.2.major ∧ t'.1 = false ∧ t.2 ≤ t'.2)

theorem local_analysis {c c' : Config} (h : SameAnalysis c c') : SameAnalysis (localConfig c) (localConfig c') := by
  obtain ⟨h1, h2, h3, h4, h5, h6⟩ := h
  unfold localConfig
  split <;> split <;> exact ⟨h1, h2, h3, h4, h5, h6⟩

theorem requires_loud {env env' : Env} {s : S} {o i} (ht : env'.tables = env.tables) {r : Req}
    (h : Requires env s r) : Requires env' { s with out := o, infoVersions := i } r := by
  cases h with
  | feature h1 h2 => exact .feature h1 h2
  | strftime h1 h2 => exact .strftime h1 (by rw [ht]; exact h2)
  | bytesDir h1 h2 => exact .bytesDir h1 (by rw [ht]; exact h2)
  | typecode h1 h2 => exact .typecode h1 (by rw [ht]; exact h2)
  | errorHandler h1 h2 => exact .errorHandler h1 (by rw [ht]; exact h2)
  | encoding h1 h2 h3 => exact .encoding h1 (by rw [ht]; exact h2) h3
  | module h1 h2 => exact .module h1 (by rw [ht]; exact h2)
  | member h1 h2 => exact .member h1 (by rw [ht]; exact h2)
  | kwarg h1 h2 => exact .kwarg h1 (by rw [ht]; exact h2)
  | decorator h1 h2 => exact .decorator h1 (by rw [ht]; exact h2)

theorem std_same {c c' : Config} (h : c'.backports = c.backports) : Tables.std c' = Tables.std c := by
  unfold Tables.std
  rw [h]

theorem fileReq_same {w : World} {c c' : Config} {q : List Char} {r : Req} (hs : SameAnalysis c c')
    (hpe : c'.pessimistic = c.pessimistic) (hpa : c'.format = .parsable ↔ c.format = .parsable)
    (hp : c.onlyShowViolations = true → c.targets ≠ []) (hp' : c'.onlyShowViolations = true → c'.targets ≠ [])
    (h : FileReq w c q r) : FileReq w c' q r := by
  have ht : Tables.std c' = Tables.std c := std_same hs.backports
  cases h with
  | @finding node toks s _ h1 h2 h3 =>
    obtain ⟨s', k1, k2⟩ := C33_findings (Env.make c (w.host q) (String.ofList q) toks) c' node hs hp hp' s h2
    have he : ({ Env.make c (w.host q) (String.ofList q) toks with cfg := c' } : Env) = Env.make c' (w.host q) (String.ofList q) toks := by
      unfold Env.make
      rw [ht, hs.parseComments]
    rw [he] at k1
    refine .finding h1 k1 ?_
    rw [k2]
    exact requires_loud (by unfold Env.make; exact ht) h3
  | @syntaxError e h1 =>
    have : (detectSyntaxError c (w.host q).major e).2 = (detectSyntaxError c' (w.host q).major e).2 := by
      have ht : synText c' e = synText c e := by
        unfold synText
        simp only [hpa]
      have hm : synMins c' (w.host q).major = synMins c (w.host q).major := by unfold synMins; rw [hpe]
      unfold detectSyntaxError
      rw [ht, hm]
      dsimp only
      split
      · rfl
      · split <;> rfl
    rw [this]
    exact .syntaxError h1

theorem required_mono {w : World} (hw : Surroundings w) {argv argv' : List String} {p p' : Vermin.Parsed}
    (ha : parseArgs w.args argv (Config.init w.args.cpus) = .ok p) (ha' : parseArgs w.args argv' (Config.init w.args.cpus) = .ok p')
    (hs : SameTask p p') {r : Req} (h : Required w p r) : Required w p' r := by
  obtain ⟨q, hq, hr⟩ := h
  obtain ⟨e1, e2, e3, e4⟩ := localConfig_same p.cfg
  obtain ⟨f1, f2, f3, f4⟩ := localConfig_same p'.cfg
  refine ⟨q, (hs.files q).mpr hq, fileReq_same (local_analysis hs.analysis) (by rw [e4, f4]; exact hs.pessimistic)
    (by rw [e1, f1]; exact hs.parsable) (by rw [e2, e3]; exact parsed_targets hw.paths ha)
    (by rw [f2, f3]; exact parsed_targets hw.paths ha') hr⟩

/-- What is required by the files is the same in both runs. -/
theorem C91_required {w : World} (hw : Surroundings w) {argv argv' : List String} {p p' : Vermin.Parsed}
    (ha : parseArgs w.args argv (Config.init w.args.cpus) = .ok p) (ha' : parseArgs w.args argv' (Config.init w.args.cpus) = .ok p')
    (hs : SameTask p p') (r : Req) : Required w p' r ↔ Required w p r :=
  ⟨required_mono hw ha' ha hs.symm, required_mono hw ha ha' hs⟩

theorem satisfies_later {v v' : Ver} (hm : v'.major = v.major) (hle : v ≤ v') {r : Req} (h : Satisfies v r) : Satisfies v' r := by
  have trans : ∀ {m : Ver}, m ≤ v → m ≤ v' := fun h1 => Ver.le_trans h1 hle
  rcases h with ⟨h1, m, h2, h3⟩ | ⟨h1, m, h2, h3⟩
  · exact .inl ⟨hm.trans h1, m, h2, trans h3⟩
  · exact .inr ⟨hm.trans h1, m, h2, trans h3⟩

/-- **C91.** Looser targets: of two runs over the same files, that look for the same things, if one ends with exit code 0, so does
the one whose targets are looser (removed, or a minimum at the same or a later version of the same major). -/
theorem C91_loosened {w : World} (hw : Surroundings w) {argv argv' : List String} {p p' : Vermin.Parsed}
    (ho : Orderly w argv p) (ho' : Orderly w argv' p') (hs : SameTask p p')
    (ht : OnePerMajor p.cfg.targets) (ht' : OnePerMajor p'.cfg.targets)
    (hps : ¬ (p.cfg.pessimistic = true ∧ p.cfg.onlyShowViolations = true))
    (hps' : ¬ (p'.cfg.pessimistic = true ∧ p'.cfg.onlyShowViolations = true))
    (hv : p.cfg.onlyShowViolations = true → p'.cfg.onlyShowViolations = true)
    (hl : Looser p.cfg.targets p'.cfg.targets)
    {files files' : List (List String)} {out out' : List String} {code' : Nat}
    (h : program w argv = .exit files out 0) (h' : program w argv' = .exit files' out' code') : code' = 0 := by
  obtain ⟨⟨q, hq⟩, hor⟩ := (C66_exit hw ho ht hps h).2.mp rfl
  have hreq := C91_required hw ho.args ho'.args hs
  refine (C66_exit hw ho' ht' hps' h').2.mpr ⟨⟨q, (hs.files q).mpr hq⟩, ?_⟩
  rcases hor with ⟨h1, h2⟩ | h1
  · exact .inl ⟨hv h1, fun r hr => h2 r ((hreq r).mp hr)⟩
  · right
    intro t' ht'm
    obtain ⟨t, htm, hc⟩ := hl t' ht'm
    obtain ⟨m1, r, v, m2, m3, m4, m5⟩ := h1 t htm
    rcases hc with rfl | ⟨c1, c2, c3⟩
    · exact ⟨fun r hr => m1 r ((hreq r).mp hr), r, v, (hreq r).mpr m2, m3, m4, m5⟩
    · refine ⟨fun r hr => satisfies_later c1 c3 (m1 r ((hreq r).mp hr)), r, v, (hreq r).mpr m2, by rw [c1]; exact m3, m4, ?_⟩
      rw [c2]; intro hx; cases hx

/-- The exit code depends on nothing else: runs over the same files, that look for the same things with the same targets, end with
the same exit code, whatever the verbosity, tips, number of processes, … -/
theorem C91_same {w : World} (hw : Surroundings w) {argv argv' : List String} {p p' : Vermin.Parsed}
    (ho : Orderly w argv p) (ho' : Orderly w argv' p') (hs : SameTask p p')
    (ht : OnePerMajor p.cfg.targets) (htt : p'.cfg.targets = p.cfg.targets)
    (hv : p'.cfg.onlyShowViolations = p.cfg.onlyShowViolations)
    (hps : ¬ (p.cfg.pessimistic = true ∧ p.cfg.onlyShowViolations = true))
    {files files' : List (List String)} {out out' : List String} {code code' : Nat}
    (h : program w argv = .exit files out code) (h' : program w argv' = .exit files' out' code') : code' = code := by
  have ht' : OnePerMajor p'.cfg.targets := by rw [htt]; exact ht
  have hps' : ¬ (p'.cfg.pessimistic = true ∧ p'.cfg.onlyShowViolations = true) := by rw [hs.pessimistic, hv]; exact hps
  have hl : Looser p.cfg.targets p'.cfg.targets := by rw [htt]; exact fun t h => ⟨t, h, .inl rfl⟩
  have hl' : Looser p'.cfg.targets p.cfg.targets := by rw [htt]; exact fun t h => ⟨t, h, .inl rfl⟩
  rcases (C66_exit hw ho ht hps h).1 with rfl | rfl
  · exact C91_loosened hw ho ho' hs ht ht' hps hps' (by rw [hv]; exact id) hl h h'
  · rcases (C66_exit hw ho' ht' hps' h').1 with rfl | rfl
    · exact (C91_loosened hw ho' ho hs.symm ht' ht hps' hps (by rw [hv]; exact id) hl' h' h).symm
    · rfl

/-- A minimum target that is later; the same files. -/
def laterParsed : Vermin.Parsed :=
  { cfg := { Config.init 4 with targets := [(false, ⟨3, 5⟩)] }, paths := ["a.py"], versions := false }

theorem C91_witness : Surroundings exampleWorld ∧ Orderly exampleWorld ["-t=3.0-", "a.py"] exampleParsed ∧
    Orderly exampleWorld ["-t=3.5-", "a.py"] laterParsed ∧ SameTask exampleParsed laterParsed ∧
    Looser exampleParsed.cfg.targets laterParsed.cfg.targets ∧ ¬ Looser laterParsed.cfg.targets exampleParsed.cfg.targets ∧
    OnePerMajor laterParsed.cfg.targets ∧
    (∃ files out, program exampleWorld ["-t=3.0-", "a.py"] = .exit files out 0) ∧
    (∃ files out, program exampleWorld ["-t=3.5-", "a.py"] = .exit files out 0) ∧
    Required exampleWorld laterParsed ⟨none, some ⟨3, 0⟩⟩ := by
  obtain ⟨h1, h2, -, -, h3, h4⟩ := C66_witness
  have hargs : parseArgs exampleWorld.args ["-t=3.5-", "a.py"] (Config.init exampleWorld.args.cpus) = .ok laterParsed := by
    decide +kernel
  have hs : SameTask exampleParsed laterParsed := ⟨rfl, rfl, rfl, rfl, rfl, ⟨rfl, rfl, rfl, rfl, rfl, rfl⟩, rfl, Iff.rfl⟩
  have hreq := C91_required h1 h2.args hargs hs
  refine ⟨h1, h2, ⟨hargs, fun q _ => nonlocal_analysable _ _ _, .inr ?_⟩, hs, ?_, ?_, ?_, h3, ?_, (hreq _).mpr h4⟩
  · rcases h2.compatible with h | h
    · cases h
    · rintro ⟨⟨q, r, hq, hr, hr2⟩, q', r', hq', hr', hr2'⟩
      have m := (hreq r).mp ⟨q, hq, hr⟩
      have m' := (hreq r').mp ⟨q', hq', hr'⟩
      obtain ⟨q1, a1, b1⟩ := m
      obtain ⟨q2, a2, b2⟩ := m'
      exact h ⟨⟨q1, r, a1, b1, hr2⟩, q2, r', a2, b2, hr2'⟩
  · intro t ht
    rw [List.mem_singleton.mp ht]
    exact ⟨_, List.mem_cons_self, .inr ⟨rfl, rfl, by decide⟩⟩
  · intro h
    obtain ⟨t, ht, h⟩ := h (false, ⟨3, 0⟩) List.mem_cons_self
    rw [List.mem_singleton.mp ht] at h
    revert h
    decide
  · intro a ha b hb _; rw [List.mem_singleton.mp ha, List.mem_singleton.mp hb]
  · have key : (match program exampleWorld ["-t=3.5-", "a.py"] with | .exit _ _ 0 => true | _ => false) = true := by decide +kernel
    split at key
    · rename_i files out h; exact ⟨files, out, h⟩
    · cases key

end Vermin.Props
