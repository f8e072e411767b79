import Verif.Props.Loosened
import Verif.Props.Layout
import Verif.Props.PathText
import Verif.Props.Flow
import Verif.Lemmas.Elsewhere
/-
C104: where files lie does not matter, and neither does how often a file occurs.
-/
namespace Vermin.Props
open Vermin Vermin.Py Vermin.Spec Vermin.V

/-! ### The path of a file -/

/-- Everything stays where it is. -/
def inPlace : Layout := ⟨Info.line, Info.col, id⟩

mutual
theorem moved_inPlace : (n : Node) → n.moved inPlace = n
  | .mk i ks => by rw [Node.moved, movedAll_inPlace ks]; rfl
theorem movedAll_inPlace : (ks : List Node) → movedAll inPlace ks = ks
  | [] => rfl
  | k :: ks => by rw [movedAll, moved_inPlace k, movedAll_inPlace ks]
end

/-- Both paths are those of files `__init__.py`, or neither. -/
def SameRole (path path' : String) : Prop := LastPart path'.toList "__init__.py".toList ↔ LastPart path.toList "__init__.py".toList

theorem SameRole.symm {path path' : String} (h : SameRole path path') : SameRole path' path := Iff.symm h

/-- The site of the same file at another path. -/
def elsewhere (env : Env) (path : String) : Site := ⟨path, env.source, env.noLines, env.dump⟩

theorem tour_elsewhere (c : Config) (h : Host) {path path' : String} (hr : SameRole path path') (toks : List Tok) (n : Node) :
    Follows inPlace (tour (Env.make c h path toks) n) (tour (Env.make c h path' toks) n) := by
  have key := tour_follows (env := Env.make c h path toks) (e := elsewhere (Env.make c h path toks) path') (g := inPlace)
    (by rw [Bool.eq_iff_iff, C98_init, C98_init]; exact hr) (fun u v h => h) n
    (fun k _ => by
      have hk : k.moved inPlace = k := moved_inPlace k
      refine ⟨?_, fun _ => ?_, fun _ _ => ?_⟩ <;> rw [hk] <;> rfl)
  rw [moved_inPlace] at key
  exact key

/-- **C104.** The minimum versions of a source do not depend on its path, as long as it can be printed and is that of a file
`__init__.py` or not. -/
theorem C104_path (c : Config) (h : Host) (path path' : String) (hr : SameRole path path') (node : Node) (toks : List Tok)
    (hg : badPath c path' = badPath c path) : detectSource c h path' node toks = detectSource c h path node toks := by
  obtain ⟨h1, h2⟩ := follows_init (tour_elsewhere c h hr toks node)
  exact detect_placed rfl hg h1 h2

/-! ### Runs -/

/-- The file `q'` of the world `w'` is a copy of the file `q` of the world `w`, at whatever path. -/
structure Copy (w : World) (q : List Char) (w' : World) (q' : List Char) : Prop where
  parse : w'.parse q' = w.parse q
  host : w'.host q' = w.host q

/-- Every file analysed in the second run is a copy of one analysed in the first run. -/
def Copies (w : World) (p : Vermin.Parsed) (w' : World) (p' : Vermin.Parsed) : Prop :=
  ∀ q', AnalysedPath w' p' q' → ∃ q, AnalysedPath w p q ∧ Copy w q w' q'

/-- Two command lines whose runs look for the same things. -/
structure SameAims (p p' : Vermin.Parsed) : Prop where
  analysis : SameAnalysis p.cfg p'.cfg
  pessimistic : p'.cfg.pessimistic = p.cfg.pessimistic
  parsable : p'.cfg.format = .parsable ↔ p.cfg.format = .parsable

theorem SameAims.symm {p p' : Vermin.Parsed} (h : SameAims p p') : SameAims p' p where
  analysis := ⟨h.analysis.1.symm, h.analysis.2.symm, h.analysis.3.symm, h.analysis.4.symm, h.analysis.5.symm, h.analysis.6.symm⟩
  pessimistic := h.pessimistic.symm
  parsable := h.parsable.symm

theorem package_free (f : Flag) (hf : f.ofPackage) : Enforced f = none := by
  rcases hf with rfl | rfl <;> decide +kernel

/-- A visit at another path. -/
theorem tour_moved (env : Env) (path : String) (ht : TargetsOk env) (node : Node) {s : S} (h : tour env node S.init = .ok s) :
    ∃ o fl, tour { env with path := path } node S.init = .ok (s.marked o fl) ∧ SameFlags s.flags fl := by
  have k := tour_likened (path := path) ht node S.init S.init.out S.init.flags (fun _ _ => Iff.rfl)
  have k' : SameButRole (tour env node S.init) (tour { env with path := path } node S.init) := k
  rw [h] at k'
  cases hx : tour { env with path := path } node S.init with
  | error e => rw [hx] at k'; exact k'.elim
  | ok t =>
    rw [hx] at k'
    obtain ⟨o, fl, rfl, hfl⟩ := k'
    exact ⟨o, fl, rfl, hfl⟩

theorem fileReq_copy {w w' : World} {c : Config} {q q' : List Char} (hc : Copy w q w' q') (ht : c.onlyShowViolations = true → c.targets ≠ [])
    {r : Req} (h : FileReq w' c q' r) : FileReq w c q r := by
  cases h with
  | @finding node toks s _ h1 h2 h3 =>
    rw [hc.parse] at h1
    unfold Visits at h2
    rw [hc.host] at h2 h3
    obtain ⟨o, fl, hx, hfl⟩ := tour_moved (Env.make c (w.host q) (String.ofList q') toks) (String.ofList q) ht node h2
    refine .finding h1 hx ?_
    cases h3 with
    | @feature f r h1 h2 =>
      refine .feature (f := f) ?_ h2
      refine List.contains_iff_mem.mpr ((hfl f fun hp => ?_).mpr (List.contains_iff_mem.mp h1))
      rw [package_free f hp] at h2
      cases h2
    | strftime h1 h2 => exact .strftime h1 h2
    | bytesDir h1 h2 => exact .bytesDir h1 h2
    | typecode h1 h2 => exact .typecode h1 h2
    | errorHandler h1 h2 => exact .errorHandler h1 h2
    | encoding h1 h2 h3 => exact .encoding h1 h2 h3
    | module h1 h2 => exact .module h1 h2
    | member h1 h2 => exact .member h1 h2
    | kwarg h1 h2 => exact .kwarg h1 h2
    | decorator h1 h2 => exact .decorator h1 h2
  | @syntaxError e h1 =>
    rw [hc.host]
    exact .syntaxError (hc.parse ▸ h1)

/-- What copies require. -/
theorem C104_required {w w' : World} (hw : Surroundings w) (hw' : Surroundings w') {argv argv' : List String} {p p' : Vermin.Parsed}
    (ha : parseArgs w.args argv (Config.init w.args.cpus) = .ok p) (ha' : parseArgs w'.args argv' (Config.init w'.args.cpus) = .ok p')
    (hs : SameAims p p') (hc : Copies w p w' p') {r : Req} (h : Required w' p' r) : Required w p r := by
  obtain ⟨q', hq', hr⟩ := h
  obtain ⟨q, hq, hc⟩ := hc q' hq'
  obtain ⟨e1, e2, e3, e4⟩ := localConfig_same p.cfg
  obtain ⟨f1, f2, f3, f4⟩ := localConfig_same p'.cfg
  exact ⟨q, hq, fileReq_same (local_analysis hs.symm.analysis) (by rw [e4, f4]; exact hs.symm.pessimistic)
    (by rw [e1, f1]; exact hs.symm.parsable) (by rw [f2, f3]; exact parsed_targets hw'.paths ha')
    (by rw [e2, e3]; exact parsed_targets hw.paths ha)
    (fileReq_copy hc (by rw [f2, f3]; exact parsed_targets hw'.paths ha') hr)⟩

/-- **C104.** Fewer files: if a run ends with exit code 0, so does one with the same aims and targets over copies of some of its files,
provided there are any and, for each target, one of them still needs a version of its major (that version, for an exact target). -/
theorem C104_fewer {w w' : World} (hw : Surroundings w) (hw' : Surroundings w') {argv argv' : List String} {p p' : Vermin.Parsed}
    (ho : Orderly w argv p) (ho' : Orderly w' argv' p') (hs : SameAims p p') (hc : Copies w p w' p')
    (ht : OnePerMajor p.cfg.targets) (htt : p'.cfg.targets = p.cfg.targets) (hv : p'.cfg.onlyShowViolations = p.cfg.onlyShowViolations)
    (hps : ¬ (p.cfg.pessimistic = true ∧ p.cfg.onlyShowViolations = true))
    (hne : ∃ q, AnalysedPath w' p' q)
    (hneed : ∀ t ∈ p.cfg.targets, ∃ r v, Required w' p' r ∧ part t.2.major r = some v ∧ v ≠ ⟨0, 0⟩ ∧ (t.1 = true → v = t.2))
    {files files' : List (List String)} {out out' : List String} {code' : Nat}
    (h : program w argv = .exit files out 0) (h' : program w' argv' = .exit files' out' code') : code' = 0 := by
  have hps' : ¬ (p'.cfg.pessimistic = true ∧ p'.cfg.onlyShowViolations = true) := by rw [hs.pessimistic, hv]; exact hps
  obtain ⟨-, hor⟩ := (C66_exit hw ho ht hps h).2.mp rfl
  have hreq := fun r => C104_required hw hw' ho.args ho'.args hs hc (r := r)
  refine (C66_exit hw' ho' (by rw [htt]; exact ht) hps' h').2.mpr ⟨hne, ?_⟩
  rcases hor with ⟨h1, h2⟩ | h1
  · exact .inl ⟨by rw [hv]; exact h1, fun r hr => h2 r (hreq r hr)⟩
  · right
    rw [htt]
    intro t htm
    exact ⟨fun r hr => (h1 t htm).1 r (hreq r hr), hneed t htm⟩

theorem overall_same {R R' : Req → Prop} (h : ∀ r, R' r ↔ R r) {m m' : Req} (hm : Overall R m) (hm' : Overall R' m') : m' = m := by
  have key : ∀ {a b : Option Ver} (f : Req → Option Ver), (a = none ↔ ∃ r, R r ∧ f r = none) → (b = none ↔ ∃ r, R' r ∧ f r = none) →
      (∀ v, a = some v → (v = ⟨0, 0⟩ ∨ ∃ r, R r ∧ f r = some v) ∧ ∀ r, R r → ∀ x, f r = some x → x ≤ v) →
      (∀ v, b = some v → (v = ⟨0, 0⟩ ∨ ∃ r, R' r ∧ f r = some v) ∧ ∀ r, R' r → ∀ x, f r = some x → x ≤ v) → b = a := by
    intro a b f h1 h2 h3 h4
    simp only [h] at h2 h4
    cases a with
    | none => exact h2.mpr (h1.mp rfl)
    | some v =>
      cases b with
      | none => cases h1.mpr (h2.mp rfl)
      | some v' =>
        obtain ⟨a1, a2⟩ := h3 v rfl
        obtain ⟨b1, b2⟩ := h4 v' rfl
        have l1 : v ≤ v' := by
          rcases a1 with rfl | ⟨r, hr, hx⟩
          · exact ver_zero_le v'
          · exact b2 r hr v hx
        have l2 : v' ≤ v := by
          rcases b1 with rfl | ⟨r, hr, hx⟩
          · exact ver_zero_le v
          · exact a2 r hr v' hx
        rw [Ver.le_antisymm l1 l2]
  cases m; cases m'
  rw [show ∀ a b a' b', a' = a → b' = b → Req.mk a' b' = Req.mk a b by rintro _ _ _ _ rfl rfl; rfl]
  · exact key Req.py2 hm.none2 hm'.none2 hm.max2 hm'.max2
  · exact key Req.py3 hm.none3 hm'.none3 hm.max3 hm'.max3

/-- **C104.** Runs with the same aims over copies of the same files, wherever they lie and however often they occur, combine them to
the same minimum versions. -/
theorem C104_minimum {w w' : World} (hw : Surroundings w) (hw' : Surroundings w') {argv argv' : List String} {p p' : Vermin.Parsed}
    (ho : Orderly w argv p) (ho' : Orderly w' argv' p') (hs : SameAims p p') (hc : Copies w p w' p') (hc' : Copies w' p' w p)
    (hne : ∃ q, AnalysedPath w p q)
    {files files' : List (List String)} {out out' : List String} {code code' : Nat}
    (h : program w argv = .exit files out code) (h' : program w' argv' = .exit files' out' code') :
    ∃ pre rep acc pre' rep' acc', out = pre ++ rep ∧ out' = pre' ++ rep' ∧ acc'.mins = acc.mins ∧
      (∀ line, line ≠ "\n" → (line ∈ rep ↔ ReportLine p.cfg p.versions acc line)) ∧
      ∀ line, line ≠ "\n" → (line ∈ rep' ↔ ReportLine p'.cfg p'.versions acc' line) := by
  obtain ⟨pre, rep, acc, e1, e2, e3⟩ := C66_report hw ho h hne
  obtain ⟨pre', rep', acc', f1, f2, f3⟩ := C66_report hw' ho' h' (by
    obtain ⟨q, hq⟩ := hne
    obtain ⟨q', hq', -⟩ := hc' q hq
    exact ⟨q', hq'⟩)
  exact ⟨pre, rep, acc, pre', rep', acc', e1, f1, overall_same (fun r => ⟨C104_required hw hw' ho.args ho'.args hs hc,
    C104_required hw' hw ho'.args ho.args hs.symm hc'⟩) e2 f2, e3, f3⟩

/-- **C104.** … and if their targets are the same, end with the same exit code. -/
theorem C104_exit {w w' : World} (hw : Surroundings w) (hw' : Surroundings w') {argv argv' : List String} {p p' : Vermin.Parsed}
    (ho : Orderly w argv p) (ho' : Orderly w' argv' p') (hs : SameAims p p') (hc : Copies w p w' p') (hc' : Copies w' p' w p)
    (ht : OnePerMajor p.cfg.targets) (htt : p'.cfg.targets = p.cfg.targets) (hv : p'.cfg.onlyShowViolations = p.cfg.onlyShowViolations)
    (hps : ¬ (p.cfg.pessimistic = true ∧ p.cfg.onlyShowViolations = true))
    {files files' : List (List String)} {out out' : List String} {code code' : Nat}
    (h : program w argv = .exit files out code) (h' : program w' argv' = .exit files' out' code') : code' = code := by
  have hps' : ¬ (p'.cfg.pessimistic = true ∧ p'.cfg.onlyShowViolations = true) := by rw [hs.pessimistic, hv]; exact hps
  obtain ⟨a1, a2⟩ := C66_exit hw ho ht hps h
  obtain ⟨b1, b2⟩ := C66_exit hw' ho' (by rw [htt]; exact ht) hps' h'
  have hreq : ∀ r, Required w' p' r ↔ Required w p r := fun r => ⟨C104_required hw hw' ho.args ho'.args hs hc,
    C104_required hw' hw ho'.args ho.args hs.symm hc'⟩
  have hq : (∃ q, AnalysedPath w' p' q) ↔ ∃ q, AnalysedPath w p q :=
    ⟨fun ⟨q, h⟩ => let ⟨q', h', _⟩ := hc q h; ⟨q', h'⟩, fun ⟨q, h⟩ => let ⟨q', h', _⟩ := hc' q h; ⟨q', h'⟩⟩
  have hR : Required w' p' = Required w p := funext fun r => propext (hreq r)
  rw [hq, hR, htt, hv, ← a2] at b2
  rcases a1 with rfl | rfl
  · exact b2.mpr rfl
  · rcases b1 with rfl | rfl
    · exact (b2.mp rfl).symm
    · rfl

/-- A part of minimum versions that is at most another: "incompatible" comes last. -/
def PartAtMost (a b : Option Ver) : Prop := ∀ v, b = some v → ∃ u, a = some u ∧ u ≤ v

theorem overall_mono {R R' : Req → Prop} (h : ∀ r, R' r → R r) {m m' : Req} (hm : Overall R m) (hm' : Overall R' m') :
    PartAtMost m'.py2 m.py2 ∧ PartAtMost m'.py3 m.py3 := by
  have key : ∀ {a b : Option Ver} (f : Req → Option Ver), (a = none ↔ ∃ r, R r ∧ f r = none) → (b = none ↔ ∃ r, R' r ∧ f r = none) →
      (∀ v, a = some v → (v = ⟨0, 0⟩ ∨ ∃ r, R r ∧ f r = some v) ∧ ∀ r, R r → ∀ x, f r = some x → x ≤ v) →
      (∀ v, b = some v → (v = ⟨0, 0⟩ ∨ ∃ r, R' r ∧ f r = some v) ∧ ∀ r, R' r → ∀ x, f r = some x → x ≤ v) → PartAtMost b a := by
    intro a b f h1 h2 h3 h4 v hv
    cases b with
    | none =>
      obtain ⟨r, hr, hx⟩ := h2.mp rfl
      rw [h1.mpr ⟨r, h r hr, hx⟩] at hv
      cases hv
    | some u =>
      refine ⟨u, rfl, ?_⟩
      rcases (h4 u rfl).1 with rfl | ⟨r, hr, hx⟩
      · exact ver_zero_le v
      · exact (h3 v hv).2 r (h r hr) u hx
  exact ⟨key Req.py2 hm.none2 hm'.none2 hm.max2 hm'.max2, key Req.py3 hm.none3 hm'.none3 hm.max3 hm'.max3⟩

/-- **C104.** The minimum versions of a run over copies of some of the files are at most those of the run over all of them. -/
theorem C104_grows {w w' : World} (hw : Surroundings w) (hw' : Surroundings w') {argv argv' : List String} {p p' : Vermin.Parsed}
    (ho : Orderly w argv p) (ho' : Orderly w' argv' p') (hs : SameAims p p') (hc : Copies w p w' p') (hne : ∃ q, AnalysedPath w' p' q)
    {files files' : List (List String)} {out out' : List String} {code code' : Nat}
    (h : program w argv = .exit files out code) (h' : program w' argv' = .exit files' out' code') :
    ∃ pre rep acc pre' rep' acc', out = pre ++ rep ∧ out' = pre' ++ rep' ∧
      (PartAtMost acc'.mins.py2 acc.mins.py2 ∧ PartAtMost acc'.mins.py3 acc.mins.py3) ∧
      (∀ line, line ≠ "\n" → (line ∈ rep ↔ ReportLine p.cfg p.versions acc line)) ∧
      ∀ line, line ≠ "\n" → (line ∈ rep' ↔ ReportLine p'.cfg p'.versions acc' line) := by
  obtain ⟨pre, rep, acc, e1, e2, e3⟩ := C66_report hw ho h (by
    obtain ⟨q, hq⟩ := hne
    obtain ⟨q', hq', -⟩ := hc q hq
    exact ⟨q', hq'⟩)
  obtain ⟨pre', rep', acc', f1, f2, f3⟩ := C66_report hw' ho' h' hne
  exact ⟨pre, rep, acc, pre', rep', acc', e1, f1, overall_mono (fun r => C104_required hw hw' ho.args ho'.args hs hc) e2 f2, e3, f3⟩

/-- **C104.** A file that a target does not satisfy makes every run fail that has a copy of it. -/
theorem C104_spoils {w w' : World} (hw : Surroundings w) (hw' : Surroundings w') {argv argv' : List String} {p p' : Vermin.Parsed}
    (ho : Orderly w argv p) (ha' : parseArgs w'.args argv' (Config.init w'.args.cpus) = .ok p') (hs : SameAims p p') (hc : Copies w p w' p')
    (ht : OnePerMajor p.cfg.targets) (hps : ¬ (p.cfg.pessimistic = true ∧ p.cfg.onlyShowViolations = true))
    {r : Req} (hr : Required w' p' r) {t : Target} (htm : t ∈ p.cfg.targets) (hn : ¬ Satisfies t.2 r)
    {files : List (List String)} {out : List String} {code : Nat} (h : program w argv = .exit files out code) : code = 1 := by
  rcases (C66_exit hw ho ht hps h).1 with rfl | rfl
  · obtain ⟨q, hq, hx⟩ := C104_required hw hw' ho.args ha' hs hc hr
    exact absurd (C66_certified hw ho ht hps h t htm q hq r hx) hn
  · rfl

/-! ### Examples -/

/-- Two copies of the file of the example, elsewhere, and a file with nothing in it. -/
def copiedWorld : World :=
  { exampleWorld with
    fs := { noFS with lstat := fun p => if p = "/b.py".toList ∨ p = "/c.py".toList ∨ p = "/empty.py".toList then some (.node .reg) else none }
    parse := fun q => .ok (if q = "/empty.py".toList then prog [] else nonlocalProg) [] }

def copiedParsed : Vermin.Parsed := { exampleParsed with paths := ["b.py", "c.py"] }

theorem copied_surroundings : Surroundings copiedWorld where
  cwd := rfl
  paths := example_surroundings.paths
  python3 _ := rfl
  config := nofun

theorem copied_files (q : List Char) : AnalysedPath copiedWorld copiedParsed q ↔ q = "/b.py".toList ∨ q = "/c.py".toList := by
  have hpaths : mainPaths copiedWorld.fs copiedParsed.cfg copiedWorld.rounds (copiedParsed.paths.map String.toList) =
      .ok (some ["/b.py".toList, "/c.py".toList]) := by decide +kernel
  refine ((C44_main hpaths).2.2 q).symm.trans ?_
  simp

theorem example_files (q : List Char) : AnalysedPath exampleWorld exampleParsed q ↔ q = "/a.py".toList := by
  have hpaths : mainPaths exampleWorld.fs exampleParsed.cfg exampleWorld.rounds (exampleParsed.paths.map String.toList) =
      .ok (some ["/a.py".toList]) := by decide +kernel
  refine ((C44_main hpaths).2.2 q).symm.trans ?_
  simp

theorem C104_witness : Surroundings copiedWorld ∧ Orderly copiedWorld ["-t=3.0-", "b.py", "c.py"] copiedParsed ∧
    SameAims exampleParsed copiedParsed ∧ Copies exampleWorld exampleParsed copiedWorld copiedParsed ∧
    Copies copiedWorld copiedParsed exampleWorld exampleParsed ∧
    ∃ files out, program copiedWorld ["-t=3.0-", "b.py", "c.py"] = .exit files out 0 := by
  have hargs : parseArgs copiedWorld.args ["-t=3.0-", "b.py", "c.py"] (Config.init copiedWorld.args.cpus) = .ok copiedParsed := by
    decide +kernel
  have hs : SameAims exampleParsed copiedParsed := ⟨⟨rfl, rfl, rfl, rfl, rfl, rfl⟩, rfl, Iff.rfl⟩
  have ha := (example_files "/a.py".toList).mpr rfl
  have hb := (copied_files "/b.py".toList).mpr (.inl rfl)
  have hc : Copies exampleWorld exampleParsed copiedWorld copiedParsed := by
    intro q hq
    refine ⟨_, ha, ?_⟩
    rcases (copied_files q).mp hq with rfl | rfl
    · exact ⟨rfl, rfl⟩
    · exact ⟨rfl, rfl⟩
  have hc' : Copies copiedWorld copiedParsed exampleWorld exampleParsed := by
    intro q hq
    rw [(example_files q).mp hq]
    exact ⟨_, hb, rfl, rfl⟩
  obtain ⟨h1, h2, -, -, h3, h4⟩ := C66_witness
  refine ⟨copied_surroundings, ⟨hargs, ?_, .inr ?_⟩, hs, hc, hc', ?_⟩
  · intro q hq
    have : copiedWorld.parse q = .ok nonlocalProg [] := by rcases (copied_files q).mp hq with rfl | rfl <;> rfl
    rw [this]
    exact nonlocal_analysable _ _ _
  · rcases h2.compatible with h | h
    · cases h
    · rintro ⟨⟨q, r, hq, hr, hr2⟩, q', r', hq', hr', hr2'⟩
      obtain ⟨q1, a1, b1⟩ := C104_required h1 copied_surroundings h2.args hargs hs hc ⟨q, hq, hr⟩
      obtain ⟨q2, a2, b2⟩ := C104_required h1 copied_surroundings h2.args hargs hs hc ⟨q', hq', hr'⟩
      exact h ⟨⟨q1, r, a1, b1, hr2⟩, q2, r', a2, b2, hr2'⟩
  · have key : (match program copiedWorld ["-t=3.0-", "b.py", "c.py"] with | .exit _ _ 0 => true | _ => false) = true := by decide +kernel
    split at key
    · rename_i files out h; exact ⟨files, out, h⟩
    · cases key

/-- The feature `__dir__` of a module is found, and the requirement, at a path. -/
def dirAt (path : String) (n : Node) : Option (Bool × Req) :=
  match tour { exampleEnv (Config.init 1) with path := path } n S.init, detectSource (Config.init 1) exampleHost path n [] with
  | .ok s, .ok r => some (s.flags.contains .moduleDirFunc, r)
  | _, _ => none

/-- C104: what depends on the role of a file: `__dir__` of a package is found as a feature, which leads to no requirement. -/
theorem C104_init : dirAt "pkg/__init__.py" (prog [dirFunc]) = some (true, ⟨some ⟨0, 0⟩, some ⟨0, 0⟩⟩) ∧
    dirAt "pkg/a.py" (prog [dirFunc]) = some (false, ⟨some ⟨0, 0⟩, some ⟨0, 0⟩⟩) := by decide +kernel

/-- The exit code of a run. -/
def codeOf : Outcome → Option Nat
  | .exit _ _ c => some c
  | _ => none

/-- C104: why the files that are left must need a version: with fewer files the target is no longer met. -/
theorem C104_left : codeOf (program copiedWorld ["-t=3.0-", "b.py", "empty.py"]) = some 0 ∧
    codeOf (program copiedWorld ["-t=3.0-", "empty.py"]) = some 1 := by decide +kernel

end Vermin.Props
