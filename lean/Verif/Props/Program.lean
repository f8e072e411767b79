import Verif.Model.Program
import Verif.Props.Run
import Verif.Props.Detection
import Verif.Props.Arguments
import Verif.Props.Safe
import Verif.Props.Imports
/-
C65: the program does not crash.  C66: what the report and the exit code of a run tell about the analysed files.
Also stronger versions of C20 and C36.
-/
namespace Vermin.Props
open Vermin Vermin.Py Vermin.Spec

/-- No constant other than a string is given as encoding to a function of `codecs`, as far as the program itself says what names mean. -/
def EncodingConstants (env : Env) (p : Node) : Prop :=
  ∀ n, In n p → ∀ c, EmitsIn env (Learnt env p n) n (.encoding c) → ∃ t, c = .str t

theorem EncodingConstants.strings {env : Env} {p : Node} (h : EncodingConstants env p) {s : S} (hs : tour env p S.init = .ok s) :
    StringEncodings s := fun c hc => by
  obtain ⟨n, hn, he⟩ := (C29_traced env p s hs).codecsEnc c hc
  exact h n hn c he

/-- **C36 (partial).** With conditions on the program alone.  Not covered: the programs that crash, see `C36_false_strftime`,
`C36_false_annotation`, `C36_false_fstring` and `C36_false_encoding`. -/
theorem C36_program_partial (c : Config) (h : Host) (path : String) (node : Node) (toks : List Tok) (hp : Spec.Parsed node)
    (ht : Tame (Env.make c h path toks) node) (he : EncodingConstants (Env.make c h path toks) node) (hpr : Printable c path) (e : Err) :
    verdict (detectSource c h path node toks) ≠ .crash e :=
  C36_detect_partial c h path node toks hp ht hpr (fun _ hs => he.strings hs) e

/-- A file that does not make the analysis crash. -/
def Analysable (c : Config) (h : Host) (path : String) (p : ParseOut) : Prop :=
  ∀ node toks, p = .ok node toks → Spec.Parsed node ∧ Tame (Env.make c h path toks) node ∧ EncodingConstants (Env.make c h path toks) node

theorem file_ok {c : Config} {h : Host} {path : String} {p : ParseOut} (ha : Analysable c h path p) (hg : GoodPath c path)
    (ht : c.onlyShowViolations = true → c.targets ≠ []) : ∃ f, (processIndividual c h path p).2 = .ok f := by
  cases p with
  | notPython => exact ⟨_, rfl⟩
  | failed t => exact ⟨_, rfl⟩
  | syntaxError e => exact ⟨_, rfl⟩
  | ok node toks =>
    obtain ⟨h1, h2, h3⟩ := ha node toks rfl
    obtain ⟨s, hs⟩ := C36_visit (Env.make c h path toks) node h1 h2 ht S.init
    have hes := h3.strings hs
    have k2 := (C32_raises_std (env := Env.make c h path toks) (s := s) rfl ht hes).2
    unfold processIndividual analyse
    dsimp only
    rw [badPath_iff.mpr hg, hs]
    dsimp only
    cases hm : minimumVersions (Env.make c h path toks) s with
    | ok x => exact ⟨_, rfl⟩
    | error e =>
      obtain ⟨msg, rfl⟩ := k2 e hm
      exact ⟨_, rfl⟩

/-- The files the program analyses. -/
def AnalysedPath (w : World) (p : Vermin.Parsed) (q : List Char) : Prop :=
  ∃ d a, Props.Visited w.fs (mainOpts p.cfg) ((p.paths.map String.toList).map (Used w.fs (mainOpts p.cfg))) d a ∧
    Taken w.fs (mainOpts p.cfg) d a q

theorem localConfig_same (c : Config) : (localConfig c).format = c.format ∧ (localConfig c).onlyShowViolations = c.onlyShowViolations ∧
    (localConfig c).targets = c.targets ∧ (localConfig c).pessimistic = c.pessimistic := by
  unfold localConfig; split <;> exact ⟨rfl, rfl, rfl, rfl⟩

theorem results_nonempty {cfg : Config} {versions : Bool} {l : List (Option ProcRes)} {out : List String}
    (h : mainRun cfg versions (okOuts l) = .ok (out, 0)) : l ≠ [] := by
  rintro rfl
  rw [show okOuts [] = [] from rfl, C11_no_files] at h
  injection h with h
  injection h with _ h
  cases h

/-- With exit code 0 the combined minimum is satisfied by each target.  In violations mode results must be `Firm`, as results of files are unless a syntax
error is taken pessimistically. -/
theorem exit_satisfies (cfg : Config) (versions : Bool) (l : List (Option ProcRes)) {out : List String}
    (h : mainRun cfg versions (okOuts l) = .ok (out, 0))
    (hmaj : ∀ m ∈ fileMins l, Majored m) (hviol : cfg.onlyShowViolations = true → ∀ m ∈ fileMins l, Firm m)
    (ht : OnePerMajor cfg.targets) (hv : ∀ t ∈ cfg.targets, t.2.major = 2 ∨ t.2.major = 3) :
    ∀ t ∈ cfg.targets, Satisfies t.2 (processed (localConfig cfg) l).mins := by
  intro t htm
  have hM := majored_processed (cfg := localConfig cfg) hmaj
  obtain ⟨rep, hr, -⟩ := mainRun_okOuts (results_nonempty h) h
  have hu : Ver.zero ∉ (processed (localConfig cfg) l).uniqueVersions := by
    intro hz
    have := ((C21_range (localConfig cfg) l).2 _).mp hz
    exact absurd this.1 (by decide)
  obtain ⟨o, c, hr', -, hiff⟩ := C11_targets_iff cfg versions _ hu hM ht
  rw [hr'] at hr
  simp only [Except.ok.injEq, Prod.mk.injEq] at hr
  have hc : ¬ c = 1 := by rw [hr.2]; decide
  rw [hiff] at hc
  by_cases hi : cfg.onlyShowViolations = true ∧ Inconclusive (processed (localConfig cfg) l).mins
  · have hF : Firm (processed (localConfig cfg) l).mins := firm_kept.processed (hviol hi.1)
    obtain ⟨⟨v, hvc⟩, hz⟩ := hi.2
    have hle : ∀ v : Ver, Ver.zero ≤ v := by
      intro v; show Ver.zero.le v; unfold Ver.le Ver.zero; simp only; omega
    generalize (processed (localConfig cfg) l).mins = M at *
    have h2 : M.py2 ≠ none := by
      intro h2
      rcases hvc with hvc | hvc
      · rw [h2] at hvc; cases hvc
      · rw [hz v (.inr hvc)] at hvc; exact hF.1.2 ⟨h2, hvc⟩
    have h3 : M.py3 ≠ none := by
      intro h3
      rcases hvc with hvc | hvc
      · rw [hz v (.inl hvc)] at hvc; exact hF.2 ⟨h3, hvc⟩
      · rw [h3] at hvc; cases hvc
    rcases hv t htm with hv2 | hv3
    · obtain ⟨v, hv2'⟩ := Option.ne_none_iff_exists'.mp h2
      exact .inl ⟨hv2, v, hv2', by rw [hz v (.inl hv2')]; exact hle _⟩
    · obtain ⟨v, hv3'⟩ := Option.ne_none_iff_exists'.mp h3
      exact .inr ⟨hv3, v, hv3', by rw [hz v (.inr hv3')]; exact hle _⟩
  · have : ∃ v, Component (processed (localConfig cfg) l).mins v ∧ v.major = t.2.major ∧ Meets v t := by
      refine Classical.byContradiction fun hcon => hc ⟨hi, t, htm, fun v hvc hvm hmeet => hcon ⟨v, hvc, hvm, hmeet⟩⟩
    obtain ⟨v, hvc, hvm, hmeet⟩ := this
    have hle : v ≤ t.2 := by
      unfold Meets at hmeet
      split at hmeet
      · rw [hmeet]; show t.2.le t.2; unfold Ver.le; omega
      · exact hmeet
    have hz : Ver.zero.major = 0 := rfl
    rcases hv t htm with h2 | h3
    · rcases hvc with hvc | hvc
      · exact .inl ⟨h2, v, hvc, hle⟩
      · rcases hM.2 v hvc with h' | h'
        · rw [h'] at hvm; omega
        · omega
    · rcases hvc with hvc | hvc
      · rcases hM.1 v hvc with h' | h'
        · rw [h'] at hvm; omega
        · omega
      · exact .inr ⟨h3, v, hvc, hle⟩

/-- **C20 (partial).** For mutually compatible files, or with incompatibilities ignored, exit code 0 means that every file is
satisfied by each target.  Missing: incompatible files, where it is false, see `C20_false`. -/
theorem C20_mutual_partial (cfg : Config) (versions : Bool) (l : List (Option ProcRes)) {out : List String}
    (h : mainRun cfg versions (okOuts l) = .ok (out, 0)) (hmut : Mutual (localConfig cfg) l)
    (hmaj : ∀ m ∈ fileMins l, Majored m) (hviol : cfg.onlyShowViolations = true → ∀ m ∈ fileMins l, Firm m)
    (ht : OnePerMajor cfg.targets) (hv : ∀ t ∈ cfg.targets, t.2.major = 2 ∨ t.2.major = 3) :
    ∀ t ∈ cfg.targets, ∀ m ∈ fileMins l, Satisfies t.2 m := fun t htm =>
  ((C17_overall_minimum hmut t.2).mp (exit_satisfies cfg versions l h hmaj hviol ht hv t htm)).2

theorem out_kept (cfg : Config) (pre post : List (Option ProcRes)) : ∃ o, (processed cfg (pre ++ post)).out = (processed cfg pre).out ++ o := by
  have key : ∀ (l : List (Option ProcRes)) (a : ProcAcc), ∃ o, (l.foldl (procStep cfg) a).out = a.out ++ o := by
    intro l
    induction l with
    | nil => exact fun a => ⟨[], (List.append_nil _).symm⟩
    | cons r l ih =>
      intro a
      obtain ⟨o, ho⟩ := ih (procStep cfg a r)
      rw [List.foldl_cons, ho]
      suffices ∃ o', (procStep cfg a r).out = a.out ++ o' by
        obtain ⟨o', h'⟩ := this
        exact ⟨o' ++ o, by rw [h', List.append_assoc]⟩
      unfold procStep
      cases r with
      | none => exact ⟨[], (List.append_nil _).symm⟩
      | some f =>
        cases hm : f.mins with
        | none => simp only [hm]; exact ⟨_, rfl⟩
        | some m =>
          simp only [hm]
          cases combineVersions cfg.ignoreIncomp a.mins m with
          | ok x => exact ⟨_, rfl⟩
          | error e => exact ⟨_, List.append_assoc _ _ _⟩
  obtain ⟨o, ho⟩ := key post (pre.foldl (procStep cfg) ProcAcc.init)
  exact ⟨o, by show ((pre ++ post).foldl (procStep cfg) ProcAcc.init).out = _; rw [List.foldl_append]; exact ho⟩

/-- **C20 (partial).** For all collections of files, exit code 0 means that every file is satisfied by each target, or that the output names it as a file
with incompatible versions.  Missing: that this does not count. -/
theorem C20_named_partial (cfg : Config) (versions : Bool) (l : List (Option ProcRes)) {out : List String}
    (h : mainRun cfg versions (okOuts l) = .ok (out, 0)) (hq : cfg.quiet = false)
    (hmaj : ∀ m ∈ fileMins l, Majored m) (hviol : cfg.onlyShowViolations = true → ∀ m ∈ fileMins l, Firm m)
    (ht : OnePerMajor cfg.targets) (hv : ∀ t ∈ cfg.targets, t.2.major = 2 ∨ t.2.major = 3) :
    ∀ f m, some f ∈ l → f.mins = some m → (∀ t ∈ cfg.targets, Satisfies t.2 m) ∨ incompatibleLine f ∈ out := by
  intro f m hf hm
  obtain ⟨pre, post, rfl⟩ := List.append_of_mem hf
  by_cases hc : Clashes (localConfig cfg) (processed (localConfig cfg) pre).mins (some f)
  · right
    obtain ⟨rep, -, rfl⟩ := mainRun_okOuts (results_nonempty h) h
    obtain ⟨g, hg, h' | ⟨m', hm', hi, hcon⟩⟩ := hc
    · cases hg; rw [hm] at h'; cases h'
    · cases hg
      rw [hm] at hm'; cases hm'
      obtain ⟨o, ho⟩ := out_kept (localConfig cfg) (pre ++ [some f]) post
      rw [List.append_assoc] at ho
      have hq' : (localConfig cfg).quiet = false := by unfold localConfig; split <;> first | exact hq | rfl
      rw [show pre ++ some f :: post = pre ++ ([some f] ++ post) from rfl, ho, C61_result _ _ _ _ hm]
      simp [hi, hq', hcon]
  · exact .inl fun t htm => ((C17_accepted _ _ _).mp (exit_satisfies cfg versions _ h hmaj hviol ht hv t htm)).2 f m ⟨pre, post, rfl, hm, hc⟩

/-- The case of `C20_false`, with what is printed. -/
theorem C20_named_witness : ∃ out, mainRun { Config.init 1 with targets := [(false, ⟨2, 7⟩)] } false
    (okOuts [some (plainFile "a" ⟨some ⟨2, 0⟩, none⟩), some (plainFile "b" ⟨none, some ⟨3, 0⟩⟩)]) = .ok (out, 0) ∧
    "File with incompatible versions: b\n" ∈ out := ⟨_, rfl, by decide +kernel⟩

/-! ### The parts of a run -/

theorem program_parts {w : World} {argv : List String} {p : Vermin.Parsed}
    (hargs : parseArgs w.args argv (Config.init w.args.cpus) = .ok p) :
    (∃ e, program w argv = .raised e ∧ mainPaths w.fs p.cfg w.rounds (p.paths.map String.toList) = .error e) ∨
    (program w argv = .unfinished ∧ mainPaths w.fs p.cfg w.rounds (p.paths.map String.toList) = .ok none) ∨
    ∃ paths, mainPaths w.fs p.cfg w.rounds (p.paths.map String.toList) = .ok (some paths) ∧
      ((∃ e, program w argv = .raised e ∧ mainRun p.cfg p.versions ((w.results p.cfg paths).map Prod.snd) = .error e) ∨
       ∃ out code, mainRun p.cfg p.versions ((w.results p.cfg paths).map Prod.snd) = .ok (out, code) ∧
        program w argv = .exit ((w.results p.cfg paths).map Prod.fst)
          (progress p.cfg "Detecting python files.." ++
            (if paths.length = 0 then [] else progress p.cfg (analyzing p.cfg paths.length)) ++ out) code) := by
  unfold program
  rw [hargs]
  dsimp only
  cases hm : mainPaths w.fs p.cfg w.rounds (p.paths.map String.toList) with
  | error e => exact .inl ⟨e, rfl, rfl⟩
  | ok o =>
    cases o with
    | none => exact .inr (.inl ⟨rfl, rfl⟩)
    | some paths =>
      refine .inr (.inr ⟨paths, rfl, ?_⟩)
      dsimp only
      cases hr : mainRun p.cfg p.versions ((w.results p.cfg paths).map Prod.snd) with
      | error e => exact .inl ⟨e, rfl, rfl⟩
      | ok x => exact .inr ⟨x.1, x.2, rfl, rfl⟩

/-- Violations are only shown with targets. -/
theorem parsed_targets {env : ArgEnv} (he : RealPaths env) {args : List String} {config : Config} {p : Vermin.Parsed}
    (h : parseArgs env args config = .ok p) : p.cfg.onlyShowViolations = true → p.cfg.targets ≠ [] := by
  obtain ⟨c0, st, -, -, hf⟩ := parse_inv he h
  obtain ⟨c1, -, hv, h2, -⟩ := finish_cfg hf
  rw [h2]
  exact hv

theorem mainPaths_error {fs : FS} (hw : startsWith ['/'] fs.cwd = true) {cfg : Config} {n : Nat} {paths : List (List Char)} {e : Err}
    (h : mainPaths fs cfg n paths = .error e) :
    [] ∈ paths ∧ cfg.analyzeHidden = false ∧ cfg.makePathsAbsolute = false ∧ e = .indexError := by
  unfold mainPaths at h
  have key : detectPaths fs (mainOpts cfg) n (if cfg.makePathsAbsolute then paths.map (abspath fs.cwd) else paths) = .error e := by
    split at h
    · rename_i e' he; injection h with h; rw [he, h]
    · cases h
    · cases h
  obtain ⟨h1, h2, h3⟩ := C44_error key
  cases ha : cfg.makePathsAbsolute with
  | false => rw [ha] at h1; exact ⟨h1, h2, rfl, h3⟩
  | true =>
    rw [ha] at h1
    obtain ⟨q, -, hq⟩ := List.mem_map.mp h1
    have := abspath_starts (p := q) hw
    rw [hq] at this; cases this

/-- The results of files that can be analysed. -/
theorem results_ok {w : World} (hw : startsWith ['/'] w.fs.cwd = true) (hr : RealPaths w.args) {argv : List String} {p : Vermin.Parsed}
    (hargs : parseArgs w.args argv (Config.init w.args.cpus) = .ok p)
    (ha : ∀ q, AnalysedPath w p q → Analysable (localConfig p.cfg) (w.host q) (String.ofList q) (w.parse q)) {paths : List (List Char)}
    (hp : mainPaths w.fs p.cfg w.rounds (p.paths.map String.toList) = .ok (some paths)) {q : List Char} (hq : q ∈ paths) :
    ∃ f, (processIndividual (localConfig p.cfg) (w.host q) (String.ofList q) (w.parse q)).2 = .ok f := by
  obtain ⟨e1, e2, e3, -⟩ := localConfig_same p.cfg
  refine file_ok (ha q (((C44_main hp).2.2 q).mp hq)) ?_ ?_
  · intro hf
    rw [e1] at hf
    rw [String.toList_ofList]
    exact C44_parsable hp hf hw q hq
  · rw [e2, e3]; exact parsed_targets hr hargs

/-- **C65.** With files that can be analysed the program never ends with an exception, except IndexError for an empty path while
hidden files are not looked at and paths are not made absolute. -/
theorem C65_no_crash {w : World} (hw : startsWith ['/'] w.fs.cwd = true) (hr : RealPaths w.args) {argv : List String}
    {p : Vermin.Parsed} (hargs : parseArgs w.args argv (Config.init w.args.cpus) = .ok p)
    (ha : ∀ q, AnalysedPath w p q → Analysable (localConfig p.cfg) (w.host q) (String.ofList q) (w.parse q)) {e : Err}
    (h : program w argv = .raised e) :
    "" ∈ p.paths ∧ p.cfg.analyzeHidden = false ∧ p.cfg.makePathsAbsolute = false ∧ e = .indexError := by
  rcases program_parts hargs with ⟨e', h1, h2⟩ | ⟨h1, -⟩ | ⟨paths, hp, ⟨e', h1, h2⟩ | ⟨_, _, _, h1⟩⟩
  · rw [h] at h1; injection h1 with h1; subst h1
    obtain ⟨k1, k2⟩ := mainPaths_error hw h2
    obtain ⟨q, hq, hq'⟩ := List.mem_map.mp k1
    have : q = "" := String.toList_inj.mp hq'
    exact ⟨this ▸ hq, k2⟩
  · rw [h] at h1; cases h1
  · have := C06_main_total _ _ _ h2
    obtain ⟨x, hx, hx'⟩ := List.mem_map.mp this
    obtain ⟨q, hq, rfl⟩ := List.mem_map.mp hx
    obtain ⟨f, hf⟩ := results_ok hw hr hargs ha hp hq
    rw [hf] at hx'; cases hx'
  · rw [h] at h1; cases h1

/-! ### What exit code 0 certifies -/

/-- What a file requires: the findings in it, or what a syntax error tells. -/
inductive FileReq (w : World) (cfg : Config) (q : List Char) : Req → Prop
  | finding {node toks s r} : w.parse q = .ok node toks → Visits cfg (w.host q) (String.ofList q) node toks s →
      Requires (Env.make cfg (w.host q) (String.ofList q) toks) s r → FileReq w cfg q r
  | syntaxError {e} : w.parse q = .syntaxError e → FileReq w cfg q (detectSyntaxError cfg (w.host q).major e).2

/-- What holds of single findings and of combinations holds of the minimum versions of a file. -/
theorem file_kept {P : Req → Prop} (hP : Kept P) {c : Config} {h : Host} {path : String} {p : ParseOut} {f : ProcRes}
    (hs : ∀ e, p = .syntaxError e → P (detectSyntaxError c h.major e).2)
    (hr : (processIndividual c h path p).2 = .ok (some f)) : ∀ m, f.mins = some m → P m := by
  cases p with
  | notPython => cases hr
  | failed t =>
    injection hr with hr
    injection hr with hr
    subst hr
    exact fun m hm => by injection hm with hm; rw [← hm]; exact hP.unknown
  | syntaxError e =>
    injection hr with hr
    injection hr with hr
    subst hr
    exact fun m h' => by injection h' with h'; rw [← h']; exact hs e rfl
  | ok node toks =>
    intro m hm
    obtain ⟨_, _, h3⟩ := processIndividual_parsed (out := (processIndividual c h path (.ok node toks)).1) (by rw [← hr])
    unfold analyse at h3
    cases ht : tour (Env.make c h path toks) node S.init with
    | error e => rw [ht] at h3; cases h3
    | ok s =>
      rw [ht] at h3
      dsimp only at h3
      cases hv : minimumVersions (Env.make c h path toks) s with
      | error e =>
        rw [hv] at h3
        cases e <;> first
          | (cases h3; done)
          | (injection h3 with h3; injection h3 with h3; subst h3; cases hm)
      | ok x =>
        rw [hv] at h3
        injection h3 with h3
        injection h3 with h3
        subst h3
        injection hm with hm
        rw [← hm]
        exact hP.minimum rfl hv

theorem syntaxError_sane (c : Config) (major : Nat) (e : SynErr) : Sane (detectSyntaxError c major e).2 := by
  unfold detectSyntaxError
  dsimp only
  split
  · exact .inl nofun
  · split
    · exact .inr nofun
    · show Sane (synMins c major)
      unfold synMins
      split
      · split
        · exact .inr nofun
        · exact .inl nofun
      · exact .inl nofun

theorem syntaxError_firm {c : Config} (hc : c.pessimistic = false) {major : Nat} (hm : major ≠ 2) (e : SynErr) :
    Firm (detectSyntaxError c major e).2 := by
  refine ⟨syntaxError_usual hm e, ?_⟩
  unfold detectSyntaxError
  dsimp only
  split
  · rintro ⟨-, h⟩
    injection h with h
    cases h
  · split
    · rintro ⟨-, h⟩; cases h
    · show ¬ Bare2 (synMins c major)
      unfold synMins
      rw [hc]
      rintro ⟨h, -⟩; cases h

theorem FileReq.sane {w : World} {cfg : Config} {q : List Char} {r : Req} (h : FileReq w cfg q r) : Sane r := by
  cases h with
  | finding _ _ h => exact requires_sane rfl h
  | syntaxError => exact syntaxError_sane _ _ _

theorem satisfies_unknown (v : Ver) : Satisfies v Req.unknown ↔ v.major = 2 ∨ v.major = 3 := by
  have hle : Ver.zero ≤ v := by show Ver.zero.le v; unfold Ver.le Ver.zero; simp only; omega
  constructor
  · rintro (⟨h, -⟩ | ⟨h, -⟩)
    · exact .inl h
    · exact .inr h
  · rintro (h | h)
    · exact .inl ⟨h, _, rfl, hle⟩
    · exact .inr ⟨h, _, rfl, hle⟩

/-- `m` is the combination of the requirements `R`: each part is "incompatible" iff it is for one of them, and the largest of all
versions otherwise (0.0 if there are none). -/
structure Overall (R : Req → Prop) (m : Req) : Prop where
  none2 : m.py2 = none ↔ ∃ r, R r ∧ r.py2 = none
  none3 : m.py3 = none ↔ ∃ r, R r ∧ r.py3 = none
  max2 : ∀ v, m.py2 = some v → (v = ⟨0, 0⟩ ∨ ∃ r, R r ∧ r.py2 = some v) ∧ ∀ r, R r → ∀ x, r.py2 = some x → x ≤ v
  max3 : ∀ v, m.py3 = some v → (v = ⟨0, 0⟩ ∨ ∃ r, R r ∧ r.py3 = some v) ∧ ∀ r, R r → ∀ x, r.py3 = some x → x ≤ v

theorem overall_joinAll {R : Req → Prop} {l : List Req} (h : ∀ r, R r ↔ r ∈ l) : Overall R (joinAll Req.unknown l) where
  none2 := by
    rw [joinAll_py2]
    constructor
    · rintro (h' | ⟨r, hr, h'⟩)
      · cases h'
      · exact ⟨r, (h r).mpr hr, h'⟩
    · rintro ⟨r, hr, h'⟩; exact .inr ⟨r, (h r).mp hr, h'⟩
  none3 := by
    rw [joinAll_py3]
    constructor
    · rintro (h' | ⟨r, hr, h'⟩)
      · cases h'
      · exact ⟨r, (h r).mpr hr, h'⟩
    · rintro ⟨r, hr, h'⟩; exact .inr ⟨r, (h r).mp hr, h'⟩
  max2 v hv := by
    obtain ⟨h1, -, h3⟩ := joinAll_max2 _ _ _ hv
    refine ⟨?_, fun r hr => h3 r ((h r).mp hr)⟩
    rcases h1 with h1 | ⟨r, hr, h1⟩
    · left; injection h1 with h1; exact h1.symm
    · exact .inr ⟨r, (h r).mpr hr, h1⟩
  max3 v hv := by
    obtain ⟨h1, -, h3⟩ := joinAll_max3 _ _ _ hv
    refine ⟨?_, fun r hr => h3 r ((h r).mp hr)⟩
    rcases h1 with h1 | ⟨r, hr, h1⟩
    · left; injection h1 with h1; exact h1.symm
    · exact .inr ⟨r, (h r).mpr hr, h1⟩

theorem ver_zero_le (v : Ver) : (⟨0, 0⟩ : Ver) ≤ v := by show Ver.le _ _; unfold Ver.le; simp only; omega

/-- Combinations of combinations. -/
theorem Overall.join {R : Req → Prop} {M : Req → (Req → Prop) → Prop} {m : Req} (hm : Overall (fun a => ∃ Q, M a Q) m)
    (h1 : ∀ a Q, M a Q → Overall Q a) (hR : ∀ r, R r ↔ ∃ a Q, M a Q ∧ Q r) : Overall R m where
  none2 := by
    rw [hm.none2]
    constructor
    · rintro ⟨a, ⟨Q, hQ⟩, h⟩
      obtain ⟨r, hr, h⟩ := (h1 a Q hQ).none2.mp h
      exact ⟨r, (hR r).mpr ⟨a, Q, hQ, hr⟩, h⟩
    · rintro ⟨r, hr, h⟩
      obtain ⟨a, Q, hQ, hr⟩ := (hR r).mp hr
      exact ⟨a, ⟨Q, hQ⟩, (h1 a Q hQ).none2.mpr ⟨r, hr, h⟩⟩
  none3 := by
    rw [hm.none3]
    constructor
    · rintro ⟨a, ⟨Q, hQ⟩, h⟩
      obtain ⟨r, hr, h⟩ := (h1 a Q hQ).none3.mp h
      exact ⟨r, (hR r).mpr ⟨a, Q, hQ, hr⟩, h⟩
    · rintro ⟨r, hr, h⟩
      obtain ⟨a, Q, hQ, hr⟩ := (hR r).mp hr
      exact ⟨a, ⟨Q, hQ⟩, (h1 a Q hQ).none3.mpr ⟨r, hr, h⟩⟩
  max2 v hv := by
    obtain ⟨k1, k2⟩ := hm.max2 v hv
    refine ⟨?_, fun r hr x hx => ?_⟩
    · rcases k1 with k1 | ⟨a, ⟨Q, hQ⟩, k1⟩
      · exact .inl k1
      · rcases ((h1 a Q hQ).max2 v k1).1 with k | ⟨r, hr, k⟩
        · exact .inl k
        · exact .inr ⟨r, (hR r).mpr ⟨a, Q, hQ, hr⟩, k⟩
    · obtain ⟨a, Q, hQ, hr⟩ := (hR r).mp hr
      cases ha : a.py2 with
      | none => rw [(hm.none2.mpr ⟨a, ⟨Q, hQ⟩, ha⟩)] at hv; cases hv
      | some y => exact Ver.le_trans (((h1 a Q hQ).max2 y ha).2 r hr x hx) (k2 a ⟨Q, hQ⟩ y ha)
  max3 v hv := by
    obtain ⟨k1, k2⟩ := hm.max3 v hv
    refine ⟨?_, fun r hr x hx => ?_⟩
    · rcases k1 with k1 | ⟨a, ⟨Q, hQ⟩, k1⟩
      · exact .inl k1
      · rcases ((h1 a Q hQ).max3 v k1).1 with k | ⟨r, hr, k⟩
        · exact .inl k
        · exact .inr ⟨r, (hR r).mpr ⟨a, Q, hQ, hr⟩, k⟩
    · obtain ⟨a, Q, hQ, hr⟩ := (hR r).mp hr
      cases ha : a.py3 with
      | none => rw [(hm.none3.mpr ⟨a, ⟨Q, hQ⟩, ha⟩)] at hv; cases hv
      | some y => exact Ver.le_trans (((h1 a Q hQ).max3 y ha).2 r hr x hx) (k2 a ⟨Q, hQ⟩ y ha)

/-- An interpreter satisfies a combination iff it satisfies all requirements. -/
theorem Overall.satisfies {R : Req → Prop} {m : Req} (h : Overall R m) (v : Ver) :
    Satisfies v m ↔ (v.major = 2 ∨ v.major = 3) ∧ ∀ r, R r → Satisfies v r := by
  constructor
  · rintro (⟨hv, x, hx, hle⟩ | ⟨hv, x, hx, hle⟩)
    · refine ⟨.inl hv, fun r hr => .inl ⟨hv, ?_⟩⟩
      cases hr2 : r.py2 with
      | none => rw [h.none2.mpr ⟨r, hr, hr2⟩] at hx; cases hx
      | some y => exact ⟨y, rfl, Ver.le_trans ((h.max2 x hx).2 r hr y hr2) hle⟩
    · refine ⟨.inr hv, fun r hr => .inr ⟨hv, ?_⟩⟩
      cases hr2 : r.py3 with
      | none => rw [h.none3.mpr ⟨r, hr, hr2⟩] at hx; cases hx
      | some y => exact ⟨y, rfl, Ver.le_trans ((h.max3 x hx).2 r hr y hr2) hle⟩
  · rintro ⟨hv | hv, hall⟩
    · have hn : m.py2 ≠ none := by
        intro hn
        obtain ⟨r, hr, h2⟩ := h.none2.mp hn
        rcases hall r hr with ⟨-, y, hy, -⟩ | ⟨hv', -⟩
        · rw [h2] at hy; cases hy
        · omega
      obtain ⟨x, hx⟩ := Option.ne_none_iff_exists'.mp hn
      refine .inl ⟨hv, x, hx, ?_⟩
      rcases (h.max2 x hx).1 with rfl | ⟨r, hr, h2⟩
      · exact ver_zero_le v
      · rcases hall r hr with ⟨-, y, hy, hle⟩ | ⟨hv', -⟩
        · rw [h2] at hy; injection hy with hy; rw [hy]; exact hle
        · omega
    · have hn : m.py3 ≠ none := by
        intro hn
        obtain ⟨r, hr, h2⟩ := h.none3.mp hn
        rcases hall r hr with ⟨hv', -⟩ | ⟨-, y, hy, -⟩
        · omega
        · rw [h2] at hy; cases hy
      obtain ⟨x, hx⟩ := Option.ne_none_iff_exists'.mp hn
      refine .inr ⟨hv, x, hx, ?_⟩
      rcases (h.max3 x hx).1 with rfl | ⟨r, hr, h2⟩
      · exact ver_zero_le v
      · rcases hall r hr with ⟨hv', -⟩ | ⟨-, y, hy, hle⟩
        · omega
        · rw [h2] at hy; injection hy with hy; rw [hy]; exact hle

/-- The minimum versions of a file, whatever reading and parsing it yields. -/
theorem file_result {w : World} {cfg : Config} {q : List Char} {f : ProcRes} {m : Req}
    (hr : (processIndividual cfg (w.host q) (String.ofList q) (w.parse q)).2 = .ok (some f)) (hm : f.mins = some m) :
    Overall (FileReq w cfg q) m := by
  cases hp : w.parse q with
  | notPython => rw [hp] at hr; cases hr
  | failed t =>
    rw [hp] at hr
    injection hr with hr
    injection hr with hr
    subst hr
    injection hm with hm
    subst hm
    refine overall_joinAll (l := []) fun r => ⟨fun h => ?_, nofun⟩
    cases h with
    | finding h => rw [hp] at h; cases h
    | syntaxError h => rw [hp] at h; cases h
  | syntaxError e =>
    have hfr := FileReq.syntaxError (w := w) (cfg := cfg) hp
    have only : ∀ r, FileReq w cfg q r → r = (detectSyntaxError cfg (w.host q).major e).2 := by
      intro r h
      cases h with
      | finding h => rw [hp] at h; cases h
      | syntaxError h => rw [hp] at h; injection h with h; rw [← h]
    rw [hp] at hr
    injection hr with hr
    injection hr with hr
    subst hr
    have hm : some (detectSyntaxError cfg (w.host q).major e).2 = some m := hm
    have hm := Option.some.inj hm
    subst hm
    refine ⟨⟨fun h => ⟨_, hfr, h⟩, fun ⟨r, h1, h2⟩ => only r h1 ▸ h2⟩, ⟨fun h => ⟨_, hfr, h⟩, fun ⟨r, h1, h2⟩ => only r h1 ▸ h2⟩,
      fun v hv => ⟨.inr ⟨_, hfr, hv⟩, fun r hr x hx => ?_⟩, fun v hv => ⟨.inr ⟨_, hfr, hv⟩, fun r hr x hx => ?_⟩⟩
    · rw [only r hr, hv] at hx; injection hx with hx; rw [hx]; exact Ver.le_refl _
    · rw [only r hr, hv] at hx; injection hx with hx; rw [hx]; exact Ver.le_refl _
  | ok node toks =>
    rw [hp] at hr
    obtain ⟨_, _, h3⟩ := processIndividual_parsed (out := (processIndividual cfg (w.host q) (String.ofList q) (.ok node toks)).1) (by rw [← hr])
    unfold analyse at h3
    cases ht : tour (Env.make cfg (w.host q) (String.ofList q) toks) node S.init with
    | error e => rw [ht] at h3; cases h3
    | ok s =>
      rw [ht] at h3
      dsimp only at h3
      cases hv : minimumVersions (Env.make cfg (w.host q) (String.ofList q) toks) s with
      | error e =>
        rw [hv] at h3
        cases e <;> first
          | (cases h3; done)
          | (injection h3 with h3; injection h3 with h3; subst h3; cases hm)
      | ok x =>
        rw [hv] at h3
        injection h3 with h3
        injection h3 with h3
        subst h3
        injection hm with hm
        subst hm
        rw [combineFrom_ok (minimum_combine hv)]
        refine overall_joinAll fun r => ⟨fun h => ?_, fun hr => .finding hp ht ((mem_allReqs _ _ _).mp hr)⟩
        cases h with
        | finding h1 h2 h3 =>
          rw [hp] at h1
          injection h1 with h1 h1'
          subst h1; subst h1'
          have h2 : tour _ _ _ = _ := h2
          rw [ht] at h2
          injection h2 with h2
          subst h2
          exact (mem_allReqs _ _ _).mpr h3
        | syntaxError h => rw [hp] at h; cases h

/-- No analysed file needs Python 2 while one needs Python 3. -/
def Compatible (w : World) (p : Vermin.Parsed) : Prop :=
  ¬ ((∃ q r, AnalysedPath w p q ∧ FileReq w (localConfig p.cfg) q r ∧ Py2Only r) ∧
     ∃ q r, AnalysedPath w p q ∧ FileReq w (localConfig p.cfg) q r ∧ Py3Only r)

/-- The results of files without conflicts. -/
theorem file_compatible {w : World} {p : Vermin.Parsed} (hc : p.cfg.ignoreIncomp = true ∨ Compatible w p) {q : List Char}
    (hq : AnalysedPath w p q) {f : ProcRes}
    (hr : (processIndividual (localConfig p.cfg) (w.host q) (String.ofList q) (w.parse q)).2 = .ok (some f)) : ∃ m, f.mins = some m := by
  cases hm : f.mins with
  | some m => exact ⟨m, rfl⟩
  | none =>
    exfalso
    cases hp : w.parse q with
    | notPython => rw [hp] at hr; cases hr
    | failed t => rw [hp] at hr; injection hr with hr; injection hr with hr; subst hr; cases hm
    | syntaxError e => rw [hp] at hr; injection hr with hr; injection hr with hr; subst hr; cases hm
    | ok node toks =>
      rw [hp] at hr
      obtain ⟨-, h2, s, hs, ⟨a, ha, ha'⟩, b, hb, hb'⟩ := C63_incompatible
        (out := (processIndividual (localConfig p.cfg) (w.host q) (String.ofList q) (.ok node toks)).1) (by rw [← hr]) hm
      rcases hc with hc | hc
      · unfold localConfig at h2
        split at h2 <;> (have h2 : p.cfg.ignoreIncomp = false := h2; rw [hc] at h2; cases h2)
      · exact hc ⟨⟨q, a, hq, .finding hp hs ha, ha'⟩, q, b, hq, .finding hp hs hb, hb'⟩

/-- Surroundings of a run: Python 3, an absolute working directory, paths that are not empty, and config files whose targets are
versions of Python 2 or 3 (as for all config files, `config_targets`). -/
structure Surroundings (w : World) : Prop where
  cwd : startsWith ['/'] w.fs.cwd = true
  paths : RealPaths w.args
  python3 : ∀ q, (w.host q).major = 3
  config : ∀ q c, w.args.parseFile q = some c → ∀ t ∈ c.targets, t.2.major = 2 ∨ t.2.major = 3

/-- Targets of config files are versions of Python 2 or 3. -/
theorem config_targets {cpus : Nat} {valid : String → Bool} {read : Option Ini} {c : Config}
    (h : Vermin.parseFile cpus valid read = some c) : ∀ t ∈ c.targets, t.2.major = 2 ∨ t.2.major = 3 := by
  obtain ⟨_, _, -, -, -, -, -, -, -, -, -, -, -, -, -, -, -, -, -, -, -, ⟨l, ts, -, h1, h2, h3, -⟩, -⟩ := C49_parsed h
  intro t ht
  have ht : some t ∈ l.map parseTarget := by rw [h1]; exact List.mem_map_of_mem (h3.mem_iff.mp ht)
  obtain ⟨x, -, hx⟩ := List.mem_map.mp ht
  exact C07_range hx

theorem addTarget_majors {c : Config} {x : String} (h : ∀ t ∈ c.targets, t.2.major = 2 ∨ t.2.major = 3) :
    ∀ t ∈ (c.addTarget (.text x)).1.targets, t.2.major = 2 ∨ t.2.major = 3 := by
  unfold Config.addTarget
  split
  · exact h
  · split <;> try exact h
    · rename_i heq; cases heq
    · rename_i heq; cases heq
    · rename_i heq
      injection heq with heq
      subst heq
      split
      · exact h
      · rename_i t ht
        intro t' ht'
        unfold Config.pushTarget at ht'
        have ht' := mem_sort.mp ht'
        rcases List.mem_append.mp ht' with h' | h'
        · exact h t' h'
        · rw [List.mem_singleton.mp h']; exact C07_range ht

theorem argStep_majors {env : ArgEnv} {a : String} {n : Option String} {st st' : ArgState} (h : argStep env a n st = .ok st')
    (hl : ∀ t ∈ st.cfg.targets, t.2.major = 2 ∨ t.2.major = 3) : ∀ t ∈ st'.cfg.targets, t.2.major = 2 ∨ t.2.major = 3 := by
  unfold argStep at h
  split at h
  all_goals (repeat' split at h)
  all_goals first
    | (cases h; done)
    | (injection h with h; rw [← h]; first
        | exact hl
        | (intro t ht; cases ht; done)
        | (rw [addExclusionLines_targets]; exact hl)
        | skip)
  · rename_i s _ _; cases s <;> exact hl
  · rename_i c heq
    have := addTarget_majors (x := argValue a) hl
    rw [heq] at this; exact this
  · rename_i c heq
    unfold Config.addBackport at heq
    split at heq
    · injection heq with h1 h2; rw [← h1]; exact hl
    · injection heq with h1 h2; cases h2
  · rename_i c heq
    unfold Config.enableFeature at heq
    split at heq
    · injection heq with h1 h2; rw [← h1]; exact hl
    · injection heq with h1 h2; cases h2

/-- Every target of a run is a version of Python 2 or 3. -/
theorem parsed_majors {w : World} (hw : Surroundings w) {argv : List String} {p : Vermin.Parsed}
    (h : parseArgs w.args argv (Config.init w.args.cpus) = .ok p) : ∀ t ∈ p.cfg.targets, t.2.major = 2 ∨ t.2.major = 3 := by
  obtain ⟨c0, st, hs, hl, hf⟩ := parse_inv hw.paths h
  obtain ⟨c1, h1, -, h2, -⟩ := finish_cfg hf
  have h0 : ∀ t ∈ c0.targets, t.2.major = 2 ∨ t.2.major = 3 := by
    obtain ⟨r, -, hr⟩ := hs
    cases r with
    | none => rw [hr]; exact nofun
    | some q =>
      obtain ⟨f, hf, rfl⟩ := hr
      have := hw.config q f hf
      unfold Config.overrideFrom
      cases f.format <;> exact this
  have hst : ∀ t ∈ st.cfg.targets, t.2.major = 2 ∨ t.2.major = 3 :=
    argLoop_inv (P := fun s => ∀ t ∈ s.cfg.targets, t.2.major = 2 ∨ t.2.major = 3) hl (fun a _ n s s' hs hp => argStep_majors hs hp) h0
  rw [h2]
  show ∀ t ∈ c1.targets, _
  rcases h1 with ⟨rfl, -⟩ | ⟨f, -, rfl⟩
  · exact hst
  · cases f <;> exact hst

/-- The results of a run as a list, if none is an exception. -/
theorem results_list {w : World} {cfg : Config} {paths : List (List Char)}
    (h : ∀ q ∈ paths, ∃ f, (processIndividual (localConfig cfg) (w.host q) (String.ofList q) (w.parse q)).2 = .ok f) :
    ∃ l, (w.results cfg paths).map Prod.snd = okOuts l ∧
      (∀ q ∈ paths, ∃ x ∈ l, (processIndividual (localConfig cfg) (w.host q) (String.ofList q) (w.parse q)).2 = .ok x) ∧
      ∀ x ∈ l, ∃ q ∈ paths, (processIndividual (localConfig cfg) (w.host q) (String.ofList q) (w.parse q)).2 = .ok x := by
  induction paths with
  | nil => exact ⟨[], rfl, nofun, nofun⟩
  | cons q qs ih =>
    obtain ⟨l, h1, h2, h3⟩ := ih fun q hq => h q (List.mem_cons_of_mem _ hq)
    obtain ⟨f, hf⟩ := h q List.mem_cons_self
    refine ⟨f :: l, ?_, ?_, ?_⟩
    · unfold World.results at *
      rw [List.map_cons, List.map_cons, hf, h1]
      rfl
    · intro q' hq'
      rcases List.mem_cons.mp hq' with rfl | hq'
      · exact ⟨f, List.mem_cons_self, hf⟩
      · obtain ⟨x, hx, hx'⟩ := h2 q' hq'
        exact ⟨x, List.mem_cons_of_mem _ hx, hx'⟩
    · intro x hx
      rcases List.mem_cons.mp hx with rfl | hx
      · exact ⟨q, List.mem_cons_self, hf⟩
      · obtain ⟨q', hq', hx'⟩ := h3 x hx
        exact ⟨q', List.mem_cons_of_mem _ hq', hx'⟩

/-- What the analysed files require. -/
def Required (w : World) (p : Vermin.Parsed) (r : Req) : Prop := ∃ q, AnalysedPath w p q ∧ FileReq w (localConfig p.cfg) q r

/-- A run whose files can be analysed and do not conflict (or incompatibilities are ignored). -/
structure Orderly (w : World) (argv : List String) (p : Vermin.Parsed) : Prop where
  args : parseArgs w.args argv (Config.init w.args.cpus) = .ok p
  files : ∀ q, AnalysedPath w p q → Analysable (localConfig p.cfg) (w.host q) (String.ofList q) (w.parse q)
  compatible : p.cfg.ignoreIncomp = true ∨ Compatible w p

theorem notPython_noReq {w : World} {cfg : Config} {q : List Char} {r : Req}
    (hq : (processIndividual cfg (w.host q) (String.ofList q) (w.parse q)).2 = .ok none) : ¬ FileReq w cfg q r := by
  intro hr
  cases hr with
  | finding h1 =>
    rw [h1] at hq
    unfold processIndividual at hq
    dsimp only at hq
    split at hq
    · cases hq
    · unfold analyse at hq
      split at hq
      · cases hq
      · split at hq <;> cases hq
  | syntaxError h1 => rw [h1] at hq; cases hq

/-- What a run that ends with an exit code is made of, if its files can be analysed. -/
theorem run_made {w : World} (hw : Surroundings w) {argv : List String} {p : Vermin.Parsed}
    (hargs : parseArgs w.args argv (Config.init w.args.cpus) = .ok p)
    (hfiles : ∀ q, AnalysedPath w p q → Analysable (localConfig p.cfg) (w.host q) (String.ofList q) (w.parse q))
    {files : List (List String)} {out : List String} {code : Nat} (h : program w argv = .exit files out code) :
    ∃ paths l out', (∀ q, q ∈ paths ↔ AnalysedPath w p q) ∧ (l = [] ↔ paths = []) ∧
      mainRun p.cfg p.versions (okOuts l) = .ok (out', code) ∧
      out = progress p.cfg "Detecting python files.." ++
        (if paths.length = 0 then [] else progress p.cfg (analyzing p.cfg paths.length)) ++ out' ∧
      (∀ m ∈ fileMins l, Usual m) ∧
      (¬ (p.cfg.pessimistic = true ∧ p.cfg.onlyShowViolations = true) → p.cfg.onlyShowViolations = true → ∀ m ∈ fileMins l, Firm m) ∧
      (∀ f m, Analysed l f m → ∀ b ∈ f.bps, isBackport b = true) ∧
      (∀ q ∈ paths, ∃ x ∈ l, (processIndividual (localConfig p.cfg) (w.host q) (String.ofList q) (w.parse q)).2 = .ok x) ∧
      ∀ x ∈ l, ∃ q ∈ paths, (processIndividual (localConfig p.cfg) (w.host q) (String.ofList q) (w.parse q)).2 = .ok x := by
  rcases program_parts hargs with ⟨e', h1, h2⟩ | ⟨h1, -⟩ | ⟨paths, hp, ⟨e', h1, h2⟩ | ⟨out', code, h2, h1⟩⟩
  · rw [h] at h1; cases h1
  · rw [h] at h1; cases h1
  · rw [h] at h1; cases h1
  rw [h] at h1
  injection h1 with _ hout h1
  subst h1
  have hmem := (C44_main hp).2.2
  obtain ⟨l, hl, l1, l2⟩ := results_list (cfg := p.cfg) (paths := paths) fun q hq => results_ok hw.cwd hw.paths hargs hfiles hp hq
  rw [hl] at h2
  have h3 : ∀ q, (w.host q).major ≠ 2 := fun q => by rw [hw.python3 q]; decide
  have back : ∀ m ∈ fileMins l, ∃ q f, AnalysedPath w p q ∧
      (processIndividual (localConfig p.cfg) (w.host q) (String.ofList q) (w.parse q)).2 = .ok (some f) ∧ f.mins = some m := by
    intro m hm
    obtain ⟨x, hx, hxm⟩ := List.mem_filterMap.mp hm
    obtain ⟨q, hq, hqx⟩ := l2 x hx
    cases x with
    | none => cases hxm
    | some f => exact ⟨q, f, (hmem q).mp hq, hqx, hxm⟩
  refine ⟨paths, l, out', hmem, ?_, h2, hout, ?_, ?_, ?_, l1, l2⟩
  · have := congrArg List.length hl
    simp only [World.results, List.length_map, okOuts] at this
    constructor
    · rintro rfl; exact List.eq_nil_of_length_eq_zero this
    · rintro rfl; exact List.eq_nil_of_length_eq_zero this.symm
  · intro m hm
    obtain ⟨q, f, hq, hf, hfm⟩ := back m hm
    exact file_kept usual_kept (fun e _ => syntaxError_usual (h3 q) e) hf m hfm
  · intro hps hv m hm
    obtain ⟨q, f, hq, hf, hfm⟩ := back m hm
    refine file_kept firm_kept (fun e _ => syntaxError_firm ?_ (h3 q) e) hf m hfm
    rw [(localConfig_same p.cfg).2.2.2]
    cases hpe : p.cfg.pessimistic with
    | false => rfl
    | true => exact absurd ⟨hpe, hv⟩ hps
  · rintro f m ⟨hf, -⟩
    obtain ⟨q, hq, hqx⟩ := l2 _ hf
    exact (C64_files (h3 q) (out := (processIndividual (localConfig p.cfg) (w.host q) (String.ofList q) (w.parse q)).1) (by rw [← hqx])).2

/-- What a run that ends with an exit code is made of. -/
theorem orderly_run {w : World} (hw : Surroundings w) {argv : List String} {p : Vermin.Parsed} (ho : Orderly w argv p)
    {files : List (List String)} {out : List String} {code : Nat} (h : program w argv = .exit files out code) :
    ∃ paths l out', (∀ q, q ∈ paths ↔ AnalysedPath w p q) ∧ (l = [] ↔ paths = []) ∧
      mainRun p.cfg p.versions (okOuts l) = .ok (out', code) ∧
      out = progress p.cfg "Detecting python files.." ++
        (if paths.length = 0 then [] else progress p.cfg (analyzing p.cfg paths.length)) ++ out' ∧
      Mutual (localConfig p.cfg) l ∧ Overall (Required w p) (processed (localConfig p.cfg) l).mins ∧ (∀ m ∈ fileMins l, Usual m) ∧
      (¬ (p.cfg.pessimistic = true ∧ p.cfg.onlyShowViolations = true) → p.cfg.onlyShowViolations = true → ∀ m ∈ fileMins l, Firm m) ∧
      (∀ f m, Analysed l f m → ∀ b ∈ f.bps, isBackport b = true) ∧
      (∀ q ∈ paths, ∃ x ∈ l, (processIndividual (localConfig p.cfg) (w.host q) (String.ofList q) (w.parse q)).2 = .ok x) ∧
      ∀ x ∈ l, ∃ q ∈ paths, (processIndividual (localConfig p.cfg) (w.host q) (String.ofList q) (w.parse q)).2 = .ok x := by
  obtain ⟨paths, l, out', hmem, hnil, h2, hout, hus, hfi, hbp, l1, l2⟩ := run_made hw ho.args ho.files h
  have back : ∀ m ∈ fileMins l, ∃ q f, AnalysedPath w p q ∧
      (processIndividual (localConfig p.cfg) (w.host q) (String.ofList q) (w.parse q)).2 = .ok (some f) ∧ f.mins = some m := by
    intro m hm
    obtain ⟨x, hx, hxm⟩ := List.mem_filterMap.mp hm
    obtain ⟨q, hq, hqx⟩ := l2 x hx
    cases x with
    | none => cases hxm
    | some f => exact ⟨q, f, (hmem q).mp hq, hqx, hxm⟩
  have hmut : Mutual (localConfig p.cfg) l := by
    rcases ho.compatible with hc | hc
    · left; unfold localConfig; split <;> exact hc
    · right
      have none2 : ∀ m ∈ fileMins l, m.py2 = none → ∃ q r, AnalysedPath w p q ∧ FileReq w (localConfig p.cfg) q r ∧ Py3Only r := by
        intro m hm h2
        obtain ⟨q, f, hq, hf, hfm⟩ := back m hm
        obtain ⟨r, hr, hr2⟩ := (file_result hf hfm).none2.mp h2
        rcases hr.sane with h' | h'
        · exact absurd hr2 h'
        · exact ⟨q, r, hq, hr, hr2, Option.ne_none_iff_exists'.mp h'⟩
      have none3 : ∀ m ∈ fileMins l, m.py3 = none → ∃ q r, AnalysedPath w p q ∧ FileReq w (localConfig p.cfg) q r ∧ Py2Only r := by
        intro m hm h3
        obtain ⟨q, f, hq, hf, hfm⟩ := back m hm
        obtain ⟨r, hr, hr3⟩ := (file_result hf hfm).none3.mp h3
        rcases hr.sane with h' | h'
        · exact ⟨q, r, hq, hr, Option.ne_none_iff_exists'.mp h', hr3⟩
        · exact absurd hr3 h'
      refine ⟨fun m hm => ?_, fun ⟨⟨a, ha, ha'⟩, b, hb, hb'⟩ => hc ⟨none3 a ha ha'.2, none2 b hb hb'.1⟩⟩
      by_cases h2 : m.py2 = none
      · by_cases h3 : m.py3 = none
        · exact absurd ⟨none3 m hm h3, none2 m hm h2⟩ hc
        · exact .inr h3
      · exact .inl h2
  refine ⟨paths, l, out', hmem, hnil, h2, hout, hmut, ?_, hus, hfi, hbp, l1, l2⟩
  · obtain ⟨r, hr⟩ := mutual_combines hmut
    have e1 : (processed (localConfig p.cfg) l).mins = r := foldl_mins (a := ProcAcc.init) hr
    rw [e1, combineFrom_ok hr]
    refine Overall.join (M := fun a Q => ∃ q f, AnalysedPath w p q ∧
        (processIndividual (localConfig p.cfg) (w.host q) (String.ofList q) (w.parse q)).2 = .ok (some f) ∧ f.mins = some a ∧
        Q = FileReq w (localConfig p.cfg) q) (overall_joinAll fun a => ⟨?_, fun ha => ?_⟩) ?_ ?_
    · rintro ⟨Q, q, f, hq, hf, hfa, -⟩
      obtain ⟨x, hx, hqx⟩ := l1 q ((hmem q).mpr hq)
      rw [hf] at hqx
      injection hqx with hqx
      subst hqx
      exact List.mem_filterMap.mpr ⟨some f, hx, hfa⟩
    · obtain ⟨q, f, hq, hf, hfm⟩ := back a ha
      exact ⟨_, q, f, hq, hf, hfm, rfl⟩
    · rintro a Q ⟨q, f, hq, hf, hfa, rfl⟩
      exact file_result hf hfa
    · intro r
      constructor
      · rintro ⟨q, hq, hr⟩
        obtain ⟨x, hx, hqx⟩ := l1 q ((hmem q).mpr hq)
        cases x with
        | none => exact absurd hr (notPython_noReq hqx)
        | some f =>
          obtain ⟨m, hm⟩ := file_compatible ho.compatible hq hqx
          exact ⟨m, _, ⟨q, f, hq, hqx, hm, rfl⟩, hr⟩
      · rintro ⟨a, Q, ⟨q, f, hq, hf, hfa, rfl⟩, hr⟩
        exact ⟨q, hq, hr⟩

/-- **C66.** If an orderly run ends with exit code 0, every target satisfies every requirement of every analysed file.  Provided
that there is one target per major version and that syntax errors are not taken pessimistically in violations mode. -/
theorem C66_certified {w : World} (hw : Surroundings w) {argv : List String} {p : Vermin.Parsed} (ho : Orderly w argv p)
    (ht : OnePerMajor p.cfg.targets) (hps : ¬ (p.cfg.pessimistic = true ∧ p.cfg.onlyShowViolations = true))
    {files : List (List String)} {out : List String} (h : program w argv = .exit files out 0) :
    ∀ t ∈ p.cfg.targets, ∀ q, AnalysedPath w p q → ∀ r, FileReq w (localConfig p.cfg) q r → Satisfies t.2 r := by
  obtain ⟨paths, l, out', -, -, h2, -, hmut, hov, hus, hfi, -⟩ := orderly_run hw ho h
  have key := C20_mutual_partial p.cfg p.versions l h2 hmut (fun m hm => (hus m hm).1) (hfi hps) ht (parsed_majors hw ho.args)
  intro t htt q hq r hr
  refine ((hov.satisfies t.2).mp ((C17_overall_minimum hmut t.2).mpr ⟨parsed_majors hw ho.args t htt, key t htt⟩)).2 r ⟨q, hq, hr⟩

theorem result_path {c : Config} {h : Host} {path : String} {p : ParseOut} {f : ProcRes} (hr : (processIndividual c h path p).2 = .ok (some f)) :
    f.path = path ∧ (f.mins = none → c.ignoreIncomp = false) := by
  cases p with
  | notPython => cases hr
  | failed t => injection hr with hr; injection hr with hr; subst hr; exact ⟨rfl, nofun⟩
  | syntaxError e => injection hr with hr; injection hr with hr; subst hr; exact ⟨rfl, nofun⟩
  | ok node toks =>
    have hr' : processIndividual c h path (.ok node toks) = ((processIndividual c h path (.ok node toks)).1, .ok (some f)) := by rw [← hr]
    cases hm : f.mins with
    | none => exact ⟨(C63_incompatible hr' hm).1, fun _ => (C63_incompatible hr' hm).2.1⟩
    | some m => exact ⟨(C63_result hr' hm).2.2.1, nofun⟩

/-- **C66.** If a run whose files can be analysed, be they compatible or not, ends with exit code 0 and is not quiet, then every target satisfies every
requirement of every analysed file that is not named as having incompatible versions. -/
theorem C66_certified_or_named {w : World} (hw : Surroundings w) {argv : List String} {p : Vermin.Parsed}
    (hargs : parseArgs w.args argv (Config.init w.args.cpus) = .ok p)
    (hfiles : ∀ q, AnalysedPath w p q → Analysable (localConfig p.cfg) (w.host q) (String.ofList q) (w.parse q))
    (ht : OnePerMajor p.cfg.targets) (hps : ¬ (p.cfg.pessimistic = true ∧ p.cfg.onlyShowViolations = true)) (hq : p.cfg.quiet = false)
    {files : List (List String)} {out : List String} (h : program w argv = .exit files out 0) :
    ∀ q, AnalysedPath w p q → (∀ t ∈ p.cfg.targets, ∀ r, FileReq w (localConfig p.cfg) q r → Satisfies t.2 r) ∨
      ∃ text, ("File with incompatible versions: " ++ String.ofList q ++ text ++ "\n") ∈ out := by
  obtain ⟨paths, l, out', hmem, hnil, h2, rfl, hus, hfi, -, l1, -⟩ := run_made hw hargs hfiles h
  intro q ha
  obtain ⟨x, hx, hqx⟩ := l1 q ((hmem q).mpr ha)
  cases x with
  | none => exact .inl fun t _ r hr => absurd hr (notPython_noReq hqx)
  | some f =>
    obtain ⟨hpath, hign⟩ := result_path hqx
    have named : incompatibleLine f ∈ out' → ∃ text, ("File with incompatible versions: " ++ String.ofList q ++ text ++ "\n") ∈
        progress p.cfg "Detecting python files.." ++ (if paths.length = 0 then [] else progress p.cfg (analyzing p.cfg paths.length)) ++ out' := by
      intro hin
      refine ⟨if f.text = "" then "" else "\n  " ++ f.text, List.mem_append.mpr (.inr ?_)⟩
      rw [← hpath]
      exact hin
    cases hm : f.mins with
    | none =>
      right
      apply named
      obtain ⟨pre, post, rfl⟩ := List.append_of_mem hx
      obtain ⟨rep, -, rfl⟩ := mainRun_okOuts (results_nonempty h2) h2
      obtain ⟨o, ho⟩ := out_kept (localConfig p.cfg) (pre ++ [some f]) post
      rw [List.append_assoc] at ho
      have hq' : (localConfig p.cfg).quiet = false := by unfold localConfig; split <;> first | exact hq | rfl
      rw [show pre ++ some f :: post = pre ++ ([some f] ++ post) from rfl, ho, C61_incompatible _ _ _ hm]
      simp [hq', hign hm]
    | some m =>
      rcases C20_named_partial p.cfg p.versions l h2 hq (fun m hm => (hus m hm).1) (hfi hps) ht (parsed_majors hw hargs) f m hx hm with hs | hin
      · exact .inl fun t htt r hr => (((file_result hqx hm).satisfies t.2).mp (hs t htt)).2 r hr
      · exact .inr (named hin)

/-- **C66.** The report of an orderly run is that of a combined result whose minimum is the combination of all requirements
of all analysed files. -/
theorem C66_report {w : World} (hw : Surroundings w) {argv : List String} {p : Vermin.Parsed} (ho : Orderly w argv p)
    {files : List (List String)} {out : List String} {code : Nat} (h : program w argv = .exit files out code)
    (hne : ∃ q, AnalysedPath w p q) :
    ∃ pre rep acc, out = pre ++ rep ∧ Overall (Required w p) acc.mins ∧
      ∀ line, line ≠ "\n" → (line ∈ rep ↔ ReportLine p.cfg p.versions acc line) := by
  obtain ⟨paths, l, out', hmem, hnil, h2, rfl, hmut, hov, hus, -, hbp, -⟩ := orderly_run hw ho h
  have hl : l ≠ [] := by
    intro hl
    obtain ⟨q, hq⟩ := hne
    have := (hmem q).mpr hq
    rw [hnil.mp hl] at this; cases this
  obtain ⟨rep, code', hr, -, hrep⟩ := C64_run p.cfg p.versions l hl hus hbp
  rw [hr] at h2
  injection h2 with h2
  injection h2 with h2 _
  exact ⟨_, rep, _, by rw [← h2, ← List.append_assoc], hov, hrep⟩

/-! ### The exit code -/

/-- The part of a requirement for a major version. -/
def part (major : Nat) (r : Req) : Option Ver := if major = 2 then r.py2 else r.py3

/-- A target is met: it satisfies all requirements, there is one that tells a version of its major, and if the target is meant
exactly, one needs just that version. -/
def TargetMet (R : Req → Prop) (t : Target) : Prop :=
  (∀ r, R r → Satisfies t.2 r) ∧ ∃ r v, R r ∧ part t.2.major r = some v ∧ v ≠ ⟨0, 0⟩ ∧ (t.1 = true → v = t.2)

theorem Overall.part {R : Req → Prop} {m : Req} (h : Overall R m) (M : Nat) :
    (part M m = none ↔ ∃ r, R r ∧ part M r = none) ∧
    ∀ v, part M m = some v → (v = ⟨0, 0⟩ ∨ ∃ r, R r ∧ part M r = some v) ∧ ∀ r, R r → ∀ x, Props.part M r = some x → x ≤ v := by
  unfold Props.part
  by_cases hM : M = 2
  · simp only [hM, if_true]; exact ⟨h.none2, h.max2⟩
  · simp only [if_neg hM]; exact ⟨h.none3, h.max3⟩

theorem satisfies_part {v : Ver} (hv : v.major = 2 ∨ v.major = 3) (r : Req) :
    Satisfies v r ↔ ∃ x, part v.major r = some x ∧ x ≤ v := by
  unfold Satisfies part
  rcases hv with hv | hv <;> simp [hv]

theorem component_part {m : Req} (hm : Majored m) {M : Nat} (hM : M = 2 ∨ M = 3) (v : Ver) :
    Component m v ∧ v.major = M ↔ part M m = some v ∧ v ≠ ⟨0, 0⟩ := by
  have hz : Ver.zero.major = 0 := rfl
  unfold Component part
  rcases hM with rfl | rfl
  · simp only [if_true]
    constructor
    · rintro ⟨h | h, hv⟩
      · exact ⟨h, fun h0 => by rw [h0] at hv; cases hv⟩
      · rcases hm.2 v h with h' | h'
        · rw [h'] at hv; omega
        · omega
    · rintro ⟨h, h0⟩
      rcases hm.1 v h with h' | h'
      · exact absurd h' h0
      · exact ⟨.inl h, h'⟩
  · simp only [show ¬ (3 = 2) by decide, if_false]
    constructor
    · rintro ⟨h | h, hv⟩
      · rcases hm.1 v h with h' | h'
        · rw [h'] at hv; omega
        · omega
      · exact ⟨h, fun h0 => by rw [h0] at hv; cases hv⟩
    · rintro ⟨h, h0⟩
      rcases hm.2 v h with h' | h'
      · exact absurd h' h0
      · exact ⟨.inr h, h'⟩

theorem ver_le_zero {v : Ver} (h : v ≤ ⟨0, 0⟩) : v = ⟨0, 0⟩ := Ver.le_antisymm h (ver_zero_le v)

theorem met_iff {R : Req → Prop} {m : Req} (h : Overall R m) (hm : Majored m) {t : Target} (ht : t.2.major = 2 ∨ t.2.major = 3) :
    (∃ v, Component m v ∧ v.major = t.2.major ∧ Meets v t) ↔ TargetMet R t := by
  obtain ⟨-, hmax⟩ := h.part t.2.major
  constructor
  · rintro ⟨v, hc, hv, hmeet⟩
    obtain ⟨hp, h0⟩ := (component_part hm ht v).mp ⟨hc, hv⟩
    have hle : v ≤ t.2 := by
      unfold Meets at hmeet
      split at hmeet
      · rw [hmeet]; exact Ver.le_refl _
      · exact hmeet
    refine ⟨((h.satisfies t.2).mp ((satisfies_part ht m).mpr ⟨v, hp, hle⟩)).2, ?_⟩
    rcases (hmax v hp).1 with h' | ⟨r, hr, h'⟩
    · exact absurd h' h0
    · exact ⟨r, v, hr, h', h0, fun ht1 => by unfold Meets at hmeet; rw [if_pos ht1] at hmeet; exact hmeet⟩
  · rintro ⟨hs, r, v, hr, hrv, h0, hex⟩
    obtain ⟨x, hx, hle⟩ := (satisfies_part ht m).mp ((h.satisfies t.2).mpr ⟨ht, hs⟩)
    have hvx := (hmax x hx).2 r hr v hrv
    have hx0 : x ≠ ⟨0, 0⟩ := fun h' => h0 (ver_le_zero (h' ▸ hvx))
    obtain ⟨hc, hM⟩ := (component_part hm ht x).mpr ⟨hx, hx0⟩
    refine ⟨x, hc, hM, ?_⟩
    unfold Meets
    split
    · rename_i ht1
      rw [hex ht1] at hvx
      exact Ver.le_antisymm hle hvx
    · exact hle

theorem inconclusive_iff {R : Req → Prop} {m : Req} (h : Overall R m) (hm : Firm m) :
    Inconclusive m ↔ ∀ r, R r → r = ⟨some ⟨0, 0⟩, some ⟨0, 0⟩⟩ := by
  constructor
  · rintro ⟨⟨v, hv⟩, hz⟩ r hr
    have h2 : ∃ x, m.py2 = some x := by
      cases h2 : m.py2 with
      | some x => exact ⟨x, rfl⟩
      | none =>
        rcases hv with hv | hv
        · rw [h2] at hv; cases hv
        · rw [hz v (.inr hv)] at hv; exact absurd ⟨h2, hv⟩ hm.1.2
    have h3 : ∃ x, m.py3 = some x := by
      cases h3 : m.py3 with
      | some x => exact ⟨x, rfl⟩
      | none =>
        rcases hv with hv | hv
        · rw [hz v (.inl hv)] at hv; exact absurd ⟨h3, hv⟩ hm.2
        · rw [h3] at hv; cases hv
    obtain ⟨x, hx⟩ := h2
    obtain ⟨y, hy⟩ := h3
    have ex := hz x (.inl hx)
    have ey := hz y (.inr hy)
    obtain ⟨r2, r3⟩ := r
    cases r2 with
    | none => rw [h.none2.mpr ⟨_, hr, rfl⟩] at hx; cases hx
    | some a =>
      cases r3 with
      | none => rw [h.none3.mpr ⟨_, hr, rfl⟩] at hy; cases hy
      | some b =>
        have ha := (h.max2 x hx).2 _ hr a rfl
        have hb := (h.max3 y hy).2 _ hr b rfl
        rw [ex] at ha; rw [ey] at hb
        rw [ver_le_zero ha, ver_le_zero hb]
  · intro hall
    have h2 : m.py2 = some ⟨0, 0⟩ := by
      cases h2 : m.py2 with
      | none =>
        obtain ⟨r, hr, h'⟩ := h.none2.mp h2
        rw [hall r hr] at h'; cases h'
      | some v =>
        rcases (h.max2 v h2).1 with h' | ⟨r, hr, h'⟩
        · rw [h']
        · rw [hall r hr] at h'; exact h'.symm
    have h3 : m.py3 = some ⟨0, 0⟩ := by
      cases h3 : m.py3 with
      | none =>
        obtain ⟨r, hr, h'⟩ := h.none3.mp h3
        rw [hall r hr] at h'; cases h'
      | some v =>
        rcases (h.max3 v h3).1 with h' | ⟨r, hr, h'⟩
        · rw [h']
        · rw [hall r hr] at h'; exact h'.symm
    refine ⟨⟨_, .inl h2⟩, ?_⟩
    rintro v (hv | hv)
    · rw [h2] at hv; injection hv with hv; exact hv.symm
    · rw [h3] at hv; injection hv with hv; exact hv.symm

/-- **C66.** The exit code of an orderly run: it is 0 iff files were found and either each target is met or, in violations mode,
nothing is required at all; otherwise it is 1. -/
theorem C66_exit {w : World} (hw : Surroundings w) {argv : List String} {p : Vermin.Parsed} (ho : Orderly w argv p)
    (ht : OnePerMajor p.cfg.targets) (hps : ¬ (p.cfg.pessimistic = true ∧ p.cfg.onlyShowViolations = true))
    {files : List (List String)} {out : List String} {code : Nat} (h : program w argv = .exit files out code) :
    (code = 0 ∨ code = 1) ∧
    (code = 0 ↔ (∃ q, AnalysedPath w p q) ∧
      ((p.cfg.onlyShowViolations = true ∧ ∀ r, Required w p r → r = ⟨some ⟨0, 0⟩, some ⟨0, 0⟩⟩) ∨
        ∀ t ∈ p.cfg.targets, TargetMet (Required w p) t)) := by
  obtain ⟨paths, l, out', hmem, hnil, h2, -, hmut, hov, hus, hfi, -⟩ := orderly_run hw ho h
  by_cases hl : l = []
  · have hp := hnil.mp hl
    subst hl
    rw [show okOuts [] = [] from rfl, C11_no_files] at h2
    injection h2 with h2
    injection h2 with _ h2
    subst h2
    refine ⟨.inr rfl, nofun, ?_⟩
    rintro ⟨⟨q, hq⟩, -⟩
    have := (hmem q).mpr hq
    rw [hp] at this; cases this
  · have hq : ∃ q, AnalysedPath w p q := by
      cases hp : paths with
      | nil => exact absurd (hnil.mpr hp) hl
      | cons q qs => exact ⟨q, (hmem q).mp (by rw [hp]; exact List.mem_cons_self)⟩
    have hM : Majored (processed (localConfig p.cfg) l).mins := (usual_processed hus).1
    obtain ⟨rep, hr, -⟩ := mainRun_okOuts hl h2
    have hu : Ver.zero ∉ (processed (localConfig p.cfg) l).uniqueVersions := by
      intro hz
      have := ((C21_range (localConfig p.cfg) l).2 _).mp hz
      exact absurd this.1 (by decide)
    obtain ⟨o, c, hr', hc, hiff⟩ := C11_targets_iff p.cfg p.versions _ hu hM ht
    rw [hr'] at hr
    simp only [Except.ok.injEq, Prod.mk.injEq] at hr
    obtain ⟨-, rfl⟩ := hr
    refine ⟨hc, ?_⟩
    have h01 : c = 0 ↔ ¬ c = 1 := by omega
    have hinc : p.cfg.onlyShowViolations = true ∧ Inconclusive (processed (localConfig p.cfg) l).mins ↔
        p.cfg.onlyShowViolations = true ∧ ∀ r, Required w p r → r = ⟨some ⟨0, 0⟩, some ⟨0, 0⟩⟩ :=
      and_congr_right fun hv => inconclusive_iff hov (firm_kept.processed (hfi hps hv))
    rw [h01, hiff, hinc]
    have hmet := fun t htm => met_iff hov hM (t := t) (parsed_majors hw ho.args t htm)
    constructor
    · intro hno
      refine ⟨hq, ?_⟩
      by_cases hi : p.cfg.onlyShowViolations = true ∧ ∀ r, Required w p r → r = ⟨some ⟨0, 0⟩, some ⟨0, 0⟩⟩
      · exact .inl hi
      · right
        intro t htm
        refine (hmet t htm).mp (Classical.byContradiction fun hcon => hno ⟨hi, t, htm, fun v hvc hvm hme => hcon ⟨v, hvc, hvm, hme⟩⟩)
    · rintro ⟨-, hi | hall⟩ ⟨hn, t, htm, hno⟩
      · exact hn hi
      · obtain ⟨v, hvc, hvm, hme⟩ := (hmet t htm).mpr (hall t htm)
        exact hno v hvc hvm hme

/-! ### Example: `vermin -t=3.0- a.py`, with `nonlocal x` in a.py -/

def exampleFS : FS := { noFS with lstat := fun p => if p = "/a.py".toList then some (.node .reg) else none }

def exampleWorld : World :=
  { args := plainEnv, fs := exampleFS, rounds := 5, parse := fun _ => .ok nonlocalProg [], host := fun _ => exampleHost }

def exampleParsed : Vermin.Parsed :=
  { cfg := { Config.init 4 with targets := [(false, ⟨3, 0⟩)] }, paths := ["a.py"], versions := false }

theorem example_surroundings : Surroundings exampleWorld where
  cwd := rfl
  paths := by
    constructor
    · intro s h
      have := congrArg String.toList (show "/w/" ++ s = "" from h)
      rw [String.toList_append] at this
      cases this
    · intro h
      cases h
  python3 _ := rfl
  config := nofun

theorem nonlocal_all {m : Node} (h : In m nonlocalProg) : m.kind = .module ∨ m.kind = .nonlocal := by
  cases h with
  | self => exact .inl rfl
  | kid hk hm =>
    cases List.mem_singleton.mp hk
    cases hm with
    | self => exact .inr rfl
    | kid hk hm => cases hk

theorem nonlocal_analysable (c : Config) (h : Host) (path : String) : Analysable c h path (.ok nonlocalProg []) := by
  intro node toks hp
  injection hp with h1 h2
  subst h1; subst h2
  refine ⟨fun m hm => ⟨?_, ?_, ?_⟩, ⟨?_, ?_, ?_⟩, ?_⟩
  · intro f hf; rcases nonlocal_all hm with h | h <;> rw [h] at hf <;> cases hf
  · intro l hl; rcases nonlocal_all hm with h | h <;> rw [h] at hl <;> cases hl
  · intro l hl; rcases nonlocal_all hm with h | h <;> rw [h] at hl <;> cases hl
  · intro m hm f a c hk; rcases nonlocal_all hm with h | h <;> rw [h] at hk <;> cases hk
  · rintro m hm ⟨x, h' | h'⟩ <;> rcases nonlocal_all hm with h | h <;> rw [h] at h' <;> cases h'
  · intro m hm _ hk; rcases nonlocal_all hm with h | h <;> rw [h] at hk <;> cases hk
  · rintro m hm c ⟨hk, -⟩; rcases nonlocal_all hm with h | h <;> rw [h] at hk <;> cases hk

theorem C66_witness : Surroundings exampleWorld ∧ Orderly exampleWorld ["-t=3.0-", "a.py"] exampleParsed ∧
    OnePerMajor exampleParsed.cfg.targets ∧ exampleParsed.cfg.pessimistic = false ∧
    (∃ files out, program exampleWorld ["-t=3.0-", "a.py"] = .exit files out 0) ∧
    Required exampleWorld exampleParsed ⟨none, some ⟨3, 0⟩⟩ := by
  have hargs : parseArgs exampleWorld.args ["-t=3.0-", "a.py"] (Config.init exampleWorld.args.cpus) = .ok exampleParsed := by
    decide +kernel
  have hpaths : mainPaths exampleWorld.fs exampleParsed.cfg exampleWorld.rounds (exampleParsed.paths.map String.toList) =
      .ok (some ["/a.py".toList]) := by decide +kernel
  have hfile : (processIndividual (localConfig exampleParsed.cfg) exampleHost "/a.py" (.ok nonlocalProg [])).2 = .ok (some
      { path := "/a.py", mins := some ⟨none, some ⟨3, 0⟩⟩, text := "", novermin := [], bps := [], maybeAnnotations := false }) := by
    decide +kernel
  have hmem := (C44_main hpaths).2.2
  have hov : ∀ q, AnalysedPath exampleWorld exampleParsed q →
      Overall (FileReq exampleWorld (localConfig exampleParsed.cfg) q) ⟨none, some ⟨3, 0⟩⟩ := by
    intro q hq
    have := List.mem_singleton.mp ((hmem q).mpr hq)
    subst this
    refine file_result (f := { path := "/a.py", mins := some ⟨none, some ⟨3, 0⟩⟩, text := "", novermin := [], bps := [], maybeAnnotations := false }) ?_ rfl
    rw [show String.ofList "/a.py".toList = "/a.py" by decide +kernel]
    exact hfile
  have hin : AnalysedPath exampleWorld exampleParsed "/a.py".toList := (hmem _).mp List.mem_cons_self
  refine ⟨example_surroundings, ⟨hargs, fun q _ => nonlocal_analysable _ _ _, .inr ?_⟩, ?_, rfl, ?_, ?_⟩
  · rintro ⟨⟨q, r, hq, hr, hr2⟩, -⟩
    have := (hov q hq).none3.mpr ⟨r, hr, hr2.2⟩
    cases this
  · intro a ha b hb _; rw [List.mem_singleton.mp ha, List.mem_singleton.mp hb]
  · have key : (match program exampleWorld ["-t=3.0-", "a.py"] with | .exit _ _ 0 => true | _ => false) = true := by decide +kernel
    split at key
    · rename_i files out h; exact ⟨files, out, h⟩
    · cases key
  · have hv : ((match tour (Env.make (localConfig exampleParsed.cfg) exampleHost "/a.py" []) nonlocalProg S.init with
        | .ok s => s.has .nonlocalStmt | .error _ => false) = true) := by decide +kernel
    split at hv
    · rename_i s hs
      refine ⟨_, hin, .finding (w := exampleWorld) (toks := []) rfl (s := s) ?_ (.feature hv rfl)⟩
      rw [show String.ofList "/a.py".toList = "/a.py" by decide +kernel]
      exact hs
    · cases hv

/-- The exception of C65 exists: an empty path argument. -/
theorem C65_empty_path : ∃ p, parseArgs exampleWorld.args ["--no-make-paths-absolute", ""] (Config.init 4) = .ok p ∧ "" ∈ p.paths ∧
    (∀ q, AnalysedPath exampleWorld p q → Analysable (localConfig p.cfg) (exampleWorld.host q) (String.ofList q) (exampleWorld.parse q)) ∧
    program exampleWorld ["--no-make-paths-absolute", ""] = .raised .indexError := by
  refine ⟨{ cfg := { Config.init 4 with makePathsAbsolute := false }, paths := [""], versions := false }, by decide +kernel, by decide,
    fun q _ => nonlocal_analysable _ _ _, ?_⟩
  have key : (match program exampleWorld ["--no-make-paths-absolute", ""] with | .raised .indexError => true | _ => false) = true := by
    decide +kernel
  split at key
  · assumption
  · cases key

end Vermin.Props
