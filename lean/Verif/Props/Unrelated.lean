import Verif.Lemmas.Closure
import Verif.Props.Program
/-
C96: settings that are not about the contents of files do not change what is found in them, and comments need not be parsed if there
are no marks.
-/
namespace Vermin
open Py V Spec

/-- The display options of an environment, with others where neither findings nor output depend on them: exclusions, backports and features
are sets, of which only the members matter. -/
def Env.unread (env : Env) (c : Config) : Display :=
  { env.display with showTips := c.showTips, processes := c.processes, analyzeHidden := c.analyzeHidden, exclusionRegex := c.exclusionRegex,
                     makePathsAbsolute := c.makePathsAbsolute, scanSymlinkFolders := c.scanSymlinkFolders, parseComments := c.parseComments,
                     exclusions := c.exclusions, backports := c.backports, features := c.features }

section
variable (env : Env) (c : Config) (hx : ∀ x, c.exclusions.contains x = env.cfg.exclusions.contains x)
  (hf : ∀ x, c.features.contains x = env.cfg.features.contains x)
include hx

theorem unread_print (l msg ent line vs pl) : verbosePrint env l msg ent line vs pl = verbosePrint (env.show (env.unread c)) l msg ent line vs pl := rfl

theorem unread_excluded (x : String) : (env.show (env.unread c)).cfg.isExcluded x = env.cfg.isExcluded x := hx x

include hf
theorem closed_unread (n : Node) : Closed env (env.unread c) n (fun _ => True) Eq (fun _ => True) where
  skip := rfl
  seq ha hb := by rw [ha, hb]
  excl := hx
  feats := hf
  init := rfl
  rdMods hf := funext fun s => congrFun (hf s s.findings rfl trivial) s
  raise _ := rfl
  print _ _ _ _ _ _ _ := rfl
  flag _ := rfl
  module _ _ _ := by unfold addModule; simp only [unread_excluded env c hx]; rfl
  member _ _ _ := by unfold addMember; simp only [unread_excluded env c hx]; rfl
  kwarg _ _ := by
    unfold addKwargs
    simp only [show ∀ f k, (env.show (env.unread c)).cfg.isExcludedKwarg f k = env.cfg.isExcludedKwarg f k from fun f k => hx _]
    rfl
  deco _ _ := by unfold addUserFuncDeco; simp only [unread_excluded env c hx]; rfl
  strftime _ _ := rfl
  bytesDir _ _ := rfl
  typecode _ _ _ := rfl
  errorHandler _ _ := by
    unfold addErrorHandler
    simp only [show ∀ k, (env.show (env.unread c)).cfg.isExcludedErrorHandler k = env.cfg.isExcludedErrorHandler k from fun k => hx _]
    rfl
  encoding _ _ := by
    unfold addEncoding
    simp only [show ∀ k, (env.show (env.unread c)).cfg.isExcludedEncoding k = env.cfg.isExcludedEncoding k from fun k => hx _]
    rfl
  userDef _ := rfl
  nameRes _ := rfl
  nameResType _ := rfl
  moduleAs _ := rfl
  importMem _ := rfl
  callScope _ ha := by rw [ha]
  pop _ := rfl
  yield _ := rfl
  await _ := rfl
  ellipsis _ := rfl
  gen m _ _ ha := by rw [ha]; rfl
  inScope ha := by rw [ha]
  yieldScope ha := by rw [ha]
  asyncScope _ _ ha := by rw [ha]; rfl
  compScope _ ha := by rw [ha]; rfl
  forScope _ ha hb hc := by rw [ha, hb, hc]
  whileScope _ ha := by rw [ha]
  tryScope _ ha hb := by rw [ha, hb]

theorem visit_unread (n : Node) : visit env n = visit (env.show (env.unread c)) n :=
  visit_closed (I := fun _ _ => True) (Q := fun _ => Eq) (A := fun _ _ => True) (closed_unread env c hx hf)
    (fun _ _ _ => trivial) (fun _ _ _ _ _ h => h) n

theorem analyse_unread (n : Node) : analyse (env.show (env.unread c)) n = analyse env n := by
  have ht : tour (env.show (env.unread c)) n = tour env n := by
    unfold tour
    rw [← visit_unread env c hx hf]
    rfl
  unfold analyse
  rw [ht]
  rfl
end

theorem bpv_members {b b' : List String} (h : ∀ x, b'.contains x = b.contains x) (name : String) (d : Req) : bpv b' name d = bpv b name d := by
  unfold bpv
  generalize expandVersions name = rs
  induction rs with
  | nil => rfl
  | cons r rs ih =>
    unfold bpv.go
    rw [show bp b' r.1 = bp b r.1 from h _, ih]

/-- The rules depend on which backports are enabled only. -/
theorem eval_members {b b' : List String} (h : ∀ x, b'.contains x = b.contains x) : RuleVal.eval b' = RuleVal.eval b := by
  funext r
  cases r with
  | const r => rfl
  | bpv name d => exact bpv_members h name d
  | ifNotBp name no yes =>
    unfold RuleVal.eval
    dsimp only
    rw [show bp b' name = bp b name from h _]

theorem tables_members {c c' : Config} (h : ∀ x, c'.backports.contains x = c.backports.contains x) : Tables.std c' = Tables.std c := by
  unfold Tables.std
  rw [eval_members h]
end Vermin

namespace Vermin.Props
open Vermin Vermin.Py Vermin.Spec Vermin.V

/-- Two configurations that agree on what is looked for in a file and on how it is shown. -/
structure SameForFiles (c c' : Config) : Prop where
  quiet : c'.quiet = c.quiet
  verbose : c'.verbose = c.verbose
  printVisits : c'.printVisits = c.printVisits
  ignoreIncomp : c'.ignoreIncomp = c.ignoreIncomp
  pessimistic : c'.pessimistic = c.pessimistic
  targets : c'.targets = c.targets
  exclusions : ∀ x, x ∈ c'.exclusions ↔ x ∈ c.exclusions
  backports : ∀ x, x ∈ c'.backports ↔ x ∈ c.backports
  features : ∀ x, x ∈ c'.features ↔ x ∈ c.features
  evalAnnotations : c'.evalAnnotations = c.evalAnnotations
  onlyShowViolations : c'.onlyShowViolations = c.onlyShowViolations
  format : c'.format = c.format

/-- Two configurations that agree on where files are looked for. -/
structure SameSearch (c c' : Config) : Prop where
  hidden : c'.analyzeHidden = c.analyzeHidden
  regex : ∀ x, x ∈ c'.exclusionRegex ↔ x ∈ c.exclusionRegex
  absolute : c'.makePathsAbsolute = c.makePathsAbsolute
  links : c'.scanSymlinkFolders = c.scanSymlinkFolders
  parsable : c'.format = .parsable ↔ c.format = .parsable

/-- A file without marks: it is not parsed, or none of its comments marks a line. -/
def Unmarked : ParseOut → Prop
  | .ok _ toks => ∀ n, ¬ MarkedBy toks n
  | _ => True

/-- Comment tokens begin with `#`. -/
def HashComments : ParseOut → Prop
  | .ok _ toks => ∀ t ∈ toks, t.type = .comment → t.text.head? = some '#'
  | _ => True

theorem SameForFiles.eq {c c' : Config} (h : SameForFiles c c') :
    c' = { c with showTips := c'.showTips, processes := c'.processes, analyzeHidden := c'.analyzeHidden, exclusionRegex := c'.exclusionRegex,
                  makePathsAbsolute := c'.makePathsAbsolute, scanSymlinkFolders := c'.scanSymlinkFolders, parseComments := c'.parseComments,
                  exclusions := c'.exclusions, backports := c'.backports, features := c'.features } := by
  obtain ⟨h1, h2, h3, h4, h5, h6, -, -, -, h10, h11, h12⟩ := h
  cases c'
  simp only at h1 h2 h3 h4 h5 h6 h10 h11 h12
  subst h1 h2 h3 h4 h5 h6 h10 h11 h12
  rfl

theorem contains_of_mem_iff {l l' : List String} (h : ∀ x, x ∈ l' ↔ x ∈ l) (x : String) : l'.contains x = l.contains x := by
  rw [Bool.eq_iff_iff, List.contains_iff_mem, List.contains_iff_mem, h]

theorem unmarked_comments {node : Node} {toks : List Tok} (h : Unmarked (.ok node toks)) (hh : HashComments (.ok node toks)) : comments toks = [] :=
  List.eq_nil_iff_forall_not_mem.mpr fun n hn => h n ((C22_comments toks hh n).mp hn)

/-- **C96.** The result of a file, with all that is printed, does not depend on the number of processes, on tips and on the settings about
which files are looked at; and if it has no marks, it does not depend on whether comments are parsed. -/
theorem C96_file {c c' : Config} (hs : SameForFiles c c') (h : Host) (path : String) (p : ParseOut)
    (hc : c'.parseComments = c.parseComments ∨ (Unmarked p ∧ HashComments p)) :
    processIndividual c' h path p = processIndividual c h path p := by
  have e := hs.eq
  cases p with
  | notPython => rfl
  | failed t => rfl
  | syntaxError se => rw [e]; rfl
  | ok node toks =>
    have hn : (if c'.parseComments then comments toks else []) = if c.parseComments then comments toks else [] := by
      rcases hc with hc | ⟨h1, h2⟩
      · rw [hc]
      · rw [unmarked_comments h1 h2]; split <;> split <;> rfl
    have hb : badPath c' path = badPath c path := by unfold badPath; rw [hs.format]
    have he : Env.make c' h path toks = (Env.make c h path toks).show ((Env.make c h path toks).unread c') := by
      have ht : Tables.std c' = Tables.std c := tables_members (contains_of_mem_iff hs.backports)
      unfold Env.make
      rw [hn, ht]
      generalize Tables.std c = t
      generalize (if c.parseComments then comments toks else []) = nl
      rw [e]
      rfl
    unfold processIndividual
    dsimp only
    rw [hb, he, analyse_unread _ _ (contains_of_mem_iff hs.exclusions) (contains_of_mem_iff hs.features)]

theorem detPaths_search (fs : FS) {o o' : DetOpts} (h : ∀ d p, detStep fs o' d p = detStep fs o d p) (d : Nat) :
    ∀ ps, detPaths fs o' d ps = detPaths fs o d ps
  | [] => rfl
  | p :: ps => by unfold detPaths; rw [h, detPaths_search fs h d ps]

theorem detRound_search (fs : FS) {o o' : DetOpts} (h : ∀ d p, detStep fs o' d p = detStep fs o d p) :
    ∀ as, detRound fs o' as = detRound fs o as
  | [] => rfl
  | a :: as => by unfold detRound detectIncremental; rw [detPaths_search fs h, detRound_search fs h as]

theorem detLoop_search (fs : FS) {o o' : DetOpts} (h : ∀ d p, detStep fs o' d p = detStep fs o d p) :
    ∀ n acc as, detLoop fs o' n acc as = detLoop fs o n acc as
  | 0, acc, [] => rfl
  | 0, acc, _ :: _ => rfl
  | n + 1, acc, [] => rfl
  | n + 1, acc, a :: as => by
    unfold detLoop
    rw [detRound_search fs h]
    cases detRound fs o (a :: as) with
    | error e => rfl
    | ok x => exact detLoop_search fs h n _ _

/-- **C96.** Which files are found does not depend on the other settings. -/
theorem C96_search {c c' : Config} (hs : SameSearch c c') (fs : FS) (n : Nat) (paths : List (List Char)) :
    mainPaths fs c' n paths = mainPaths fs c n paths := by
  have h : ∀ d p, detStep fs (mainOpts c') d p = detStep fs (mainOpts c) d p := by
    intro d p
    have hr : ∀ x, c'.isExcludedByRegex fs.search x = c.isExcludedByRegex fs.search x := fun x => by
      
      unfold Config.isExcludedByRegex
      rw [Bool.eq_iff_iff, List.any_eq_true, List.any_eq_true]
      exact exists_congr fun r => and_congr_left' (hs.regex r)
    unfold detStep mainOpts
    simp only [hs.parsable, hs.hidden, hs.links, hs.absolute, hr]
  unfold mainPaths detectPaths
  rw [hs.absolute, detLoop_search fs h]

theorem SameForFiles.local {c c' : Config} (h : SameForFiles c c') : SameForFiles (localConfig c) (localConfig c') := by
  unfold localConfig
  rw [h.onlyShowViolations, h.quiet]
  split
  · exact ⟨rfl, h.2, h.3, h.4, h.5, h.6, h.7, h.8, h.9, h.10, rfl, h.12⟩
  · exact h

theorem localConfig_rest (c : Config) : (localConfig c).parseComments = c.parseComments ∧ (localConfig c).processes = c.processes := by
  unfold localConfig; split <;> exact ⟨rfl, rfl⟩

theorem procLoop_same {c c' : Config} (h : SameForFiles c c') : ∀ a rs, procLoop c' a rs = procLoop c a rs
  | a, [] => rfl
  | a, .error e :: rs => rfl
  | a, .ok r :: rs => by
    have : procStep c' a r = procStep c a r := by rw [h.eq]; rfl
    unfold procLoop
    rw [this, procLoop_same h]

theorem process_same {c c' : Config} (h : SameForFiles c c') (rs : List FileOut) :
    processSeq c' rs = processSeq c rs ∧ processPar c' rs = processPar c rs := by
  have he : ∀ r, procEnd c' r = procEnd c r := fun r => by rw [h.eq]; rfl
  unfold processSeq processPar
  simp only [procLoop_same h, he, and_self]

/-- Two configurations that agree on whether tips are shown and on what they are about. -/
def SameTips (c c' : Config) : Prop := c'.showTips = c.showTips ∧ (c.showTips = true → c'.parseComments = c.parseComments)

theorem unversioned_members {b b' : List String} (h : ∀ x, x ∈ b' ↔ x ∈ b) (x : String) :
    (unversionedFilter b').contains x = (unversionedFilter b).contains x := by
  unfold unversionedFilter
  rw [Bool.eq_iff_iff, List.contains_iff_mem, List.contains_iff_mem, List.mem_map, List.mem_map]
  exact exists_congr fun m => and_congr_left' (h m)

theorem tips_same {c c' : Config} (h : SameForFiles c c') (hp : c'.parseComments = c.parseComments) (reqs : List Ver) (r : ProcAcc) :
    printTips c' reqs (tipsOf c' r) = printTips c reqs (tipsOf c r) := by
  have hu : uniqueBackports c' r.backports = uniqueBackports c r.backports := by
    unfold uniqueBackports
    simp only [unversioned_members h.backports]
  have ht : tipsOf c' r = tipsOf c r := by
    unfold tipsOf
    rw [hu, h.evalAnnotations, hp]
  rw [ht]
  generalize tipsOf c r = t
  rw [h.eq]
  rfl

/-- Two reports that differ in the tips. -/
theorem report_same {c c' : Config} (h : SameForFiles c c') (v : Bool) (r : ProcAcc) :
    (∀ e, report c v r = .error e → report c' v r = .error e) ∧
    (∀ out code, report c v r = .ok (out, code) → ∃ out', report c' v r = .ok (out', code) ∧ (SameTips c c' → out' = out)) := by
  have h1 : reportMins c' r.mins = reportMins c r.mins := by rw [h.eq]; rfl
  have h2 : reportIncomps c' r.mins = reportIncomps c r.mins := by rw [h.eq]; rfl
  have h3 : reportRange c' v r.uniqueVersions = reportRange c v r.uniqueVersions := by rw [h.eq]; rfl
  have h4 : reportTargets c' (reqsOf r.mins) = reportTargets c (reqsOf r.mins) := by rw [h.eq]; rfl
  have h5 : reportHead c' r = reportHead c r := by rw [h.eq]; rfl
  unfold report
  rw [h1, h2, h3, h4, h5]
  cases reportMins c r.mins with
  | error e => exact ⟨fun _ h => h, fun _ _ h => nomatch h⟩
  | ok m =>
    cases reportIncomps c r.mins with
    | error e => exact ⟨fun _ h => h, fun _ _ h => nomatch h⟩
    | ok i =>
      cases reportRange c v r.uniqueVersions with
      | error e => exact ⟨fun _ h => h, fun _ _ h => nomatch h⟩
      | ok g =>
        cases reportTargets c (reqsOf r.mins) with
        | error e => exact ⟨fun _ h => h, fun _ _ h => nomatch h⟩
        | ok t =>
          refine ⟨(fun _ h => nomatch h), fun out code h => ?_⟩
          injection h with h
          injection h with ho hc
          subst ho hc
          refine ⟨_, rfl, fun hq => ?_⟩
          rw [hq.1]
          cases hsh : c.showTips with
          | false => rfl
          | true => rw [tips_same h (hq.2 hsh)]

/-- Runs that end alike: with the same exception, or with the same exit code and the same output of the processes. -/
def EndsAlike : Outcome → Outcome → Prop
  | .stopped s, .stopped s' => s' = s
  | .unfinished, .unfinished => True
  | .raised e, .raised e' => e' = e
  | .exit files _ code, .exit files' _ code' => files' = files ∧ code' = code
  | _, _ => False

/-- **C96.** Two runs that look at the same files, for the same things, end alike: neither tips, nor the number of processes (other than
one), nor, in files without marks, whether comments are parsed has an influence on the verdict.  If the same tips are shown, if any, and
the number of processes is the same, nothing is different at all.  What is found while parsing the arguments may be different. -/
theorem C96_program {w w' : World} (hw : w' = { w with args := w'.args }) {argv argv' : List String} {p p' : Vermin.Parsed} (ha : parseArgs w.args argv (Config.init w.args.cpus) = .ok p)
    (ha' : parseArgs w'.args argv' (Config.init w'.args.cpus) = .ok p') (hs : SameForFiles p.cfg p'.cfg) (hd : SameSearch p.cfg p'.cfg)
    (hp : p'.paths = p.paths) (hv : p'.versions = p.versions) (hn : p'.cfg.processes = 1 ↔ p.cfg.processes = 1)
    (hm : p'.cfg.parseComments = p.cfg.parseComments ∨ ∀ q, AnalysedPath w p q → Unmarked (w.parse q) ∧ HashComments (w.parse q)) :
    EndsAlike (program w argv) (program w' argv') ∧
    (SameTips p.cfg p'.cfg → p'.cfg.processes = p.cfg.processes → program w' argv' = program w argv) := by
  unfold program
  rw [ha, ha', hw]
  dsimp only
  simp only [show ∀ c qs, World.results { w with args := w'.args } c qs = w.results c qs from fun _ _ => rfl]
  rw [hp, C96_search hd, hv]
  cases hq : mainPaths w.fs p.cfg w.rounds (p.paths.map String.toList) with
  | error e => exact ⟨rfl, fun _ _ => rfl⟩
  | ok o =>
    cases o with
    | none => exact ⟨trivial, fun _ _ => rfl⟩
    | some paths =>
      dsimp only
      have hr : w.results p'.cfg paths = w.results p.cfg paths := by
        unfold World.results
        refine List.map_congr_left fun q hqm => C96_file hs.local _ _ _ ?_
        rw [(localConfig_rest p.cfg).1, (localConfig_rest p'.cfg).1]
        rcases hm with hm | hm
        · exact .inl hm
        · exact .inr (hm q (((C44_main hq).2.2 q).mp hqm))
      rw [hr]
      generalize (w.results p.cfg paths).map Prod.snd = rs
      generalize (w.results p.cfg paths).map Prod.fst = fs
      have hprog : ∀ m, progress p'.cfg m = progress p.cfg m := fun m => by rw [hs.eq]; rfl
      have hnp : ∀ m, nprint p'.cfg m = nprint p.cfg m := fun m => by rw [hs.eq]; rfl
      have hcond : ((localConfig p'.cfg).processes = 1) = ((localConfig p.cfg).processes = 1) := by
        rw [(localConfig_rest p.cfg).2, (localConfig_rest p'.cfg).2]
        exact propext hn
      have hpr : (if (localConfig p'.cfg).processes = 1 then processSeq (localConfig p'.cfg) rs else processPar (localConfig p'.cfg) rs) =
          (if (localConfig p.cfg).processes = 1 then processSeq (localConfig p.cfg) rs else processPar (localConfig p.cfg) rs) := by
        simp only [hcond, (process_same hs.local rs).1, (process_same hs.local rs).2]
      have key : (∀ e, mainRun p.cfg p.versions rs = .error e → mainRun p'.cfg p.versions rs = .error e) ∧
          (∀ out code, mainRun p.cfg p.versions rs = .ok (out, code) → ∃ out', mainRun p'.cfg p.versions rs = .ok (out', code) ∧
            (SameTips p.cfg p'.cfg → out' = out)) := by
        unfold mainRun
        rw [hpr, hnp]
        split
        · exact ⟨fun _ h => h, fun out code h => ⟨out, h, fun _ => rfl⟩⟩
        · split
          · exact ⟨fun _ h => h, fun _ _ h => nomatch h⟩
          · rename_i acc _
            obtain ⟨k1, k2⟩ := report_same hs p.versions acc
            cases hrep : report p.cfg p.versions acc with
            | error e =>
              rw [k1 e hrep]
              exact ⟨fun _ h => h, fun _ _ h => nomatch h⟩
            | ok x =>
              obtain ⟨o, cd⟩ := x
              obtain ⟨o', h1, h2⟩ := k2 o cd hrep
              rw [h1]
              refine ⟨(fun _ h => nomatch h), fun out code h => ?_⟩
              injection h with h
              injection h with ho hc
              subst ho hc
              exact ⟨_, rfl, fun a => by rw [h2 a]⟩
      cases hmr : mainRun p.cfg p.versions rs with
      | error e =>
        rw [key.1 e hmr]
        exact ⟨rfl, fun _ _ => rfl⟩
      | ok x =>
        obtain ⟨out, code⟩ := x
        obtain ⟨out', h1, h2⟩ := key.2 out code hmr
        rw [h1]
        refine ⟨⟨rfl, rfl⟩, fun a c => ?_⟩
        have han : ∀ k, analyzing p'.cfg k = analyzing p.cfg k := fun k => by unfold analyzing; rw [c]
        dsimp only
        rw [h2 a, hprog, hprog, han]

/-- The example with a comment in a.py -/
def commentedWorld (text : String) : World :=
  { exampleWorld with parse := fun _ => .ok nonlocalProg [⟨.other, "nonlocal".toList, 1, 0, 1⟩, ⟨.comment, text.toList, 1, 12, 1⟩] }

theorem C96_witness : ∃ p p', parseArgs (commentedWorld "# text").args ["--no-tips", "a.py"] (Config.init 4) = .ok p ∧
    parseArgs (commentedWorld "# text").args ["--no-tips", "--no-parse-comments", "a.py"] (Config.init 4) = .ok p' ∧ SameForFiles p.cfg p'.cfg ∧
    SameSearch p.cfg p'.cfg ∧ p'.cfg.parseComments ≠ p.cfg.parseComments ∧
    (∀ q, Unmarked ((commentedWorld "# text").parse q) ∧ HashComments ((commentedWorld "# text").parse q)) ∧
    program (commentedWorld "# text") ["--no-tips", "--no-parse-comments", "a.py"] = program (commentedWorld "# text") ["--no-tips", "a.py"] := by
  have h1 : parseArgs (commentedWorld "# text").args ["--no-tips", "a.py"] (Config.init 4) =
      .ok { cfg := { Config.init 4 with showTips := false }, paths := ["a.py"], versions := false } := by decide +kernel
  have h2 : parseArgs (commentedWorld "# text").args ["--no-tips", "--no-parse-comments", "a.py"] (Config.init 4) =
      .ok { cfg := { Config.init 4 with showTips := false, parseComments := false }, paths := ["a.py"], versions := false } := by decide +kernel
  have hs : SameForFiles { Config.init 4 with showTips := false } { Config.init 4 with showTips := false, parseComments := false } := by
    constructor <;> first | rfl | exact fun _ => .rfl
  have hd : SameSearch { Config.init 4 with showTips := false } { Config.init 4 with showTips := false, parseComments := false } :=
    ⟨rfl, fun _ => .rfl, rfl, rfl, .rfl⟩
  have hh : ∀ q, HashComments ((commentedWorld "# text").parse q) := by
    intro q t ht
    rcases List.mem_cons.mp ht with rfl | ht
    · decide
    · rw [List.mem_singleton.mp ht]; decide
  have hu : ∀ q, Unmarked ((commentedWorld "# text").parse q) := by
    intro q n hn
    have := (C22_comments _ (hh q) n).mpr hn
    revert this
    rw [show comments _ = [] by decide]
    exact nofun
  exact ⟨_, _, h1, h2, hs, hd, by decide, fun q => ⟨hu q, hh q⟩,
    (C96_program (w := commentedWorld "# text") rfl h1 h2 hs hd rfl rfl .rfl (.inr fun q _ => ⟨hu q, hh q⟩)).2 ⟨rfl, nofun⟩ rfl⟩

/-- With marks it does matter: `if x:  # novm` with `nonlocal x` below -/
theorem C96_marked :
    let parsed := ParseOut.ok (prog [nd .body .if 1 [nm .test "x" 1, nd .body .nonlocal 2 []]])
      [⟨.other, "if".toList, 1, 0, 1⟩, ⟨.comment, "# novm".toList, 1, 7, 1⟩]
    (∃ f, (processIndividual (Config.init 4) exampleHost "a.py" parsed).2 = .ok (some f) ∧ f.mins = some ⟨some ⟨0, 0⟩, some ⟨0, 0⟩⟩) ∧
    ∃ f, (processIndividual { Config.init 4 with parseComments := false } exampleHost "a.py" parsed).2 = .ok (some f) ∧
      f.mins = some ⟨none, some ⟨3, 0⟩⟩ :=
  ⟨⟨⟨"a.py", some ⟨some ⟨0, 0⟩, some ⟨0, 0⟩⟩, "", [1], [], false⟩, by decide +kernel, rfl⟩,
   ⟨⟨"a.py", some ⟨none, some ⟨3, 0⟩⟩, "", [], [], false⟩, by decide +kernel, rfl⟩⟩

end Vermin.Props
