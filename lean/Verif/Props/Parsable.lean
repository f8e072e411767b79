import Verif.Props.Listing
import Verif.Props.Program
/-
Runs with the parsable format (C75).
-/
namespace Vermin.Props
open Vermin Vermin.Py Vermin.Spec

/-! ### Specification -/

/-- A line of the parsable format with a path, a position, versions and a description: it is one line, and splitting it at its first five
colons yields these parts. -/
def ParsesAs (l path : List Char) (line col : Option Nat) (vs : Option Req) (msg : List Char) : Prop :=
  '\n' ∉ l ∧ SplitFive l path (NumText line) (NumText col) (PartText 2 (vs.map (·.py2))) (PartText 3 (vs.map (·.py3))) msg

/-- What is printed consists of the lines. -/
def PrintedLines (out : List String) (ls : List (List Char)) : Prop := out.flatMap String.toList = ls.flatMap (· ++ ['\n'])

/-- The order in which sets are enumerated is an order of their elements. -/
def SetOrders (w : World) : Prop := ∀ q l, ((w.host q).order l).Perm l

/-! ### Proofs -/

theorem parses_format {msg path : Option String} {line col : Option Nat} {vs : Option Req} (hp : ':' ∉ (path.getD "").toList) (hn : '\n' ∉ (path.getD "").toList) :
    ParsesAs (formatParsable msg path line col vs).toList (path.getD "").toList line col vs (Escaped (msg.getD "").toList) :=
  ⟨C43_one_line msg path line col vs hp hn, C43_split msg path line col vs hp⟩

theorem PrintedLines.nil : PrintedLines [] [] := rfl
theorem PrintedLines.append {a b : List String} {x y : List (List Char)} (h : PrintedLines a x) (h' : PrintedLines b y) : PrintedLines (a ++ b) (x ++ y) := by
  unfold PrintedLines at *
  rw [List.flatMap_append, List.flatMap_append, h, h']

/-- The text about a file that was analysed. -/
theorem analyse_lines {env : Env} {n : Node} {f : ProcRes} {m : Req} (hf : env.cfg.format = .parsable) (hv : env.cfg.printVisits = false)
    (ho : SetOrder env) (hp : ':' ∉ env.path.toList) (hn : '\n' ∉ env.path.toList) (h : analyse env n = .ok (some f)) (hm : f.mins = some m) :
    f.path = env.path ∧ ∃ ls, PrintedLines [f.text] ls ∧ ∀ l ∈ ls, ∃ line col vs msg, ParsesAs l env.path.toList line col vs msg := by
  unfold analyse at h
  cases ht : tour env n S.init with
  | error e => rw [ht] at h; cases h
  | ok s =>
    rw [ht] at h
    dsimp only at h
    cases hmin : minimumVersions env s with
    | error e =>
      rw [hmin] at h
      cases e <;> first
        | (cases h; done)
        | (injection h with h; injection h with h; subst h; cases hm)
    | ok x =>
      obtain ⟨s', m'⟩ := x
      rw [hmin] at h
      injection h with h
      injection h with h
      subst h
      refine ⟨rfl, ?_⟩
      have hent : ∀ line ∈ outputLines env s', ∃ msg ln col vs, line = formatParsable (some msg) (some env.path) ln col vs := by
        intro line hl
        obtain ⟨es, hs⟩ := tour_voices env n _ _ ht
        obtain ⟨es', h1, -, h3, -, -⟩ := Recites.minimum hmin
        rw [(C38_once ho s').1, h1, hs.out] at hl
        have hl : line ∈ es.map (Entry.text env) ∨ line ∈ es'.map (Entry.text env) := by simpa [S.init, or_and_right, exists_or] using hl
        have key : ∀ msg ln col vs pl, Entry.text env (.message msg ln col vs pl) = formatParsable (some msg) (some env.path) ln col vs := by
          intro msg ln col vs pl
          show formatLine _ _ _ _ _ _ _ = _
          unfold formatLine
          rw [hf]
        rcases hl with hl | hl <;> obtain ⟨e, he, rfl⟩ := List.mem_map.mp hl
        · cases e with
          | node x =>
            have := (hs.sound _ he : _ ∧ _).1
            rw [hv] at this; cases this
          | message msg ln col vs pl => exact ⟨_, _, _, _, key ..⟩
        · rcases (h3 e he).1 with ⟨-, rfl⟩ | ⟨ent, info, r, -, rfl⟩
          · exact ⟨_, _, _, _, key ..⟩
          · exact ⟨_, _, _, _, key ..⟩
      have hpa : ∀ msg ln col vs, ParsesAs (formatParsable (some msg) (some env.path) ln col vs).toList env.path.toList ln col vs (Escaped msg.toList) :=
        fun msg ln col vs => parses_format (path := some env.path) hp hn
      refine ⟨(outputLines env s').map String.toList, ?_, ?_⟩
      · unfold PrintedLines
        have hne : outputLines env s' ≠ [""] := by
          intro h0
          obtain ⟨msg, ln, col, vs, he⟩ := hent "" (by rw [h0]; exact .head _)
          have := (hpa msg ln col vs).2.eq
          rw [← he] at this
          have := congrArg List.length this
          simp at this
        show [outputText env s'].flatMap String.toList = _
        rw [C67_text env s' hne, List.flatMap_map]
        simp
      · intro l hl
        obtain ⟨line, hline, rfl⟩ := List.mem_map.mp hl
        obtain ⟨msg, ln, col, vs, rfl⟩ := hent line hline
        exact ⟨_, _, _, _, hpa ..⟩

/-- The text about a file. -/
theorem file_lines {c : Config} {h : Host} {path : String} {p : ParseOut} {f : ProcRes} {m : Req} (hf : c.format = .parsable) (hv : c.printVisits = false)
    (ho : ∀ l, (h.order l).Perm l) (hp : ':' ∉ path.toList) (hn : '\n' ∉ path.toList) (hfail : ∀ t, p ≠ .failed t)
    (hr : (processIndividual c h path p).2 = .ok (some f)) (hm : f.mins = some m) :
    f.path = path ∧ ∃ ls, PrintedLines [f.text] ls ∧ ∀ l ∈ ls, ∃ line col vs msg, ParsesAs l path.toList line col vs msg := by
  cases p with
  | notPython => cases hr
  | failed t => exact absurd rfl (hfail t)
  | syntaxError e =>
    injection hr with hr
    injection hr with hr
    subst hr
    exact ⟨rfl, [], rfl, nofun⟩
  | ok node toks =>
    obtain ⟨-, -, h3⟩ := processIndividual_parsed (out := (processIndividual c h path (.ok node toks)).1) (by rw [← hr])
    exact analyse_lines (env := Env.make c h path toks) hf hv ho hp hn h3 hm

/-- The text about all files. -/
theorem files_lines {c : Config} (hf : c.format = .parsable) (hi : c.ignoreIncomp = true) (Q : List Char → Prop) :
    ∀ (l : List (Option ProcRes)) (a : ProcAcc) (ls : List (List Char)), PrintedLines a.out ls →
      (∀ f, some f ∈ l → ∃ m, f.mins = some m ∧ Q f.path.toList ∧ ':' ∉ f.path.toList ∧ '\n' ∉ f.path.toList ∧
        ∃ ls, PrintedLines [f.text] ls ∧ ∀ l ∈ ls, ∃ line col vs msg, ParsesAs l f.path.toList line col vs msg) →
      ∃ ls', PrintedLines (l.foldl (procStep c) a).out (ls ++ ls') ∧ (∀ l ∈ ls', ∃ q, Q q ∧ ∃ line col vs msg, ParsesAs l q line col vs msg) ∧
        (c.onlyShowViolations = false → ∀ f m, some f ∈ l → f.mins = some m → ∃ l ∈ ls', ParsesAs l f.path.toList none none (some m) [])
  | [], a, ls, h, _ => ⟨[], by simpa using h, nofun, fun _ _ _ h => nomatch h⟩
  | none :: l, a, ls, h, hl => by
    obtain ⟨ls', h1, h2, h3⟩ := files_lines hf hi Q l a ls h fun f hf => hl f (.tail _ hf)
    refine ⟨ls', h1, h2, fun ho f m hfl hm => h3 ho f m ?_ hm⟩
    cases hfl with
    | tail _ h => exact h
  | some f :: l, a, ls, h, hl => by
    obtain ⟨m, hm, hq, hp, hn, ts, ht, hts⟩ := hl f (.head _)
    have hsum : ParsesAs (formatParsable none (some f.path) none none (some m)).toList f.path.toList none none (some m) [] := parses_format (path := some f.path) hp hn
    have hout : ∃ xs, PrintedLines (procStep c a (some f)).out (ls ++ xs) ∧ (∀ l ∈ xs, ∃ line col vs msg, ParsesAs l f.path.toList line col vs msg) ∧
        (c.onlyShowViolations = false → (formatParsable none (some f.path) none none (some m)).toList ∈ xs) := by
      have hpo : PrintedLines (outputResult c f.path f.text m) (ts ++ [(formatParsable none (some f.path) none none (some m)).toList]) := by
        unfold outputResult
        rw [hf]
        show PrintedLines ([f.text] ++ [formatParsable none (some f.path) none none (some m) ++ "\n"]) _
        refine ht.append ?_
        simp [PrintedLines]
      obtain ⟨x, hx⟩ : ∃ x, combineVersions c.ignoreIncomp a.mins m = .ok x := by
        cases hc : combineVersions c.ignoreIncomp a.mins m with
        | ok x => exact ⟨x, rfl⟩
        | error e =>
          have := ((C02_combine_raises_iff _ _ _ _).mp ⟨e, hc⟩).1
          rw [hi] at this; cases this
      simp only [procStep, hm, hx]
      cases hs : !c.onlyShowViolations || decide (f.text.length > 0) with
      | false =>
        refine ⟨[], by simpa using h, nofun, fun ho => ?_⟩
        rw [ho] at hs; cases hs
      | true =>
        refine ⟨_, h.append hpo, fun l hl => ?_, fun _ => by simp⟩
        rcases List.mem_append.mp hl with hl | hl
        · exact hts l hl
        · rw [List.mem_singleton.mp hl]; exact ⟨_, _, _, _, hsum⟩
    obtain ⟨xs, hx1, hx2, hx3⟩ := hout
    obtain ⟨ls', h1, h2, h3⟩ := files_lines hf hi Q l _ _ hx1 fun f hf => hl f (.tail _ hf)
    refine ⟨xs ++ ls', by rw [← List.append_assoc]; exact h1, fun l hl => ?_, fun ho g m' hg hm' => ?_⟩
    · rcases List.mem_append.mp hl with hl | hl
      · exact ⟨_, hq, hx2 l hl⟩
      · exact h2 l hl
    · cases hg with
      | head =>
        rw [hm] at hm'; cases hm'
        exact ⟨_, List.mem_append_left _ (hx3 ho), hsum⟩
      | tail _ hg =>
        obtain ⟨l, hl, hll⟩ := h3 ho g m' hg hm'
        exact ⟨l, List.mem_append_right _ hl, hll⟩

/-- The report is one line. -/
theorem report_parsable {c : Config} {acc : ProcAcc} {out : List String} {code : Nat} (hf : c.format = .parsable) (hi : c.ignoreIncomp = true)
    (ht : c.showTips = false) (h : report c false acc = .ok (out, code)) : out = [formatParsable none none none none (some acc.mins) ++ "\n"] := by
  obtain ⟨mins, incomps, range, line, h1, h2, h3, h4, rfl⟩ := report_parts h
  unfold reportMins at h1
  rw [if_pos hf] at h1
  unfold reportIncomps at h2
  rw [if_neg (fun h => h.2.1 hf)] at h2
  unfold reportRange at h3
  rw [if_neg (fun h => Bool.false_ne_true h.1)] at h3
  cases h1; cases h2; cases h3
  have hl : line = [] := by
    unfold reportTargets at h4
    split at h4
    · try rw [if_pos hf] at h4
      cases h4; rfl
    · cases h4; rfl
  rw [hl]
  unfold reportHead
  simp [hf, hi, ht]

/-- **C75.** With the parsable format (and the settings that belong to it), everything `main` prints can be parsed: one line after another about the files,
with a summary for each of them, and a last line with the versions required by all files and without a path.  Provided that there are files, that all can be read, and that visits are not printed. -/
theorem C75_parsable_partial {w : World} (hw : Surroundings w) {argv : List String} {p : Vermin.Parsed} (ho : Orderly w argv p) (hs : SetOrders w)
    (hf : p.cfg.format = .parsable) (hset : ParsableSettings p.cfg) (hv : p.cfg.printVisits = false) (hne : ∃ q, AnalysedPath w p q)
    (hfail : ∀ q t, AnalysedPath w p q → w.parse q ≠ .failed t) {files : List (List String)} {out : List String} {code : Nat}
    (h : program w argv = .exit files out code) :
    ∃ ls last m, PrintedLines out (ls ++ [last]) ∧
      (∀ l ∈ ls, ∃ q, AnalysedPath w p q ∧ ∃ line col vs msg, ParsesAs l q line col vs msg) ∧
      (p.cfg.onlyShowViolations = false → ∀ q, AnalysedPath w p q → w.parse q ≠ .notPython →
        ∃ l ∈ ls, ∃ m, Overall (FileReq w (localConfig p.cfg) q) m ∧ ParsesAs l q none none (some m) []) ∧
      ParsesAs last [] none none (some m) [] ∧ Overall (Required w p) m := by
  obtain ⟨-, hi, htips⟩ := hset
  obtain ⟨paths, l, out', hmem, hnil, h2, hout, -, hov, -, -, -, l1, l2⟩ := orderly_run hw ho h
  have hpath : ∀ q ∈ paths, ':' ∉ q ∧ '\n' ∉ q := by
    rcases program_parts ho.args with ⟨e', h1, _⟩ | ⟨h1, -⟩ | ⟨paths', hp, _⟩
    · rw [h] at h1; cases h1
    · rw [h] at h1; cases h1
    · intro q hq
      exact C44_parsable hp hf hw.cwd q (((C44_main hp).2.2 q).mpr ((hmem q).mp hq))
  obtain ⟨e1, e2, -, -⟩ := localConfig_same p.cfg
  have hi' : (localConfig p.cfg).ignoreIncomp = true := by unfold localConfig; split <;> exact hi
  have hv' : (localConfig p.cfg).printVisits = false := by unfold localConfig; split <;> exact hv
  have hl : l ≠ [] := by
    intro hl
    obtain ⟨q, hq⟩ := hne
    have := (hmem q).mpr hq
    rw [hnil.mp hl] at this; cases this
  obtain ⟨rep, hrep, rfl⟩ := mainRun_okOuts hl h2
  rw [C53_versions hw.paths ho.args hf] at hrep
  rw [report_parsable hf hi htips hrep] at hout
  have each : ∀ f, some f ∈ l → ∃ q ∈ paths, f.path.toList = q ∧ (processIndividual (localConfig p.cfg) (w.host q) (String.ofList q) (w.parse q)).2 = .ok (some f) ∧
      ∃ m, f.mins = some m ∧ ∃ ls, PrintedLines [f.text] ls ∧ ∀ l ∈ ls, ∃ line col vs msg, ParsesAs l f.path.toList line col vs msg := by
    intro f hfl
    obtain ⟨q, hq, hr⟩ := l2 _ hfl
    obtain ⟨m, hm⟩ := file_compatible ho.compatible ((hmem q).mp hq) hr
    have hg := hpath q hq
    rw [← String.toList_ofList (l := q)] at hg
    obtain ⟨h1, h2⟩ := file_lines (e1.trans hf) hv' (hs q) hg.1 hg.2 (fun t => hfail q t ((hmem q).mp hq)) hr hm
    have h3 : f.path.toList = q := by rw [h1, String.toList_ofList]
    refine ⟨q, hq, h3, hr, m, hm, ?_⟩
    rw [h1]; exact h2
  obtain ⟨ls, h3, h4, h5⟩ := files_lines (e1.trans hf) hi' (AnalysedPath w p) l ProcAcc.init [] rfl fun f hfl => by
    obtain ⟨q, hq, h3, -, m, hm, hx⟩ := each f hfl
    refine ⟨m, hm, ?_, ?_, ?_, hx⟩ <;> rw [h3]
    · exact (hmem q).mp hq
    · exact (hpath q hq).1
    · exact (hpath q hq).2
  refine ⟨ls, (formatParsable none none none none (some (processed (localConfig p.cfg) l).mins)).toList, _, ?_, h4, fun hvi q hq hpy => ?_,
    parses_format (path := none) (by decide) (by decide), hov⟩
  · rw [hout]
    have hpr : ∀ msg, progress p.cfg msg = [] := fun msg => by unfold progress; rw [if_pos hf]
    have hpr' : (if paths.length = 0 then [] else progress p.cfg (analyzing p.cfg paths.length)) = [] := by rw [hpr]; split <;> rfl
    rw [hpr, hpr', List.nil_append, List.nil_append]
    exact PrintedLines.append h3 (by simp [PrintedLines])
  · obtain ⟨x, hx, hr⟩ := l1 q ((hmem q).mpr hq)
    cases x with
    | none =>
      exfalso
      cases hpq : w.parse q with
      | notPython => exact hpy hpq
      | failed t => exact hfail q t hq hpq
      | syntaxError e => rw [hpq] at hr; cases hr
      | ok node toks =>
        rw [hpq] at hr
        obtain ⟨-, -, h3⟩ := processIndividual_parsed (out := (processIndividual (localConfig p.cfg) (w.host q) (String.ofList q) (.ok node toks)).1) (by rw [← hr])
        unfold analyse at h3
        split at h3
        · cases h3
        · split at h3 <;> cases h3
    | some f =>
      obtain ⟨m, hm⟩ := file_compatible ho.compatible hq hr
      have hp : f.path.toList = q := by
        have hg := hpath q ((hmem q).mpr hq)
        rw [← String.toList_ofList (l := q)] at hg
        rw [(file_lines (e1.trans hf) hv' (hs q) hg.1 hg.2 (fun t => hfail q t hq) hr hm).1, String.toList_ofList]
      obtain ⟨l, hl, hll⟩ := h5 (e2.trans hvi) f m hx hm
      exact ⟨l, hl, m, file_result hr hm, hp ▸ hll⟩

/-! ### Syntax errors -/

theorem partText_req (r : Req) : (reqString r ":").toList = PartText 2 (some r.py2) ++ ':' :: PartText 3 (some r.py3) := by
  simp only [reqString, Req.vals, versionStringsFrom, versionString_part, String.toList_ofList]
  rw [if_neg (by decide)]
  simp [join]

theorem parses_text {loc vs msg : String} {path : String} {line col : Nat} {r : Req} (hloc : loc = path ++ ":" ++ numberText line ++ ":" ++ numberText col)
    (hp : ':' ∉ path.toList) (hn : '\n' ∉ path.toList) (hv : vs.toList = PartText 2 (some r.py2) ++ ':' :: PartText 3 (some r.py3)) (hm : '\n' ∉ msg.toList) :
    ParsesAs (loc ++ ":" ++ (vs ++ ":") ++ msg).toList path.toList (some line) (some col) (some r) msg.toList := by
  have hcol : ∀ n, ':' ∉ Nat.toDigits 10 n := fun n => not_mem_strNat (by decide)
  have hnl : ∀ n, '\n' ∉ Nat.toDigits 10 n := fun n => not_mem_strNat (by decide)
  have hpart : ∀ M o, ':' ∉ PartText M o := partText_free ':' (by decide) (by decide) (by decide) (by decide)
  have hpart' : ∀ M o, '\n' ∉ PartText M o := partText_free '\n' (by decide) (by decide) (by decide) (by decide)
  have e : (loc ++ ":" ++ (vs ++ ":") ++ msg).toList = path.toList ++ ':' :: (Nat.toDigits 10 line ++ ':' :: (Nat.toDigits 10 col ++ ':' ::
      (PartText 2 (some r.py2) ++ ':' :: (PartText 3 (some r.py3) ++ ':' :: msg.toList)))) := by
    subst hloc
    simp [numberText, hv]
  refine ⟨?_, e, hp, hcol _, hcol _, hpart _ _, hpart _ _⟩
  rw [e]
  simp only [List.mem_append, List.mem_cons, hn, hnl, hpart', hm, false_or, or_false]
  decide

theorem escaped_text {c : Config} (hf : c.format = .parsable) (e : SynErr) : '\n' ∉ synText c e := by
  unfold synText
  dsimp only
  rw [if_pos hf, escaped_eq]
  exact newline_escaped _

/-- **C75.** What is printed about a syntax error can be parsed too: the position of the error, and the versions that are taken from it. -/
theorem C75_syntax {c : Config} {major : Nat} {e : SynErr} {path : String} {line col : Nat} (hf : c.format = .parsable)
    (hloc : e.loc = path ++ ":" ++ numberText line ++ ":" ++ numberText col) (hp : ':' ∉ path.toList) (hn : '\n' ∉ path.toList) (hm : '\n' ∉ e.msg.toList) :
    ∀ x ∈ (detectSyntaxError c major e).1, ∃ l msg, PrintedLines [x] [l] ∧ ParsesAs l path.toList (some line) (some col) (some (detectSyntaxError c major e).2) msg := by
  have ht := escaped_text hf e
  have key : ∀ {vs msg : String} {r : Req} {x : String}, vs.toList = PartText 2 (some r.py2) ++ ':' :: PartText 3 (some r.py3) → '\n' ∉ msg.toList →
      x ∈ vvprintMsg c (e.loc ++ ":" ++ (vs ++ ":") ++ msg) → ∃ l msg, PrintedLines [x] [l] ∧ ParsesAs l path.toList (some line) (some col) (some r) msg := by
    intro vs msg r x hv hmsg hx
    unfold vvprintMsg at hx
    split at hx
    · rw [List.mem_singleton.mp hx]
      exact ⟨_, _, by simp [PrintedLines], parses_text hloc hp hn hv hmsg⟩
    · cases hx
  intro x hx
  unfold detectSyntaxError at hx ⊢
  dsimp only at hx ⊢
  split
  · rename_i h
    rw [if_pos h] at hx
    refine key (vs := "2.0:!3") (r := ⟨some ⟨2, 0⟩, none⟩) (msg := "info: `" ++ String.ofList (synText c e) ++ "` requires 2.0") (by decide +kernel) ?_ ?_
    · simp [ht]
    · rw [show e.loc ++ ":" ++ ("2.0:!3" ++ ":") ++ ("info: `" ++ String.ofList (synText c e) ++ "` requires 2.0") =
        e.loc ++ ":" ++ ifParsable c "2.0:!3:" ++ "info: `" ++ String.ofList (synText c e) ++ "` requires 2.0" by
          unfold ifParsable; rw [if_pos hf, String.ext_iff]; simp]
      exact hx
  · rename_i h
    rw [if_neg h] at hx
    split
    · rename_i h
      rw [if_pos h] at hx
      refine key (vs := "!2:3.12") (r := ⟨none, some ⟨3, 12⟩⟩) (msg := "info: type alias statement `" ++ String.ofList (synText c e) ++ "` requires !2, 3.12") (by decide +kernel) ?_ ?_
      · simp [ht]
      · rw [show e.loc ++ ":" ++ ("!2:3.12" ++ ":") ++ ("info: type alias statement `" ++ String.ofList (synText c e) ++ "` requires !2, 3.12") =
          e.loc ++ ":" ++ ifParsable c "!2:3.12:" ++ "info: type alias statement `" ++ String.ofList (synText c e) ++ "` requires !2, 3.12" by
            unfold ifParsable; rw [if_pos hf, String.ext_iff]; simp]
        exact hx
    · rename_i h
      rw [if_neg h] at hx
      refine key (msg := "error: " ++ e.msg ++ ": " ++ String.ofList (synText c e)) (partText_req _) ?_ ?_
      · simp [ht, hm]
      · rw [show e.loc ++ ":" ++ (reqString (synMins c major) ":" ++ ":") ++ ("error: " ++ e.msg ++ ": " ++ String.ofList (synText c e)) =
          e.loc ++ ":" ++ ifParsable c (reqString (synMins c major) ":" ++ ":") ++ "error: " ++ e.msg ++ ": " ++ String.ofList (synText c e) by
            unfold ifParsable; rw [if_pos hf, String.ext_iff]; simp]
        exact hx

/-! ### Progress -/

/-- The lines about the progress of a run over `n` files. -/
def progressLines (processes n : Nat) : List String :=
  if n = 0 then ["Detecting python files..\n"]
  else if n = 1 then ["Detecting python files..\n", "Analyzing using " ++ numberText processes ++ " processes..\n"]
  else ["Detecting python files..\n", "Analyzing " ++ numberText n ++ " files using " ++ numberText processes ++ " processes..\n"]

theorem progress_default {c : Config} (hf : c.format = .default) (hv : c.verbose ≥ 1) (hq : c.quiet = false) (msg : String) : progress c msg = [msg ++ "\n"] := by
  unfold progress vprint
  simp [hf, hv, hq]
theorem progress_none {c : Config} (h : ¬ (c.format = .default ∧ c.verbose ≥ 1 ∧ c.quiet = false)) (msg : String) : progress c msg = [] := by
  unfold progress vprint
  cases hf : c.format with
  | parsable => simp
  | default =>
    have : ¬ (c.verbose ≥ 1 ∧ ¬ c.quiet = true) := fun hv => h ⟨hf, hv.1, by simpa using hv.2⟩
    rw [if_neg nofun, if_neg this]

theorem progress_lines (c : Config) (n : Nat) : progress c "Detecting python files.." ++ (if n = 0 then [] else progress c (analyzing c n)) =
    if c.format = .default ∧ c.verbose ≥ 1 ∧ c.quiet = false then progressLines c.processes n else [] := by
  by_cases h : c.format = .default ∧ c.verbose ≥ 1 ∧ c.quiet = false
  · rw [if_pos h, progress_default h.1 h.2.1 h.2.2, progress_default h.1 h.2.1 h.2.2]
    unfold progressLines analyzing numberText
    by_cases h0 : n = 0
    · subst h0; simp
    by_cases h1 : n = 1
    · subst h1
      simp [strNat, String.ext_iff]
    · have : n > 1 := by omega
      simp [h0, h1, this, strNat, String.ext_iff]
  · rw [if_neg h, progress_none h, progress_none h]
    split <;> rfl

/-- **C75.** Progress is shown with the default format if verbose, and never with the parsable one. -/
theorem C75_progress {w : World} {argv : List String} {p : Vermin.Parsed} (hargs : parseArgs w.args argv (Config.init w.args.cpus) = .ok p)
    {files : List (List String)} {out : List String} {code : Nat} (h : program w argv = .exit files out code) :
    ∃ (paths : List (List Char)) (rest : List String), paths.Nodup ∧ (∀ q, q ∈ paths ↔ AnalysedPath w p q) ∧
      mainRun p.cfg p.versions ((w.results p.cfg paths).map Prod.snd) = .ok (rest, code) ∧
      out = (if p.cfg.format = .default ∧ p.cfg.verbose ≥ 1 ∧ p.cfg.quiet = false then progressLines p.cfg.processes paths.length else []) ++ rest := by
  rcases program_parts hargs with ⟨e', h1, _⟩ | ⟨h1, -⟩ | ⟨paths, hp, ⟨e', h1, h2⟩ | ⟨out', code', h2, h1⟩⟩
  · rw [h] at h1; cases h1
  · rw [h] at h1; cases h1
  · rw [h] at h1; cases h1
  rw [h] at h1
  injection h1 with _ hout h1
  subst h1
  refine ⟨paths, out', (C44_main hp).1, (C44_main hp).2.2, h2, ?_⟩
  rw [hout]
  congr 1
  exact progress_lines p.cfg paths.length

/-! ### Examples and counterexamples -/

/-- `vermin -f parsable a.py` -/
def parsableParsed : Vermin.Parsed :=
  { cfg := { Config.init 4 with format := .parsable, verbose := 3, ignoreIncomp := true, showTips := false }, paths := ["a.py"], versions := false }

/-- What a run prints. -/
def printedBy (w : World) (argv : List String) : Option (List Char) :=
  match program w argv with
  | .exit _ out _ => some (out.flatMap String.toList)
  | _ => none

/-- Example: `vermin -f parsable a.py` -/
theorem C75_witness : Surroundings exampleWorld ∧ Orderly exampleWorld ["-f", "parsable", "a.py"] parsableParsed ∧ SetOrders exampleWorld ∧
    ParsableSettings parsableParsed.cfg ∧ parsableParsed.cfg.printVisits = false ∧ AnalysedPath exampleWorld parsableParsed "/a.py".toList ∧
    (∀ q t, AnalysedPath exampleWorld parsableParsed q → exampleWorld.parse q ≠ .failed t) ∧
    printedBy exampleWorld ["-f", "parsable", "a.py"] = some "/a.py:1::!2:3.0:`nonlocal`\n/a.py:::!2:3.0:\n:::!2:3.0:\n".toList := by
  have hargs : parseArgs exampleWorld.args ["-f", "parsable", "a.py"] (Config.init exampleWorld.args.cpus) = .ok parsableParsed := by
    decide +kernel
  have hpaths : mainPaths exampleWorld.fs parsableParsed.cfg exampleWorld.rounds (parsableParsed.paths.map String.toList) =
      .ok (some ["/a.py".toList]) := by decide +kernel
  have hmem := (C44_main hpaths).2.2
  exact ⟨example_surroundings, ⟨hargs, fun q _ => nonlocal_analysable _ _ _, .inl rfl⟩, fun _ l => .refl l, ⟨by decide, rfl, rfl⟩, rfl,
    (hmem _).mp List.mem_cons_self, nofun, by decide +kernel⟩

/-- Without files there is a line that cannot be parsed. -/
theorem C75_false_no_files : printedBy exampleWorld ["-f", "parsable", "b.py"] = some "No files specified to analyze!\n".toList := by decide +kernel
/-- The text about a file that cannot be read is in the same line as its summary: the line seems to be about the file `/a.py` at line " <class 'PermissionError'>, denied/a.py". -/
theorem C75_false_failed : printedBy { exampleWorld with parse := fun _ => .failed "/a.py: <class 'PermissionError'>, denied" } ["-f", "parsable", "a.py"] =
    some "/a.py: <class 'PermissionError'>, denied/a.py:::~2:~3:\n:::~2:~3:\n".toList := by decide +kernel
/-- Printed visits cannot be parsed. -/
theorem C75_false_visits : printedBy exampleWorld ["-f", "parsable", "-d", "a.py"] =
    some "| \n| | \n/a.py:1::!2:3.0:`nonlocal`\n/a.py:::!2:3.0:\n:::!2:3.0:\n".toList := by decide +kernel
/-- Example: a syntax error -/
theorem C75_witness_syntax : (detectSyntaxError parsableParsed.cfg 3 ⟨some "print 1\n", "Missing parentheses in call to 'print'. Did you mean print(...)?", "/a.py:3:7"⟩).1 =
    ["/a.py:3:7:2.0:!3:info: `print 1` requires 2.0\n"] := by decide +kernel
/-- Example: progress -/
theorem C75_witness_progress : printedBy exampleWorld ["-v", "--no-tips", "a.py"] =
    some "Detecting python files..\nAnalyzing using 4 processes..\n!2, 3.0      /a.py\nMinimum required versions: 3.0\nIncompatible versions:     2\n".toList := by decide +kernel

end Vermin.Props
