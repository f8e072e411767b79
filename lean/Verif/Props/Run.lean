import Verif.Props.Report
import Verif.Props.File
/-
C64: the output of a whole run, and C57 for runs.
-/
namespace Vermin.Props
open Vermin Vermin.Py Vermin.Spec

/-- Python 2 is excluded and nothing is known about Python 3. -/
def Bare (m : Req) : Prop := m.py2 = none ∧ m.py3 = some Ver.zero

/-- The parts are for their major versions, and a requirement that excludes Python 2 knows a version of Python 3. -/
def Usual (m : Req) : Prop := Majored m ∧ ¬ Bare m

theorem usual_unknown : Usual Req.unknown :=
  ⟨⟨fun v hv => .inl (by injection hv with hv; exact hv.symm), fun v hv => .inl (by injection hv with hv; exact hv.symm)⟩,
    fun h => nomatch h.1⟩

theorem not_bare_join {a b : Req} (ha : ¬ Bare a) (hb : ¬ Bare b) : ¬ Bare (joinReq a b) := by
  rintro ⟨h2, h3⟩
  have hz : ∀ v : Ver, v ≤ Ver.zero → v = Ver.zero := by
    intro v h
    have h : v.le Ver.zero := h
    unfold Ver.le Ver.zero at h
    cases v with | mk x y => simp only at h; simp [Ver.zero]; omega
  have hmax : ∀ x y : Ver, x.max y = Ver.zero → x = Ver.zero ∧ y = Ver.zero := by
    intro x y h
    cases x with | mk x1 x2 => cases y with | mk y1 y2 =>
    have h1 := h
    unfold Ver.max at h1
    split at h1
    · rename_i hlt
      refine ⟨?_, h1⟩
      rw [h1] at hlt
      exact absurd hlt (by show ¬ Ver.lt _ _; unfold Ver.lt Ver.zero; simp only; omega)
    · rename_i hlt
      refine ⟨h1, ?_⟩
      rw [h1] at hlt
      apply hz
      show Ver.le _ _
      have hlt : ¬ Ver.lt _ _ := hlt
      unfold Ver.lt Ver.zero at hlt
      unfold Ver.le Ver.zero
      simp only at hlt ⊢; omega
  rcases a with ⟨a2, a3⟩
  rcases b with ⟨b2, b3⟩
  cases a3 with
  | none => cases h3
  | some a3 =>
    cases b3 with
    | none => cases h3
    | some b3 =>
      simp only [joinReq, combineOpt, Option.some.injEq] at h3
      obtain ⟨h4, h5⟩ := hmax _ _ h3
      subst h4; subst h5
      cases a2 with
      | none => exact ha ⟨rfl, rfl⟩
      | some a2 =>
        cases b2 with
        | none => exact hb ⟨rfl, rfl⟩
        | some b2 => cases h2

theorem usual_combine {ign : Bool} {a b c : Req} {refs : Option Refs} (h : combineVersions ign a b refs = .ok c) (ha : Usual a) (hb : Usual b) :
    Usual c := by
  refine ⟨?_, by rw [combineVersions_ok h]; exact not_bare_join ha.2 hb.2⟩
  have hj := combineVersions_ok h
  have : combineVersions true a b = .ok c := by rw [hj]; rfl
  exact combineVersions_majored this ha.1 hb.1

theorem SaneRule.usual {r : Req} (h : SaneRule r) : Usual r := by
  obtain ⟨h2, h3, _⟩ := h
  refine ⟨⟨fun v hv => .inr ?_, fun v hv => .inr ?_⟩, fun hb => ?_⟩
  · rcases h2 with h2 | ⟨m, _, h2⟩
    · rw [h2] at hv; cases hv
    · rw [h2] at hv; injection hv with hv; rw [← hv]
  · rcases h3 with h3 | ⟨m, _, h3⟩
    · rw [h3] at hv; cases hv
    · rw [h3] at hv; injection hv with hv; rw [← hv]
  · rcases h3 with h3 | ⟨m, _, h3⟩
    · rw [hb.2] at h3; cases h3
    · rw [hb.2] at h3; injection h3 with h3; cases h3

theorem Enforced_usual {f : Flag} {r : Req} (h : Enforced f = some r) : Usual r := by
  have key : ∀ x2 x3, ((x2 = none ∨ ∃ v : Ver, x2 = some v ∧ (v = Ver.zero ∨ v.major = 2)) ∧ (x3 = none ∨ ∃ v : Ver, x3 = some v ∧
      (v = Ver.zero ∨ v.major = 3)) ∧ ¬ (x2 = none ∧ x3 = some Ver.zero)) → Usual ⟨x2, x3⟩ := by
    rintro x2 x3 ⟨h1, h2, h3⟩
    refine ⟨⟨fun v hv => ?_, fun v hv => ?_⟩, h3⟩
    · rcases h1 with h1 | ⟨w, h1, hw⟩
      · have hv : x2 = some v := hv
        rw [h1] at hv; cases hv
      · have hv : x2 = some v := hv
        rw [h1] at hv; injection hv with hv; rw [← hv]; exact hw
    · rcases h2 with h2 | ⟨w, h2, hw⟩
      · have hv : x3 = some v := hv
        rw [h2] at hv; cases hv
      · have hv : x3 = some v := hv
        rw [h2] at hv; injection hv with hv; rw [← hv]; exact hw
  cases f <;> first
    | (cases h; done)
    | (injection h with h; subst h; exact key _ _ ⟨by first | exact .inl rfl | exact .inr ⟨_, rfl, by decide⟩,
        by first | exact .inl rfl | exact .inr ⟨_, rfl, by decide⟩, by decide⟩)

/-- Something that holds of the rules, of the language features and when nothing is known, and is kept by combining. -/
structure Kept (P : Req → Prop) : Prop where
  rule : ∀ {r}, SaneRule r → P r
  feature : ∀ {f r}, Enforced f = some r → P r
  unknown : P Req.unknown
  join : ∀ {a b}, P a → P b → P (joinReq a b)

theorem Kept.mem {P : Req → Prop} (hP : Kept P) (cfg : Config) {k : String} {r : Req} (h : (Tables.std cfg).mem k = some r) : P r := by
  simp only [Tables.std] at h
  cases hv : Dict.get? (dictDisplay Data.memReqs) k with
  | none => rw [hv] at h; cases h
  | some v =>
    rw [hv] at h
    injection h with h
    rw [← h]
    exact hP.rule (C12_members _ ((C13_lookup.2.1 _ _).mp hv))
theorem Kept.kw {P : Req → Prop} (hP : Kept P) (cfg : Config) {f k : String} {r : Req} (h : (Tables.std cfg).kw (f, some k) = some r) : P r := by
  simp only [Tables.std] at h
  cases hv : Dict.get? (dictDisplay Data.kwReqs) (f, k) with
  | none => rw [hv] at h; cases h
  | some v =>
    rw [hv] at h
    injection h with h
    rw [← h]
    exact hP.rule (C12_kwargs _ ((C13_lookup.2.2 _ _).mp hv))

/-- With the tables of rules.py it holds of every finding. -/
theorem Kept.requires {P : Req → Prop} (hP : Kept P) {env : Env} (ht : env.tables = Tables.std env.cfg) {s : S} {r : Req}
    (h : Requires env s r) : P r := by
  have small : ∀ {t : List (String × Req)} {k : String},
      t ∈ [Data.strftimeReqs, Data.bytesReqs, Data.arrayTypecodeReqs, Data.codecsErrorHandlers, Data.decoratorUserFunctions] →
      Dict.get? (dictDisplay t) k = some r → P r := fun ht h => hP.rule (C12_small ht ((C13_small ht _ _).mp h))
  cases h with
  | feature _ he => exact hP.feature he
  | strftime _ h => rw [ht] at h; exact small (.head _) h
  | bytesDir _ h => rw [ht] at h; exact small (.tail _ (.head _)) h
  | typecode _ h => rw [ht] at h; exact small (.tail _ (.tail _ (.head _))) h
  | errorHandler _ h => rw [ht] at h; exact small (.tail _ (.tail _ (.tail _ (.head _)))) h
  | encoding _ he _ => rw [ht] at he; exact hP.rule (C12_encodings he)
  | module _ h =>
    rw [ht] at h
    obtain ⟨v, hv, rfl⟩ := Option.map_eq_some_iff.mp h
    rcases C12_modules env.cfg.backports ((C13_lookup.1 _ _).mp hv) with h | ⟨_, h, _⟩
    · exact hP.rule h
    · rw [h]; exact hP.unknown
  | member _ h =>
    rw [ht] at h
    exact hP.mem _ h
  | @kwarg k _ _ h =>
    rw [ht] at h
    obtain ⟨f, k⟩ := k
    cases k with
    | none => cases h
    | some k => exact hP.kw _ h
  | decorator _ h => rw [ht] at h; exact small (.tail _ (.tail _ (.tail _ (.tail _ (.head _))))) h

theorem Kept.joinAll {P : Req → Prop} (hP : Kept P) : ∀ (l : List Req) {acc : Req}, P acc → (∀ r ∈ l, P r) → P (joinAll acc l)
  | [], _, ha, _ => ha
  | r :: l, _, ha, h => hP.joinAll l (hP.join ha (h r List.mem_cons_self)) fun r hr => h r (List.mem_cons_of_mem _ hr)

/-- It holds of minimum versions. -/
theorem Kept.minimum {P : Req → Prop} (hP : Kept P) {env : Env} (ht : env.tables = Tables.std env.cfg) {s s' : S} {m : Req}
    (h : minimumVersions env s = .ok (s', m)) : P m := by
  rw [combineFrom_ok (minimum_combine h)]
  exact hP.joinAll _ hP.unknown fun r hr => hP.requires ht ((mem_allReqs _ _ _).mp hr)

/-- What holds of the results of all files holds of their combination. -/
theorem Kept.processed {P : Req → Prop} (hP : Kept P) {cfg : Config} {l : List (Option ProcRes)} (h : ∀ m ∈ fileMins l, P m) :
    P (processed cfg l).mins := by
  have key : ∀ (l : List (Option ProcRes)) (a : ProcAcc), (∀ m ∈ fileMins l, P m) → P a.mins →
      P (l.foldl (procStep cfg) a).mins := by
    intro l
    induction l with
    | nil => intro a _ ha; exact ha
    | cons x l ih =>
      intro a hl ha
      rw [fileMins_cons] at hl
      refine ih _ (fun m hm => hl m (by simp [hm])) ?_
      rw [procStep_mins]
      cases hm : x.bind (·.mins) with
      | none => exact ha
      | some m =>
        simp only
        cases hc : combineVersions cfg.ignoreIncomp a.mins m with
        | ok c => rw [combineVersions_ok hc]; exact hP.join ha (hl m (by simp [hm]))
        | error e => exact ha
  exact key l ProcAcc.init h hP.unknown

theorem usual_kept : Kept Usual where
  rule := SaneRule.usual
  feature := Enforced_usual
  unknown := usual_unknown
  join ha hb := usual_combine (ign := true) (refs := none) rfl ha hb

/-- Python 3 is excluded and nothing is known about Python 2. -/
def Bare2 (m : Req) : Prop := m.py3 = none ∧ m.py2 = some Ver.zero

/-- A major version is only excluded if a version of the other one is known. -/
def Firm (m : Req) : Prop := Usual m ∧ ¬ Bare2 m

theorem firm_kept : Kept Firm where
  rule {r} h := ⟨h.usual, fun hb => by
    obtain ⟨h2, _, _⟩ := h
    rcases h2 with h2 | ⟨m, _, h2⟩
    · rw [hb.2] at h2; cases h2
    · rw [hb.2] at h2; injection h2 with h2; cases h2⟩
  feature {f r} h := ⟨Enforced_usual h, by
    have : ∀ f r, Enforced f = some r → ¬ (r.py3 = none ∧ r.py2 = some Ver.zero) := by
      intro f r h
      cases f <;> first
        | (cases h; done)
        | (injection h with h; subst h; decide)
    exact this f r h⟩
  unknown := ⟨usual_unknown, fun h => nomatch h.1⟩
  join {a b} ha hb := ⟨usual_kept.join ha.1 hb.1,
    not_bare_join (a := ⟨a.py3, a.py2⟩) (b := ⟨b.py3, b.py2⟩) ha.2 hb.2⟩

theorem usual_processed {cfg : Config} {l : List (Option ProcRes)} (h : ∀ m ∈ fileMins l, Usual m) : Usual (processed cfg l).mins :=
  usual_kept.processed h

theorem syntaxError_usual {c : Config} {major : Nat} (hm : major ≠ 2) (e : SynErr) : Usual (detectSyntaxError c major e).2 := by
  have h0 : Usual ⟨some Ver.zero, none⟩ :=
    ⟨⟨fun v hv => .inl (by injection hv with hv; exact hv.symm), fun v hv => by cases hv⟩, fun h => nomatch h.1⟩
  unfold detectSyntaxError
  dsimp only
  split
  · exact ⟨⟨fun v hv => .inr (by injection hv with hv; rw [← hv]), fun v hv => by cases hv⟩, fun h => nomatch h.1⟩
  · split
    · exact ⟨⟨fun v hv => (by cases hv), fun v hv => .inr (by injection hv with hv; rw [← hv])⟩, fun h => by
        have h := h.2
        injection h with h
        cases h⟩
    · show Usual (synMins c major)
      unfold synMins
      rw [if_neg hm]
      split
      · exact h0
      · exact usual_unknown

/-- C64: with Python 3 the minimum versions of every file are usual, and its possible backports are known ones. -/
theorem C64_files {c : Config} {h : Host} {path : String} {p : ParseOut} {out : List String} {f : ProcRes} (hm : h.major ≠ 2)
    (hr : processIndividual c h path p = (out, .ok (some f))) :
    (∀ m, f.mins = some m → Usual m) ∧ ∀ b ∈ f.bps, isBackport b = true := by
  cases p with
  | notPython => cases hr
  | failed t =>
    injection hr with _ hr
    injection hr with hr
    injection hr with hr
    subst hr
    exact ⟨fun m hm => by injection hm with hm; rw [← hm]; exact usual_unknown, nofun⟩
  | syntaxError e =>
    injection hr with _ hr
    injection hr with hr
    injection hr with hr
    subst hr
    exact ⟨fun m h' => by injection h' with h'; rw [← h']; exact syntaxError_usual hm e, nofun⟩
  | ok node toks =>
    obtain ⟨_, _, ha⟩ := processIndividual_parsed hr
    unfold analyse at ha
    cases ht : tour (Env.make c h path toks) node S.init with
    | error e => rw [ht] at ha; cases ha
    | ok s =>
      rw [ht] at ha
      dsimp only at ha
      cases hv : minimumVersions (Env.make c h path toks) s with
      | error e =>
        rw [hv] at ha
        cases e <;> first
          | (cases ha; done)
          | (injection ha with ha; injection ha with ha; subst ha; exact ⟨nofun, nofun⟩)
      | ok x =>
        obtain ⟨s', m⟩ := x
        rw [hv] at ha
        injection ha with ha
        injection ha with ha
        subst ha
        refine ⟨fun m' h' => ?_, fun b hb => ?_⟩
        · injection h' with h'
          rw [← h']
          exact usual_kept.minimum rfl hv
        · rw [mem_foldl_addSet, List.mem_filter] at hb
          rcases hb with hb | hb
          · cases hb
          · exact hb.2

theorem processed_backports_nodup (cfg : Config) (l : List (Option ProcRes)) : (processed cfg l).backports.Nodup := by
  have key : ∀ (l : List (Option ProcRes)) (a : ProcAcc), a.backports.Nodup → (l.foldl (procStep cfg) a).backports.Nodup := by
    intro l
    induction l with
    | nil => intro a ha; exact ha
    | cons x l ih =>
      intro a ha
      refine ih _ ?_
      cases x with
      | none => rw [procStep_none]; exact ha
      | some f =>
        cases hm : f.mins with
        | none => rw [procStep_incompatible hm]; exact ha
        | some m => rw [(procStep_gathers hm).2.2]; exact nodup_foldl_addSet _ ha
  exact key l ProcAcc.init List.nodup_nil

/-- C64: the output of a run is what is printed about the files, followed by exactly the lines of the report (and empty ones). -/
theorem C64_run (cfg : Config) (versions : Bool) (l : List (Option ProcRes)) (hl : l ≠ []) (hp : ∀ m ∈ fileMins l, Usual m)
    (hb : ∀ f m, Analysed l f m → ∀ b ∈ f.bps, isBackport b = true) :
    ∃ rep code, mainRun cfg versions (okOuts l) = .ok ((processed (localConfig cfg) l).out ++ rep, code) ∧ (code = 0 ∨ code = 1) ∧
      ∀ line, line ≠ "\n" → (line ∈ rep ↔ ReportLine cfg versions (processed (localConfig cfg) l) line) := by
  have hu : Ver.zero ∉ (processed (localConfig cfg) l).uniqueVersions := by
    intro hz
    have := ((C21_range (localConfig cfg) l).2 _).mp hz
    exact absurd this.1 (by decide)
  have hpl := usual_processed (cfg := localConfig cfg) hp
  obtain ⟨rep, code, hcode, hr⟩ : ∃ rep code, (code = 0 ∨ code = 1) ∧
      report cfg versions (processed (localConfig cfg) l) = .ok (rep, code) := by
    obtain ⟨rep, hr⟩ := report_ok cfg versions _ hu
    refine ⟨rep, _, ?_, hr⟩
    split
    · exact .inr rfl
    · exact .inl rfl
  refine ⟨rep, code, ?_, hcode, fun line hline =>
    C62_report hr (fun h2 h3 => hpl.2 ⟨h2, h3⟩) hu (processed_backports_nodup _ _) ?_ hline⟩
  · unfold mainRun
    have hlen : (okOuts l).length ≠ 0 := by
      cases l with
      | nil => exact absurd rfl hl
      | cons => simp [okOuts]
    rw [if_neg hlen, process_okOuts]
    simp only [hr]
  · intro b hb'
    obtain ⟨f, m, ha, hbf⟩ := (C61_backports _ _ _).mp hb'
    exact hb f m ha b hbf

/-- C57 for runs: the note lists exactly the majors of the unknown parts of the combined minimum. -/
theorem C57_runs (cfg : Config) (l : List (Option ProcRes)) (hp : ∀ m ∈ fileMins l, Usual m) {s : String}
    (hs : versionStrings ((reqsOf (processed cfg l).mins).map VVal.tup) "," = .ok s) (w : String) :
    w ∈ unknownMajors s ↔ ∃ M, Unknown (processed cfg l).mins M ∧ w = String.ofList (strNat M) :=
  C57_note_majors _ (fun h2 h3 => (usual_processed (cfg := cfg) hp).2 ⟨h2, h3⟩) hs w

/-! ### Quiet runs -/

theorem nprint_quiet {cfg : Config} (h : cfg.quiet = true) (msg : String) : nprint cfg msg = [] := by simp [nprint, h]

theorem bind_nil {f : String → Except Err (List String)} {x : Except Err String} {l : List String} (h : (x >>= f) = .ok l)
    (hf : ∀ s l, f s = .ok l → l = []) : l = [] := by
  cases x with
  | error e => cases h
  | ok s => exact hf s l h

theorem pure_nil {cfg : Config} (hq : cfg.quiet = true) {msg : String} {l : List String}
    (h : (pure (nprint cfg msg) : Except Err (List String)) = .ok l) : l = [] := by
  rw [nprint_quiet hq] at h
  injection h with h
  exact h.symm

theorem report_quiet {cfg : Config} {versions : Bool} {r : ProcAcc} {out : List String} {code : Nat} (hq : cfg.quiet = true)
    (hf : cfg.format = .default) (h : report cfg versions r = .ok (out, code)) : out = [] := by
  obtain ⟨mins, incomps, range, tl, h1, h2, h3, h4, rfl⟩ := report_parts h
  have hp : cfg.format ≠ .parsable := by rw [hf]; decide
  have e0 : reportHead cfg r = [] := by simp [reportHead, nprint_quiet hq]
  have e1 : (if cfg.showTips then printTips cfg (reqsOf r.mins) (tipsOf cfg r) else []) = [] := by
    simp [printTips, nprint_quiet hq]
  have e2 : mins = [] := by
    unfold reportMins at h1
    rw [if_neg hp] at h1
    split at h1
    · refine bind_nil h1 fun s l hl => ?_
      cases hn : reportNote cfg (reqsOf r.mins) with
      | error e => rw [hn] at hl; cases hl
      | ok note =>
        have hnote : note = [] := by
          unfold reportNote at hn
          split at hn
          · exact bind_nil hn fun s l hl => pure_nil hq hl
          · injection hn with hn; exact hn.symm
        rw [hn, hnote, nprint_quiet hq] at hl
        injection hl with hl
        exact hl.symm
    · injection h1 with h1; exact h1.symm
  have e3 : incomps = [] := by
    unfold reportIncomps at h2
    split at h2
    · exact bind_nil h2 fun s l hl => pure_nil hq hl
    · injection h2 with h2; exact h2.symm
  have e4 : range = [] := by
    unfold reportRange at h3
    split at h3
    · exact bind_nil h3 fun s l hl => pure_nil hq hl
    · injection h3 with h3; exact h3.symm
  have e5 : tl = [] := by
    unfold reportTargets at h4
    split at h4
    · cases hv : versionStrings (cfg.targets.map fun t => VVal.str (Vermin.targetText t)) with
      | error e => rw [hv] at h4; cases h4
      | ok s =>
        rw [hv] at h4
        injection h4 with h4
        injection h4 with h4 _
        rw [← h4, nprint_quiet hq]
    · injection h4 with h4
      injection h4 with h4 _
      exact h4.symm
  rw [e0, e1, e2, e3, e4, e5]
  rfl

theorem processed_quiet {cfg : Config} (hq : cfg.quiet = true) (hf : cfg.format = .default) (l : List (Option ProcRes)) :
    (processed cfg l).out = [] := by
  have key : ∀ (l : List (Option ProcRes)) (a : ProcAcc), a.out = [] → (l.foldl (procStep cfg) a).out = [] := by
    intro l
    induction l with
    | nil => intro a ha; exact ha
    | cons x l ih =>
      intro a ha
      refine ih _ ?_
      have hr : ∀ p t m, outputResult cfg p t m = [] := by
        intro p t m; simp [outputResult, hf, outputDefault, vprint, hq]
      have hi : ∀ p t, printIncomp cfg p t = [] := by
        intro p t; unfold printIncomp; split
        · rfl
        · exact nprint_quiet hq _
      cases x with
      | none => rw [procStep_none]; exact ha
      | some f =>
        cases hm : f.mins with
        | none => rw [procStep_incompatible hm]; simp [ha, hi]
        | some m =>
          simp only [procStep, hm, hr, hi]
          cases combineVersions cfg.ignoreIncomp a.mins m <;> simp [ha]
  exact key l ProcAcc.init rfl

theorem mainRun_okOuts {cfg : Config} {versions : Bool} {l : List (Option ProcRes)} (hl : l ≠ []) {out : List String} {code : Nat}
    (h : mainRun cfg versions (okOuts l) = .ok (out, code)) :
    ∃ rep, report cfg versions (processed (localConfig cfg) l) = .ok (rep, code) ∧ out = (processed (localConfig cfg) l).out ++ rep := by
  unfold mainRun at h
  have hlen : (okOuts l).length ≠ 0 := by
    cases l with
    | nil => exact absurd rfl hl
    | cons => simp [okOuts]
  rw [if_neg hlen, process_okOuts] at h
  dsimp only at h
  cases hr : report cfg versions (processed (localConfig cfg) l) with
  | error e => rw [hr] at h; cases h
  | ok x =>
    rw [hr] at h
    injection h with h
    injection h with h1 h2
    exact ⟨x.1, by rw [← h2], h1.symm⟩

/-- C64: quiet runs (in the default format, not in violations mode) print nothing. -/
theorem C64_quiet {cfg : Config} {versions : Bool} {l : List (Option ProcRes)} {out : List String} {code : Nat} (hq : cfg.quiet = true)
    (hf : cfg.format = .default) (hv : cfg.onlyShowViolations = false) (h : mainRun cfg versions (okOuts l) = .ok (out, code)) :
    out = [] := by
  by_cases hl : l = []
  · subst hl
    rw [show okOuts [] = [] from rfl, C11_no_files, nprint_quiet hq] at h
    injection h with h
    injection h with h _
    exact h.symm
  · obtain ⟨rep, hr, rfl⟩ := mainRun_okOuts hl h
    have hlc : localConfig cfg = cfg := by simp [localConfig, hv]
    rw [hlc] at hr ⊢
    rw [processed_quiet hq hf, report_quiet hq hf hr]
    rfl

/-- C64: in violations mode quiet runs print exactly what runs that are not quiet print about the files. -/
theorem C64_quiet_violations {cfg : Config} {versions : Bool} {l : List (Option ProcRes)} {out : List String} {code : Nat} (hl : l ≠ [])
    (hq : cfg.quiet = true) (hf : cfg.format = .default) (hv : cfg.onlyShowViolations = true)
    (h : mainRun cfg versions (okOuts l) = .ok (out, code)) :
    out = (processed { cfg with quiet := false } l).out := by
  obtain ⟨rep, hr, rfl⟩ := mainRun_okOuts hl h
  rw [report_quiet hq hf hr, List.append_nil]
  simp [localConfig, hv, hq]

theorem processed_mins_congr {c c' : Config} (hi : c.ignoreIncomp = c'.ignoreIncomp) (l : List (Option ProcRes)) :
    (processed c l).mins = (processed c' l).mins := by
  have key : ∀ (l : List (Option ProcRes)) (a a' : ProcAcc), a.mins = a'.mins →
      (l.foldl (procStep c) a).mins = (l.foldl (procStep c') a').mins := by
    intro l
    induction l with
    | nil => intro a a' h; exact h
    | cons x l ih =>
      intro a a' h
      refine ih _ _ ?_
      rw [procStep_mins, procStep_mins, h, hi]
  exact key l _ _ rfl

theorem code_eq {cfg : Config} {versions : Bool} {l : List (Option ProcRes)} {out : List String} {code : Nat} (hl : l ≠ [])
    (h : mainRun cfg versions (okOuts l) = .ok (out, code)) :
    code = if cfg.targets.length > 0 ∧ ¬ allInconclusive cfg (reqsOf (processed (localConfig cfg) l).mins) ∧
      ¬ compareRequirements (reqsOf (processed (localConfig cfg) l).mins) cfg.targets then 1 else 0 := by
  obtain ⟨rep, hr, rfl⟩ := mainRun_okOuts hl h
  have hu : Ver.zero ∉ (processed (localConfig cfg) l).uniqueVersions := by
    intro hz
    have := ((C21_range (localConfig cfg) l).2 _).mp hz
    exact absurd this.1 (by decide)
  obtain ⟨x, hx⟩ := report_ok cfg versions _ hu
  rw [hr] at hx
  injection hx with hx
  injection hx with _ hx

/-- C64: the exit code does not depend on being quiet. -/
theorem C64_quiet_code {cfg : Config} {versions b : Bool} {l : List (Option ProcRes)} {out out' : List String} {code code' : Nat}
    (h : mainRun cfg versions (okOuts l) = .ok (out, code)) (h' : mainRun { cfg with quiet := b } versions (okOuts l) = .ok (out', code')) :
    code = code' := by
  by_cases hl : l = []
  · subst hl
    injection h with h
    injection h' with h'
    injection h with _ h
    injection h' with _ h'
    rw [← h, ← h']
  · rw [code_eq hl h, code_eq hl h', processed_mins_congr (c := localConfig { cfg with quiet := b }) (c' := localConfig cfg)
      (by rw [localConfig_ignoreIncomp, localConfig_ignoreIncomp]) l]
    rfl

/-- Files for which the theorems hold. -/
theorem C64_witness : exampleFiles ≠ [] ∧ (∀ m ∈ fileMins exampleFiles, Usual m) ∧
    (∀ f m, Analysed exampleFiles f m → ∀ b ∈ f.bps, isBackport b = true) ∧
    (∃ out, mainRun { Config.init 1 with quiet := true } true (okOuts exampleFiles) = .ok (out, 0)) := by
  refine ⟨nofun, ?_, ?_, ⟨_, rfl⟩⟩
  · intro m hm
    have : m ∈ [(⟨some ⟨2, 7⟩, some ⟨3, 2⟩⟩ : Req), ⟨none, some ⟨3, 5⟩⟩] := hm
    rcases List.mem_cons.mp this with rfl | h
    · exact SaneRule.usual ⟨.inr ⟨7, by decide, rfl⟩, .inr ⟨2, by decide, rfl⟩, nofun⟩
    · rw [List.mem_singleton] at h
      subst h
      exact SaneRule.usual ⟨.inl rfl, .inr ⟨5, by decide, rfl⟩, nofun⟩
  · rintro f m ⟨hf, _⟩
    have key : ∀ x ∈ exampleFiles, ∀ f, x = some f → ∀ b ∈ f.bps, isBackport b = true := by
      intro x hx f hxf
      have : ∀ x ∈ exampleFiles, ∀ b ∈ (x.map (·.bps)).getD [], isBackport b = true := by decide +kernel
      have := this x hx
      rw [hxf] at this
      exact this
    exact key _ hf f rfl

end Vermin.Props
