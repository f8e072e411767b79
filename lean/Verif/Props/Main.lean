import Verif.Model.Main
import Verif.Props.Processor
import Verif.Props.Targets
/-
The final report and the exit code: C06, C11, C20, C57.
-/
namespace Vermin.Props
open Vermin Vermin.Py Vermin.Spec

/-! ### C06: the report never fails -/

theorem versionStrings_ok {vs : List VVal} (sep : String) (h0 : vs ≠ [])
    (h : vs.length < 3 ∨ ∀ v ∈ vs, v.isZero = false) : ∃ s, versionStrings vs sep = .ok s := by
  simp only [versionStrings]
  rw [if_neg (by simpa using h0), if_neg]
  · exact ⟨_, rfl⟩
  · rcases h with h | h
    · simp [h]
    · simp only [Bool.and_eq_true, List.any_eq_true, not_and]
      rintro ⟨v, hv, hz⟩
      rw [h v hv] at hz; cases hz

/-- C06: the required and the incompatible majors are always two together: the message "No known reason found" is
unreachable. -/
theorem C06_two (m : Req) : (reqsOf m).length + (incompsOf m).length = 2 := by
  obtain ⟨a, b⟩ := m
  cases a <;> cases b <;> rfl

theorem versionStrings_map_ok {α : Type} {l : List α} (f : α → VVal) (sep : String) (h0 : l.length > 0)
    (h : l.length < 3 ∨ ∀ v ∈ l, (f v).isZero = false) : ∃ s, versionStrings (l.map f) sep = .ok s := by
  refine versionStrings_ok sep (by intro h'; rw [List.map_eq_nil_iff] at h'; simp [h'] at h0) ?_
  rcases h with h | h
  · exact .inl (by simpa using h)
  · refine .inr fun v hv => ?_
    obtain ⟨w, hw, rfl⟩ := List.mem_map.mp hv
    exact h w hw

theorem reqsOf_lt (m : Req) : (reqsOf m).length < 3 := by have := C06_two m; omega

theorem reportNote_ok (cfg : Config) {reqs : List Ver} (h : reqs.length < 3) : ∃ x, reportNote cfg reqs = .ok x := by
  unfold reportNote
  split
  · rename_i hz
    have h0 : reqs.length > 0 := by
      cases reqs with
      | nil => simp at hz
      | cons => simp
    obtain ⟨s, hs⟩ := versionStrings_map_ok VVal.tup "," h0 (.inl h)
    rw [hs]; exact ⟨_, rfl⟩
  · exact ⟨_, rfl⟩

theorem reportMins_ok (cfg : Config) (m : Req) : ∃ x, reportMins cfg m = .ok x := by
  unfold reportMins
  split
  · exact ⟨_, rfl⟩
  · split
    · rename_i h0
      obtain ⟨s, hs⟩ := versionStrings_map_ok VVal.tup ", " h0 (.inl (reqsOf_lt m))
      obtain ⟨n, hn⟩ := reportNote_ok cfg (reqsOf_lt m)
      rw [hs, hn]; exact ⟨_, rfl⟩
    · exact ⟨_, rfl⟩

theorem reportIncomps_ok (cfg : Config) (m : Req) : ∃ x, reportIncomps cfg m = .ok x := by
  unfold reportIncomps
  split
  · rename_i h0
    obtain ⟨s, hs⟩ := versionStrings_map_ok (l := incompsOf m) VVal.int ", " h0.1 (.inl (by have := C06_two m; omega))
    rw [hs]; exact ⟨_, rfl⟩
  · exact ⟨_, rfl⟩

theorem reportRange_ok (cfg : Config) (versions : Bool) {vs : List Ver} (hu : Ver.zero ∉ vs) :
    ∃ x, reportRange cfg versions vs = .ok x := by
  unfold reportRange
  split
  · rename_i h0
    obtain ⟨s, hs⟩ := versionStrings_map_ok (l := vs) VVal.tup ", " h0.2 (.inr fun v hv => by
      simp only [VVal.isZero, decide_eq_false_iff_not]
      rintro rfl
      exact hu hv)
    rw [hs]; exact ⟨_, rfl⟩
  · exact ⟨_, rfl⟩

theorem reportTargets_ok (cfg : Config) (reqs : List Ver) : ∃ x, reportTargets cfg reqs = .ok (x,
    if cfg.targets.length > 0 ∧ ¬ allInconclusive cfg reqs ∧ ¬ compareRequirements reqs cfg.targets then 1 else 0) := by
  unfold reportTargets
  split
  · rename_i h0
    split
    · exact ⟨_, rfl⟩
    · obtain ⟨s, hs⟩ := versionStrings_map_ok (l := cfg.targets) (fun t => VVal.str (Vermin.targetText t)) ", " h0.1
        (.inr fun v hv => rfl)
      rw [hs]; exact ⟨_, rfl⟩
  · exact ⟨_, rfl⟩

theorem report_ok (cfg : Config) (versions : Bool) (r : ProcAcc) (hu : Ver.zero ∉ r.uniqueVersions) :
    ∃ x, report cfg versions r = .ok (x, if cfg.targets.length > 0 ∧ ¬ allInconclusive cfg (reqsOf r.mins) ∧
      ¬ compareRequirements (reqsOf r.mins) cfg.targets then 1 else 0) := by
  obtain ⟨a, ha⟩ := reportMins_ok cfg r.mins
  obtain ⟨b, hb⟩ := reportIncomps_ok cfg r.mins
  obtain ⟨c, hc⟩ := reportRange_ok cfg versions hu
  obtain ⟨d, hd⟩ := reportTargets_ok cfg (reqsOf r.mins)
  unfold report
  rw [ha, hb, hc, hd]
  exact ⟨_, rfl⟩

/-- C06: the report never fails, whatever the configuration, for a version range without (0, 0). -/
theorem C06_report_total (cfg : Config) (versions : Bool) (r : ProcAcc) (hu : Ver.zero ∉ r.uniqueVersions) :
    ∃ x, report cfg versions r = .ok x := by
  obtain ⟨x, hx⟩ := report_ok cfg versions r hu
  exact ⟨_, hx⟩

/-- The condition is needed: a range with (0, 0) and two more versions would trip the assertion. -/
theorem C06_zero_in_range : ∃ (r : ProcAcc), report (Config.init 1) true r = .error .assertion :=
  ⟨{ ProcAcc.init with uniqueVersions := [⟨0, 0⟩, ⟨2, 7⟩, ⟨3, 0⟩] }, by decide +kernel⟩

theorem procLoop_prefix (cfg : Config) : ∀ (rs : List FileOut) (a : ProcAcc),
    ∃ pre : List (Option ProcRes), (procLoop cfg a rs).1 = pre.foldl (procStep cfg) a ∧
      ∀ e, (procLoop cfg a rs).2 = some e → (.error e : FileOut) ∈ rs
  | [], a => ⟨[], rfl, fun e h => nomatch h⟩
  | .error e :: rs, a => ⟨[], rfl, fun e' h => by
      have h : some e = some e' := h
      injection h with h; rw [h]; exact List.mem_cons_self⟩
  | .ok r :: rs, a => by
    obtain ⟨pre, h1, h2⟩ := procLoop_prefix cfg rs (procStep cfg a r)
    exact ⟨r :: pre, h1, fun e h => List.mem_cons_of_mem _ (h2 e h)⟩

theorem firstError_mem : ∀ {rs : List FileOut} {e : Err}, firstError rs = some e → (.error e : FileOut) ∈ rs
  | [], e, h => nomatch h
  | .error e' :: rs, e, h => by
    have h : some e' = some e := h
    injection h with h; rw [h]; exact List.mem_cons_self
  | .ok r :: rs, e, h => List.mem_cons_of_mem _ (firstError_mem (rs := rs) h)

theorem procEnd_cases (cfg : Config) (a : ProcAcc) (o : Option Err) :
    (∃ r, procEnd cfg (a, o) = .ok r ∧ r.uniqueVersions = sort verLe a.uniqueVersions) ∨
    ∃ e, procEnd cfg (a, o) = .error e ∧ o = some e := by
  unfold procEnd
  cases o with
  | none => exact .inl ⟨_, rfl, rfl⟩
  | some e => cases e <;> first | exact .inl ⟨_, rfl, rfl⟩ | exact .inr ⟨_, rfl, rfl⟩

/-- Processing, in either mode, ends with an exception of one of the files, or with a version range without (0, 0). -/
theorem process_cases (cfg : Config) (rs : List FileOut) :
    (∃ r, (if cfg.processes = 1 then processSeq cfg rs else processPar cfg rs) = .ok r ∧ Ver.zero ∉ r.uniqueVersions) ∨
    ∃ e, (if cfg.processes = 1 then processSeq cfg rs else processPar cfg rs) = .error e ∧ (.error e : FileOut) ∈ rs := by
  have nz : ∀ l : List (Option ProcRes), Ver.zero ∉ sort verLe (l.foldl (procStep cfg) ProcAcc.init).uniqueVersions := by
    intro l hm
    rw [mem_sort, (foldl_unique (cfg := cfg) (l := l) (a := ProcAcc.init) List.nodup_nil).2] at hm
    rcases hm with h | ⟨h, _⟩
    · cases h
    · exact absurd h (by decide)
  have loop : (∃ r, procEnd cfg (procLoop cfg ProcAcc.init rs) = .ok r ∧ Ver.zero ∉ r.uniqueVersions) ∨
      ∃ e, procEnd cfg (procLoop cfg ProcAcc.init rs) = .error e ∧ (.error e : FileOut) ∈ rs := by
    obtain ⟨pre, h1, h2⟩ := procLoop_prefix cfg rs ProcAcc.init
    rcases procEnd_cases cfg (procLoop cfg ProcAcc.init rs).1 (procLoop cfg ProcAcc.init rs).2 with ⟨r, h, hu⟩ | ⟨e, h, he⟩
    · exact .inl ⟨r, h, by rw [hu, h1]; exact nz pre⟩
    · exact .inr ⟨e, h, h2 e he⟩
  split
  · unfold processSeq
    cases hf : firstError rs with
    | none => exact loop
    | some e =>
      rcases procEnd_cases cfg ProcAcc.init (some e) with ⟨r, h, hu⟩ | ⟨e', h, he⟩
      · exact .inl ⟨r, h, by rw [hu]; exact nz []⟩
      · injection he with he
        exact .inr ⟨e', h, by rw [← he]; exact firstError_mem hf⟩
  · exact loop

/-- C06: `main` fails after path detection only with an exception that the analysis of some file raised; in particular no
assertion of the report ever fails. -/
theorem C06_main_total (cfg : Config) (versions : Bool) (results : List FileOut) {e : Err}
    (h : mainRun cfg versions results = .error e) : (.error e : FileOut) ∈ results := by
  unfold mainRun at h
  split at h
  · cases h
  · rcases process_cases (localConfig cfg) results with ⟨r, hr, hu⟩ | ⟨e', he', hm⟩
    · obtain ⟨x, hx⟩ := report_ok cfg versions r hu
      rw [hr] at h
      simp only [hx] at h
      cases h
    · rw [he'] at h
      injection h with h
      rw [← h]; exact hm

/-! ### C11: the exit code -/

/-- `v` is one of the versions of the requirement. -/
def Component (m : Req) (v : Ver) : Prop := m.py2 = some v ∨ m.py3 = some v

theorem mem_reqsOf {m : Req} {v : Ver} : v ∈ reqsOf m ↔ Component m v := by
  simp [reqsOf, Component]

/-- The py2 part is unknown or a version 2.x, the py3 part unknown or a version 3.x. -/
def Majored (m : Req) : Prop :=
  (∀ v, m.py2 = some v → v = Ver.zero ∨ v.major = 2) ∧ (∀ v, m.py3 = some v → v = Ver.zero ∨ v.major = 3)

theorem Majored.distinct {m : Req} (h : Majored m) : ∀ a ∈ reqsOf m, ∀ b ∈ reqsOf m, a.major = b.major → a = b := by
  intro a ha b hb he
  have hz : Ver.zero.major = 0 := rfl
  rw [mem_reqsOf] at ha hb
  rcases ha with ha | ha <;> rcases hb with hb | hb
  · rw [ha] at hb; injection hb
  · rcases h.1 a ha with h1 | h1 <;> rcases h.2 b hb with h2 | h2
    · rw [h1, h2]
    · rw [h1, h2] at he; cases he
    · rw [h2, h1] at he; cases he
    · rw [h1, h2] at he; cases he
  · rcases h.2 a ha with h1 | h1 <;> rcases h.1 b hb with h2 | h2
    · rw [h1, h2]
    · rw [h1, h2] at he; cases he
    · rw [h2, h1] at he; cases he
    · rw [h1, h2] at he; cases he
  · rw [ha] at hb; injection hb

/-- All targets are for different major versions. -/
def OnePerMajor (ts : List Target) : Prop := ∀ a ∈ ts, ∀ b ∈ ts, a.2.major = b.2.major → a = b

/-- Nothing is known about any version that is not excluded, and there is such a version. -/
def Inconclusive (m : Req) : Prop := (∃ v, Component m v) ∧ ∀ v, Component m v → v = Ver.zero

theorem allInconclusive_iff (cfg : Config) (m : Req) :
    allInconclusive cfg (reqsOf m) = true ↔ cfg.onlyShowViolations = true ∧ Inconclusive m := by
  simp only [allInconclusive, Bool.and_eq_true, decide_eq_true_eq, List.all_eq_true, Inconclusive, and_assoc, mem_reqsOf]
  refine and_congr_right fun _ => and_congr_left fun _ => ?_
  simp only [gt_iff_lt, List.length_pos_iff_exists_mem, mem_reqsOf]

/-- C11: a report never gives another exit code than 0 and 1; 0 without targets. -/
theorem C11_no_targets (cfg : Config) (versions : Bool) (r : ProcAcc) {out : List String} {code : Nat}
    (h : report cfg versions r = .ok (out, code)) (ht : cfg.targets = []) : code = 0 := by
  unfold report at h
  obtain ⟨d, hd⟩ := reportTargets_ok cfg (reqsOf r.mins)
  obtain ⟨a, ha⟩ := reportMins_ok cfg r.mins
  obtain ⟨b, hb⟩ := reportIncomps_ok cfg r.mins
  rw [ha, hb, hd] at h
  cases hc : reportRange cfg versions r.uniqueVersions with
  | error e => rw [hc] at h; cases h
  | ok c =>
    rw [hc] at h
    simp only [bind, Except.bind, pure, Except.pure, Except.ok.injEq, Prod.mk.injEq] at h
    rw [← h.2, ht]; rfl

/-- C11: with one target per major version the exit code is 1 iff there is a target for which the minimum versions have no
version of that major meeting it, except for inconclusive results in violations mode. -/
theorem C11_targets_iff (cfg : Config) (versions : Bool) (r : ProcAcc) (hu : Ver.zero ∉ r.uniqueVersions)
    (hm : Majored r.mins) (ht : OnePerMajor cfg.targets) :
    ∃ out code, report cfg versions r = .ok (out, code) ∧ (code = 0 ∨ code = 1) ∧
      (code = 1 ↔ ¬ (cfg.onlyShowViolations = true ∧ Inconclusive r.mins) ∧
        ∃ t ∈ cfg.targets, ∀ v, Component r.mins v → v.major = t.2.major → ¬ Meets v t) := by
  obtain ⟨x, hx⟩ := report_ok cfg versions r hu
  refine ⟨x, _, hx, ?_, ?_⟩
  · split
    · exact .inr rfl
    · exact .inl rfl
  · split
    · rename_i h
      rw [allInconclusive_iff, C08_compare_iff hm.distinct ht] at h
      simp only [true_iff]
      refine ⟨h.2.1, ?_⟩
      have hne : cfg.targets ≠ [] := by intro h'; simp [h'] at h
      have := h.2.2
      refine Classical.byContradiction fun hcon => this ⟨hne, fun t htm => ?_⟩
      refine Classical.byContradiction fun hq => hcon ⟨t, htm, fun v hv hvm hmeets => hq ⟨v, mem_reqsOf.mpr hv, hvm, hmeets⟩⟩
    · rename_i h
      rw [allInconclusive_iff, C08_compare_iff hm.distinct ht] at h
      constructor
      · intro h'; cases h'
      · rintro ⟨h1, t, htm, h2⟩
        exfalso; apply h
        refine ⟨List.length_pos_of_mem htm, h1, ?_⟩
        rintro ⟨-, h3⟩
        obtain ⟨q, hq, hqm, hmeets⟩ := h3 t htm
        exact h2 q (mem_reqsOf.mp hq) hqm hmeets

/-- C11: no files is an error. -/
theorem C11_no_files (cfg : Config) (versions : Bool) :
    mainRun cfg versions [] = .ok (nprint cfg "No files specified to analyze!", 1) := rfl

/-! ### C20: a clean exit -/

theorem localConfig_ignoreIncomp (cfg : Config) : (localConfig cfg).ignoreIncomp = cfg.ignoreIncomp := by
  unfold localConfig; split <;> rfl
theorem localConfig_processes (cfg : Config) : (localConfig cfg).processes = cfg.processes := by
  unfold localConfig; split <;> rfl

theorem process_okOuts (cfg : Config) (l : List (Option ProcRes)) :
    (if cfg.processes = 1 then processSeq cfg (okOuts l) else processPar cfg (okOuts l)) = .ok (processed cfg l) := by
  split
  · exact processSeq_ok cfg l
  · simp [processPar, procLoop_okOuts, procEnd, processed]

/-- Without incompatibilities all files have been combined. -/
theorem combines_of_compatible {cfg : Config} : ∀ {l : List (Option ProcRes)} {a : ProcAcc},
    (l.foldl (procStep cfg) a).incomp = false → ∃ r, combineFrom cfg.ignoreIncomp none a.mins (fileMins l) = .ok r
  | [], a, _ => ⟨a.mins, rfl⟩
  | x :: l, a, h => by
    rw [List.foldl_cons] at h
    obtain ⟨r, hr⟩ := combines_of_compatible h
    rw [fileMins_cons]
    have hs := procStep_mins (cfg := cfg) (a := a) (r := x)
    cases hm : x.bind (·.mins) with
    | none =>
      rw [hm] at hs
      rw [hs] at hr
      exact ⟨r, hr⟩
    | some m =>
      rw [hm] at hs
      simp only [Option.toList_some, List.singleton_append, combineFrom_cons]
      cases hc : combineVersions cfg.ignoreIncomp a.mins m with
      | ok b =>
        simp only [hc] at hs
        rw [hs] at hr
        exact ⟨r, hr⟩
      | error e =>
        exfalso
        have hf : ∃ f, x = some f ∧ f.mins = some m := by
          cases x with
          | none => cases hm
          | some f => exact ⟨f, rfl, hm⟩
        obtain ⟨f, rfl, hfm⟩ := hf
        have : (procStep cfg a (some f)).incomp = true := procStep_incomp.mpr
          (.inr ⟨f, rfl, .inr ⟨m, hfm, (C02_combine_raises_iff _ _ _ none).mp ⟨e, hc⟩⟩⟩)
        have := (foldl_incomp (cfg := cfg) (l := l)).mpr (.inl this)
        rw [h] at this; cases this

theorem satisfies_of_compatible {cfg : Config} {l : List (Option ProcRes)} (h : (processed cfg l).incomp = false) (v : Ver) :
    Satisfies v (processed cfg l).mins ↔ (v.major = 2 ∨ v.major = 3) ∧ ∀ m ∈ fileMins l, Satisfies v m := by
  obtain ⟨r, hr⟩ := combines_of_compatible (cfg := cfg) (l := l) (a := ProcAcc.init) h
  rw [show (processed cfg l).mins = r from foldl_mins (a := ProcAcc.init) hr]
  exact C04_satisfies_all hr v

theorem combineVersions_majored {ign : Bool} {a b c : Req} (h : combineVersions ign a b = .ok c) (ha : Majored a)
    (hb : Majored b) : Majored c := by
  rw [combineVersions_ok h]
  have key : ∀ {x y : Option Ver} {M : Nat}, (∀ v, x = some v → v = Ver.zero ∨ v.major = M) →
      (∀ v, y = some v → v = Ver.zero ∨ v.major = M) → ∀ v, combineOpt x y = some v → v = Ver.zero ∨ v.major = M := by
    intro x y M hx hy v hv
    cases x with
    | none => cases hv
    | some x =>
      cases y with
      | none => cases hv
      | some y =>
        simp only [combineOpt, Option.some.injEq, Ver.max] at hv
        split at hv
        · exact hy v (by rw [hv])
        · exact hx v (by rw [hv])
  exact ⟨key ha.1 hb.1, key ha.2 hb.2⟩

theorem majored_processed {cfg : Config} {l : List (Option ProcRes)} (h : ∀ m ∈ fileMins l, Majored m) :
    Majored (processed cfg l).mins := by
  have key : ∀ (l : List (Option ProcRes)) (a : ProcAcc), (∀ m ∈ fileMins l, Majored m) → Majored a.mins →
      Majored (l.foldl (procStep cfg) a).mins := by
    intro l
    induction l with
    | nil => intro a _ ha; exact ha
    | cons x l ih =>
      intro a hl ha
      rw [fileMins_cons] at hl
      refine ih _ (fun m hm => hl m (by simp [hm])) ?_
      rw [procStep_mins]
      cases hm : x.bind (·.mins) with
      | none => exact ha
      | some m =>
        simp only
        cases hc : combineVersions cfg.ignoreIncomp a.mins m with
        | ok c => exact combineVersions_majored hc ha (hl m (by simp [hm]))
        | error e => exact ha
  exact key l ProcAcc.init h ⟨fun v hv => .inl (by injection hv with hv; exact hv.symm), fun v hv => .inl (by injection hv with hv; exact hv.symm)⟩

/-- C20 is false: a file that conflicts with the files before it is left out, and the exit code is 0. -/
theorem C20_false : ∃ (cfg : Config) (l : List (Option ProcRes)) (out : List String),
    mainRun cfg false (okOuts l) = .ok (out, 0) ∧
    ∃ t ∈ cfg.targets, t.2.major = 2 ∧ ∃ m ∈ fileMins l, ¬ Satisfies t.2 m := by
  refine ⟨{ Config.init 1 with targets := [(false, ⟨2, 7⟩)], format := .parsable },
    [some (plainFile "a" ⟨some ⟨2, 0⟩, none⟩), some (plainFile "b" ⟨none, some ⟨3, 0⟩⟩)], _, rfl, ?_⟩
  refine ⟨_, List.mem_cons_self, rfl, ⟨none, some ⟨3, 0⟩⟩, by decide, ?_⟩
  rintro (⟨-, m, h, -⟩ | ⟨h, -⟩)
  · cases h
  · revert h; decide

/-- C20, for files without incompatibilities (and, in violations mode, files that each allow both major versions): with
exit code 0 every file is satisfied by each target version.  Missing: collections with incompatible files, where it is
false, see `C20_false`. -/
theorem C20_partial (cfg : Config) (versions : Bool) (l : List (Option ProcRes)) {out : List String}
    (h : mainRun cfg versions (okOuts l) = .ok (out, 0))
    (hinc : (processed (localConfig cfg) l).incomp = false)
    (hmaj : ∀ m ∈ fileMins l, Majored m)
    (ht : OnePerMajor cfg.targets) (hv : ∀ t ∈ cfg.targets, t.2.major = 2 ∨ t.2.major = 3)
    (hviol : cfg.onlyShowViolations = true → ∀ m ∈ fileMins l, m.py2 ≠ none ∧ m.py3 ≠ none) :
    ∀ t ∈ cfg.targets, ∀ m ∈ fileMins l, Satisfies t.2 m := by
  intro t htm
  have hs := satisfies_of_compatible hinc t.2
  suffices Satisfies t.2 (processed (localConfig cfg) l).mins from (hs.mp this).2
  have hM := majored_processed (cfg := localConfig cfg) hmaj
  unfold mainRun at h
  split at h
  · cases h
  · rw [process_okOuts] at h
    simp only at h
    have hu : Ver.zero ∉ (processed (localConfig cfg) l).uniqueVersions := by
      intro hz
      have := ((C21_range (localConfig cfg) l).2 _).mp hz
      exact absurd this.1 (by decide)
    obtain ⟨o, c, hr, -, hiff⟩ := C11_targets_iff cfg versions _ hu hM ht
    rw [hr] at h
    simp only [Except.ok.injEq, Prod.mk.injEq] at h
    have hc : ¬ c = 1 := by rw [h.2]; decide
    rw [hiff] at hc
    by_cases hi : cfg.onlyShowViolations = true ∧ Inconclusive (processed (localConfig cfg) l).mins
    · -- everything is unknown: satisfied by any version
      have hall := hviol hi.1
      have hz := hi.2.2
      have hle : ∀ v : Ver, Ver.zero ≤ v := by
        intro v; show Ver.zero.le v; unfold Ver.le Ver.zero; simp only; omega
      -- the overall minimum has both components, as any version satisfying all files of each major exists
      obtain ⟨r, hcomb⟩ := combines_of_compatible (cfg := localConfig cfg) (l := l) (a := ProcAcc.init) hinc
      have hmins : (processed (localConfig cfg) l).mins = r := foldl_mins (a := ProcAcc.init) hcomb
      have hboth : (processed (localConfig cfg) l).mins.py2 ≠ none ∧ (processed (localConfig cfg) l).mins.py3 ≠ none := by
        have key : ∀ (l : List (Option ProcRes)) (a : ProcAcc), (∀ m ∈ fileMins l, m.py2 ≠ none ∧ m.py3 ≠ none) →
            a.mins.py2 ≠ none ∧ a.mins.py3 ≠ none →
            (l.foldl (procStep (localConfig cfg)) a).mins.py2 ≠ none ∧
            (l.foldl (procStep (localConfig cfg)) a).mins.py3 ≠ none := by
          intro l
          induction l with
          | nil => intro a _ ha; exact ha
          | cons x l ih =>
            intro a hl ha
            rw [fileMins_cons] at hl
            refine ih _ (fun m hm => hl m (by simp [hm])) ?_
            rw [procStep_mins]
            cases hm : x.bind (·.mins) with
            | none => exact ha
            | some m =>
              have hmm := hl m (by simp [hm])
              simp only
              cases hc : combineVersions (localConfig cfg).ignoreIncomp a.mins m with
              | ok c =>
                simp only
                rw [combineVersions_ok hc]
                cases h2 : a.mins.py2 with
                | none => exact absurd h2 ha.1
                | some p =>
                  cases h3 : a.mins.py3 with
                  | none => exact absurd h3 ha.2
                  | some q =>
                    cases h4 : m.py2 with
                    | none => exact absurd h4 hmm.1
                    | some p' =>
                      cases h5 : m.py3 with
                      | none => exact absurd h5 hmm.2
                      | some q' => simp [joinReq, combineOpt, h2, h3, h4, h5]
              | error e => exact ha
        exact key l ProcAcc.init hall ⟨by simp [ProcAcc.init, Req.unknown], by simp [ProcAcc.init, Req.unknown]⟩
      rcases hv t htm with h2 | h3
      · obtain ⟨v, hv2⟩ := Option.ne_none_iff_exists'.mp hboth.1
        exact .inl ⟨h2, v, hv2, by rw [hz v (.inl hv2)]; exact hle _⟩
      · obtain ⟨v, hv3⟩ := Option.ne_none_iff_exists'.mp hboth.2
        exact .inr ⟨h3, v, hv3, by rw [hz v (.inr hv3)]; exact hle _⟩
    · have : ∃ v, Component (processed (localConfig cfg) l).mins v ∧ v.major = t.2.major ∧ Meets v t := by
        refine Classical.byContradiction fun hcon => hc ⟨hi, t, htm, fun v hvc hvm hmeet => hcon ⟨v, hvc, hvm, hmeet⟩⟩
      obtain ⟨v, hvc, hvm, hmeet⟩ := this
      have hle : v ≤ t.2 := by
        unfold Meets at hmeet
        split at hmeet
        · rw [hmeet]; show t.2.le t.2; unfold Ver.le; omega
        · exact hmeet
      have hz : Ver.zero.major = 0 := rfl
      rcases hv t htm with h2 | h3
      · rcases hvc with hvc | hvc
        · exact .inl ⟨h2, v, hvc, hle⟩
        · rcases hM.2 v hvc with h' | h'
          · rw [h'] at hvm; omega
          · omega
      · rcases hvc with hvc | hvc
        · rcases hM.1 v hvc with h' | h'
          · rw [h'] at hvm; omega
          · omega
        · exact .inr ⟨h3, v, hvc, hle⟩

/-- A case of `C20_partial`: two files, both targets, exit code 0. -/
example : ∃ out, mainRun { Config.init 1 with targets := [(false, ⟨2, 7⟩), (true, ⟨3, 4⟩)], format := .parsable } false
    (okOuts [some (plainFile "a" ⟨some ⟨2, 6⟩, some ⟨3, 1⟩⟩), none, some (plainFile "b" ⟨some ⟨0, 0⟩, some ⟨3, 4⟩⟩)]) =
    .ok (out, 0) := ⟨_, rfl⟩

/-- A case of C11: the exact target is not met. -/
example : ∃ out, report { Config.init 1 with targets := [(true, ⟨3, 5⟩)], format := .parsable } false
    { ProcAcc.init with mins := ⟨none, some ⟨3, 4⟩⟩ } = .ok (out, 1) := ⟨_, rfl⟩

/-! ### C57: the "not enough evidence" note -/

/-- The majors of the unknown parts of a requirement. -/
def Unknown (m : Req) (M : Nat) : Prop := (M = 2 ∧ m.py2 = some Ver.zero) ∨ (M = 3 ∧ m.py3 = some Ver.zero)

theorem splitOn_none {p : Char → Bool} {w : List Char} (h : ∀ c ∈ w, p c = false) : splitOn p w = [w] := by
  induction w with
  | nil => rfl
  | cons c w ih =>
    rw [splitOn, if_neg (by rw [h c List.mem_cons_self]; decide), ih fun c hc => h c (List.mem_cons_of_mem _ hc)]

theorem splitOn_append {p : Char → Bool} {w s : List Char} {c : Char} (h : ∀ c ∈ w, p c = false) (hc : p c = true) :
    splitOn p (w ++ c :: s) = w :: splitOn p s := by
  induction w with
  | nil => rw [List.nil_append, splitOn, if_pos hc]
  | cons d w ih =>
    rw [List.cons_append, splitOn, if_neg (by rw [h d List.mem_cons_self]; decide),
      ih fun c hc => h c (List.mem_cons_of_mem _ hc)]

theorem versionString_tup_comma (i : Nat) (v : Ver) : ∀ c ∈ versionString i (.tup v), (c == ',') = false := by
  intro c hc
  have hd : ∀ n, c ∈ strNat n → (c == ',') = false := by
    intro n h
    have := isDigit_of_mem_strNat h
    cases he : c == ','
    · rfl
    · simp only [beq_iff_eq] at he; rw [he] at this; revert this; decide
  unfold versionString at hc
  split at hc
  · rcases List.mem_cons.mp hc with h | h
    · rw [h]; decide
    · exact hd _ h
  · simp only [VVal.dotted, List.append_assoc, List.mem_append, List.mem_singleton] at hc
    rcases hc with h | h | h
    · exact hd _ h
    · rw [h]; decide
    · exact hd _ h

theorem versionString_tilde (i : Nat) (v : Ver) : (versionString i (.tup v)).contains '~' = decide (v = Ver.zero) := by
  have hd : ∀ n, '~' ∉ strNat n := fun n => not_mem_strNat (by decide)
  unfold versionString
  by_cases h : v = Ver.zero
  · simp [VVal.isZero, h]
  · rw [if_neg (by simp [VVal.isZero, h])]
    simp [VVal.dotted, hd, h]

theorem unknownText_zero (i : Nat) : replaceChar '~' [] (versionString i (.tup Ver.zero)) = strNat (i + 2) := by
  have : versionString i (.tup Ver.zero) = '~' :: strNat (i + 2) := rfl
  rw [this]
  have key : ∀ s : List Char, '~' ∉ s → replaceChar '~' [] s = s := by
    intro s
    induction s with
    | nil => intro _; rfl
    | cons c s ih =>
      intro h
      rw [List.mem_cons, not_or] at h
      have hc : (c == '~') = false := by simpa using fun h' => h.1 h'.symm
      simp only [replaceChar, List.flatMap_cons, hc]
      exact congrArg (c :: ·) (ih h.2)
  have e : replaceChar '~' [] ('~' :: strNat (i + 2)) = replaceChar '~' [] (strNat (i + 2)) := rfl
  rw [e, key _ (not_mem_strNat (by decide))]

theorem splitOn_versionStrings : ∀ (vs : List Ver) (i : Nat), vs ≠ [] →
    splitOn (· == ',') (join [','] (versionStringsFrom i (vs.map VVal.tup))) = versionStringsFrom i (vs.map VVal.tup)
  | [], _, h => absurd rfl h
  | [v], i, _ => splitOn_none (versionString_tup_comma i v)
  | v :: w :: vs, i, _ => by
    have ih := splitOn_versionStrings (w :: vs) (i + 1) (by simp)
    simp only [List.map_cons, versionStringsFrom] at ih ⊢
    rw [join]
    · rw [List.append_assoc, List.singleton_append, splitOn_append (versionString_tup_comma i v) (by decide), ih]
    · simp

/-- The majors shown in the note. -/
theorem unknownMajors_eq {vs : List Ver} {s : String} (h : versionStrings (vs.map VVal.tup) "," = .ok s) :
    unknownMajors s = ((versionStringsFrom 0 (vs.map VVal.tup)).filter fun w => w.contains '~').map
      fun w => String.ofList (replaceChar '~' [] w) := by
  unfold versionStrings at h
  simp only at h
  split at h
  · cases h
  · split at h
    · cases h
    · injection h with h
      rw [← h]
      have hne : vs ≠ [] := by rintro rfl; simp_all
      have := splitOn_versionStrings vs 0 hne
      unfold unknownMajors
      rw [String.toList_ofList]
      exact congrArg _ (congrArg _ this)

/-- C57: the note of insufficient evidence lists exactly the majors whose part is unknown, if the py2 part is not excluded
or the py3 part is known. -/
theorem C57_note_majors (m : Req) (h : m.py2 = none → m.py3 ≠ some Ver.zero) {s : String}
    (hs : versionStrings ((reqsOf m).map VVal.tup) "," = .ok s) (w : String) :
    w ∈ unknownMajors s ↔ ∃ M, Unknown m M ∧ w = String.ofList (strNat M) := by
  rw [unknownMajors_eq hs]
  simp only [List.mem_map, List.mem_filter]
  obtain ⟨a, b⟩ := m
  constructor
  · rintro ⟨x, ⟨hx, hc⟩, rfl⟩
    cases a with
    | none =>
      cases b with
      | none => cases hx
      | some b =>
        simp only [reqsOf, Option.toList_none, Option.toList_some, List.nil_append, List.map_cons, List.map_nil,
          versionStringsFrom, List.mem_singleton] at hx
        subst hx
        rw [versionString_tilde, decide_eq_true_eq] at hc
        exact absurd (by rw [hc]) (h rfl)
    | some a =>
      cases b with
      | none =>
        simp only [reqsOf, Option.toList_none, Option.toList_some, List.append_nil, List.map_cons, List.map_nil,
          versionStringsFrom, List.mem_singleton] at hx
        subst hx
        rw [versionString_tilde, decide_eq_true_eq] at hc
        exact ⟨2, .inl ⟨rfl, by rw [hc]⟩, by rw [hc, unknownText_zero]⟩
      | some b =>
        simp only [reqsOf, Option.toList_some, List.singleton_append, List.map_cons, List.map_nil, versionStringsFrom,
          List.mem_cons, List.not_mem_nil, or_false] at hx
        rcases hx with rfl | rfl
        · rw [versionString_tilde, decide_eq_true_eq] at hc
          exact ⟨2, .inl ⟨rfl, by rw [hc]⟩, by rw [hc, unknownText_zero]⟩
        · rw [versionString_tilde, decide_eq_true_eq] at hc
          exact ⟨3, .inr ⟨rfl, by rw [hc]⟩, by rw [hc, unknownText_zero]⟩
  · rintro ⟨M, ⟨rfl, h2⟩ | ⟨rfl, h3⟩, rfl⟩
    · simp only at h2
      subst h2
      refine ⟨versionString 0 (.tup Ver.zero), ⟨?_, by rw [versionString_tilde]; decide⟩, by rw [unknownText_zero]⟩
      simp [reqsOf, versionStringsFrom]
    · simp only at h3
      subst h3
      refine ⟨versionString 1 (.tup Ver.zero), ⟨?_, by rw [versionString_tilde]; decide⟩, by rw [unknownText_zero]⟩
      cases a with
      | none => exact absurd rfl (h rfl)
      | some a => simp [reqsOf, versionStringsFrom]

/-- C57, exactly: the note is right unless the py2 part is excluded and the py3 part is unknown; then it names 2 instead of 3. -/
theorem C57_exact (m : Req) {s : String} (hs : versionStrings ((reqsOf m).map VVal.tup) "," = .ok s) :
    ((∀ w, w ∈ unknownMajors s ↔ ∃ M, Unknown m M ∧ w = String.ofList (strNat M)) ↔ ¬(m.py2 = none ∧ m.py3 = some Ver.zero)) ∧
      (m.py2 = none → m.py3 = some Ver.zero → unknownMajors s = ["2"] ∧ ∀ M, Unknown m M ↔ M = 3) := by
  have key : m.py2 = none → m.py3 = some Ver.zero → unknownMajors s = ["2"] ∧ ∀ M, Unknown m M ↔ M = 3 := by
    obtain ⟨a, b⟩ := m
    rintro rfl rfl
    have : s = "~2" := by cases hs; rfl
    subst this
    refine ⟨by decide, fun M => ?_⟩
    simp [Unknown]
  refine ⟨⟨fun h ⟨h2, h3⟩ => ?_, fun h => C57_note_majors m (fun h2 h3 => h ⟨h2, h3⟩) hs⟩, key⟩
  obtain ⟨k1, k2⟩ := key h2 h3
  obtain ⟨M, hM, hw⟩ := (h "2").mp (by rw [k1]; exact List.mem_singleton.mpr rfl)
  rw [(k2 M).mp hM] at hw
  revert hw
  decide

/-- C57 without the condition is false: an unknown py3 part is then called "2". -/
theorem C57_false : ∃ (m : Req) (s : String), versionStrings ((reqsOf m).map VVal.tup) "," = .ok s ∧
    m.py2 = none ∧ m.py3 = some Ver.zero ∧ unknownMajors s = ["2"] :=
  ⟨⟨none, some Ver.zero⟩, "~2", by decide +kernel, rfl, rfl, by decide +kernel⟩

example : unknownMajors "~2,3.4" = ["2"] ∧ unknownMajors "2.7,~3" = ["3"] ∧ unknownMajors "~2,~3" = ["2", "3"] := by
  decide +kernel

end Vermin.Props
