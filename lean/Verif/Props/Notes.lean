import Verif.Props.Program
import Verif.Props.Listing
/-
C57: the note of insufficient evidence, for all runs of the program.  C61: the column of versions.
-/
namespace Vermin.Props
open Vermin Vermin.Py Vermin.Spec

theorem mem_okOuts_prefix (cfg : Config) : ∀ (rs : List FileOut) (a : ProcAcc),
    ∃ pre : List (Option ProcRes), (procLoop cfg a rs).1 = pre.foldl (procStep cfg) a ∧ ∀ x ∈ pre, (.ok x : FileOut) ∈ rs
  | [], a => ⟨[], rfl, fun _ h => nomatch h⟩
  | .error _ :: _, a => ⟨[], rfl, fun _ h => nomatch h⟩
  | .ok r :: rs, a => by
    obtain ⟨pre, h1, h2⟩ := mem_okOuts_prefix cfg rs (procStep cfg a r)
    exact ⟨r :: pre, h1, List.forall_mem_cons.mpr ⟨List.mem_cons_self, fun x hx => List.mem_cons_of_mem _ (h2 x hx)⟩⟩

/-- However the files end, what is reported is about some of those that did not raise. -/
theorem process_some {cfg : Config} {rs : List FileOut} {acc : ProcAcc}
    (h : (if cfg.processes = 1 then processSeq cfg rs else processPar cfg rs) = .ok acc) :
    ∃ l o, acc = { processed cfg l with out := o } ∧ ∀ x ∈ l, (.ok x : FileOut) ∈ rs := by
  have key : ∀ {r : ProcAcc × Option Err} {l : List (Option ProcRes)}, r.1 = l.foldl (procStep cfg) ProcAcc.init →
      procEnd cfg r = .ok acc → ∃ o, acc = { processed cfg l with out := o } := by
    intro r l hr h
    unfold procEnd at h
    dsimp only at h
    split at h
    · injection h with h
      exact ⟨_, by rw [← h, hr]; rfl⟩
    · injection h with h
      exact ⟨_, by rw [← h, hr]; rfl⟩
    · cases h
  split at h
  · unfold processSeq at h
    split at h
    · obtain ⟨o, ho⟩ := key (l := []) rfl h
      exact ⟨_, o, ho, fun _ h => nomatch h⟩
    · obtain ⟨l, h1, h2⟩ := mem_okOuts_prefix cfg rs ProcAcc.init
      obtain ⟨o, ho⟩ := key h1 h
      exact ⟨l, o, ho, h2⟩
  · obtain ⟨l, h1, h2⟩ := mem_okOuts_prefix cfg rs ProcAcc.init
    obtain ⟨o, ho⟩ := key h1 h
    exact ⟨l, o, ho, h2⟩

/-- Every run on Python 3 that analyses files ends with the lines of a report. -/
theorem report_any {w : World} (hw : ∀ q, (w.host q).major ≠ 2) {argv : List String} {p : Vermin.Parsed}
    (hp : parseArgs w.args argv (Config.init w.args.cpus) = .ok p)
    {files : List (List String)} {out : List String} {code : Nat} (h : program w argv = .exit files out code) (hf : files ≠ []) :
    ∃ pre rep acc, out = pre ++ rep ∧ Usual acc.mins ∧ ∀ line, line ≠ "\n" → (line ∈ rep ↔ ReportLine p.cfg p.versions acc line) := by
  unfold program at h
  rw [hp] at h
  dsimp only at h
  split at h
  · cases h
  · cases h
  · rename_i paths hpaths
    split at h
    · cases h
    · rename_i out' code' hrun
      injection h with hfiles hout hcode
      have hne : paths ≠ [] := by
        rintro rfl
        exact hf hfiles.symm
      unfold mainRun at hrun
      rw [if_neg (by simpa [World.results] using hne)] at hrun
      split at hrun
      · cases hrun
      · rename_i acc hacc
        split at hrun
        · cases hrun
        · rename_i rep code'' hrep
          injection hrun with hrun
          injection hrun with hrun _
          obtain ⟨l, o, rfl, hl⟩ := process_some hacc
          have facts : ∀ f, some f ∈ l → (∀ m, f.mins = some m → Usual m) ∧ ∀ b ∈ f.bps, isBackport b = true := by
            intro f hfl
            obtain ⟨⟨o1, o2⟩, hmem, ho⟩ := List.mem_map.mp (hl _ hfl)
            obtain ⟨q, -, hq⟩ := List.mem_map.mp hmem
            subst ho
            exact C64_files (hw q) hq
          have hmins : ∀ m ∈ fileMins l, Usual m := by
            intro m hm
            obtain ⟨x, hx, hxm⟩ := List.mem_filterMap.mp hm
            cases x with
            | none => cases hxm
            | some f => exact (facts f hx).1 m hxm
          have hu : Usual (processed (localConfig p.cfg) l).mins := usual_processed hmins
          have hz : Ver.zero ∉ (processed (localConfig p.cfg) l).uniqueVersions := by
            intro hz
            have := ((C21_range (localConfig p.cfg) l).2 _).mp hz
            exact absurd this.1 (by decide)
          refine ⟨_, rep, { processed (localConfig p.cfg) l with out := o }, by rw [← hout, ← hrun, ← List.append_assoc], hu,
            fun line hline =>
              C62_report hrep (fun h2 h3 => hu.2 ⟨h2, h3⟩) hz (processed_backports_nodup _ _) (fun b hb => ?_) hline⟩
          obtain ⟨f, m, ha, hbf⟩ := (C61_backports _ _ _).mp hb
          exact (facts f ha.1).2 b hbf

/-- The line of the minimum and the note with the given texts. -/
def minimumLine (text : String) : String := "Minimum required versions: " ++ text ++ "\n"
def noteLine (text : String) : String := "Note: Not enough evidence to conclude it won't work with Python " ++ text ++ ".\n"

theorem head_of {p x : String} {c : Char} (h : p.toList.head? = some c) : (p ++ x).toList.head? = some c := by
  rw [String.toList_append, List.head?_append, h]
  rfl

theorem at_of {p x : String} {n : Nat} {c : Char} (h : p.toList[n]? = some c) : (p ++ x).toList[n]? = some c := by
  rw [String.toList_append, List.getElem?_append_left (List.getElem?_eq_some_iff.mp h).1, h]

theorem string_cancel {a b c d : String} (h : a ++ b ++ c = a ++ d ++ c) : b = d := by
  have h := congrArg String.toList h
  simp only [String.toList_append, List.append_assoc, List.append_cancel_left_eq, List.append_cancel_right_eq] at h
  exact String.toList_inj.mp h

/-- Which lines of a report are notes. -/
theorem report_note {cfg : Config} {v : Bool} {r : ProcAcc} (text : String) :
    ReportLine cfg v r (noteLine text) ↔ cfg.quiet = false ∧ cfg.format = .default ∧
      (r.mins.py2 = some Ver.zero ∨ r.mins.py3 = some Ver.zero) ∧ text = unknownText r.mins := by
  constructor
  · intro h
    generalize hl : noteLine text = line at h
    have hh : line.toList.head? = some 'N' := by
      rw [← hl]
      exact head_of (head_of (by decide +kernel))
    have clash : ∀ (c : Char), c ≠ 'N' → line.toList.head? = some c →
        cfg.quiet = false ∧ cfg.format = .default ∧ (r.mins.py2 = some Ver.zero ∨ r.mins.py3 = some Ver.zero) ∧ text = unknownText r.mins := by
      intro c hc h
      rw [hh, Option.some.injEq] at h
      exact absurd h.symm hc
    cases h with
    | note hq hf hm =>
      unfold noteLine at hl
      exact ⟨hq, hf, hm, string_cancel hl⟩
    | incompatible =>
      have h6 : (noteLine text).toList[6]? = some 'N' := at_of (at_of (by decide +kernel))
      rw [hl] at h6
      exact absurd h6 (by decide +kernel)
    | tips => exact clash 'T' (by decide) (by decide +kernel)
    | noTips => exact clash '(' (by decide) (by decide +kernel)
    | annotations => exact clash '-' (by decide) (by decide +kernel)
    | comments => exact clash '-' (by decide) (by decide +kernel)
    | parsable => exact clash ':' (by decide) (head_of (head_of (by decide +kernel)))
    | backports => exact clash '-' (by decide) (head_of (head_of (head_of (head_of (head_of (by decide +kernel))))))
    | minimum => exact clash 'M' (by decide) (head_of (head_of (by decide +kernel)))
    | excluded => exact clash 'I' (by decide) (head_of (head_of (by decide +kernel)))
    | range => exact clash 'V' (by decide) (head_of (head_of (by decide +kernel)))
    | targets => exact clash 'T' (by decide) (head_of (head_of (by decide +kernel)))
  · rintro ⟨hq, hf, hm, rfl⟩
    exact .note hq hf hm

theorem report_minimum {cfg : Config} {v : Bool} {r : ProcAcc} (text : String) :
    ReportLine cfg v r (minimumLine text) ↔ cfg.quiet = false ∧ cfg.format = .default ∧
      (r.mins.py2 ≠ none ∨ r.mins.py3 ≠ none) ∧ text = minimumText r.mins := by
  constructor
  · intro h
    generalize hl : minimumLine text = line at h
    have hh : line.toList.head? = some 'M' := by
      rw [← hl]
      exact head_of (head_of (by decide +kernel))
    have clash : ∀ (c : Char), c ≠ 'M' → line.toList.head? = some c →
        cfg.quiet = false ∧ cfg.format = .default ∧ (r.mins.py2 ≠ none ∨ r.mins.py3 ≠ none) ∧ text = minimumText r.mins := by
      intro c hc h
      rw [hh, Option.some.injEq] at h
      exact absurd h.symm hc
    cases h with
    | minimum hq hf hm =>
      unfold minimumLine at hl
      exact ⟨hq, hf, hm, string_cancel hl⟩
    | incompatible => exact clash 'N' (by decide) (by decide +kernel)
    | tips => exact clash 'T' (by decide) (by decide +kernel)
    | noTips => exact clash '(' (by decide) (by decide +kernel)
    | annotations => exact clash '-' (by decide) (by decide +kernel)
    | comments => exact clash '-' (by decide) (by decide +kernel)
    | parsable => exact clash ':' (by decide) (head_of (head_of (by decide +kernel)))
    | backports => exact clash '-' (by decide) (head_of (head_of (head_of (head_of (head_of (by decide +kernel))))))
    | note => exact clash 'N' (by decide) (head_of (head_of (by decide +kernel)))
    | excluded => exact clash 'I' (by decide) (head_of (head_of (by decide +kernel)))
    | range => exact clash 'V' (by decide) (head_of (head_of (by decide +kernel)))
    | targets => exact clash 'T' (by decide) (head_of (head_of (by decide +kernel)))
  · rintro ⟨hq, hf, hm, rfl⟩
    exact .minimum hq hf hm

/-- The majors to be named: those whose part of the minimum is unknown. -/
def NotedMajors (m : Req) (text : String) : Prop :=
  (m.py2 = some ⟨0, 0⟩ ∧ m.py3 = some ⟨0, 0⟩ ∧ text = "2 or 3") ∨ (m.py2 = some ⟨0, 0⟩ ∧ m.py3 ≠ some ⟨0, 0⟩ ∧ text = "2") ∨
    (m.py2 ≠ some ⟨0, 0⟩ ∧ m.py3 = some ⟨0, 0⟩ ∧ text = "3")

/-- **C57.** Every run on Python 3 that analyses files, whatever becomes of them: the report states a minimum and there is a
note exactly if a part of that minimum is unknown; it names the majors of the unknown parts.  Both lines are left out by quiet
runs and by the parsable format. -/
theorem C57_program {w : World} (hw : ∀ q, (w.host q).major ≠ 2) {argv : List String} {p : Vermin.Parsed}
    (hp : parseArgs w.args argv (Config.init w.args.cpus) = .ok p)
    {files : List (List String)} {out : List String} {code : Nat} (h : program w argv = .exit files out code) (hf : files ≠ []) :
    ∃ pre rep m, out = pre ++ rep ∧
      (∀ text, minimumLine text ∈ rep ↔ p.cfg.quiet = false ∧ p.cfg.format = .default ∧ (m.py2 ≠ none ∨ m.py3 ≠ none) ∧
        text = minimumText m) ∧
      ∀ text, noteLine text ∈ rep ↔ p.cfg.quiet = false ∧ p.cfg.format = .default ∧ NotedMajors m text := by
  obtain ⟨pre, rep, acc, ho, hu, hr⟩ := report_any hw hp h hf
  have long : ∀ {s : String} {c : Char}, s.toList.head? = some c → c ≠ '\n' → s ≠ "\n" := by
    rintro s c hs hc rfl
    have hs : some '\n' = some c := hs
    exact hc (Option.some.inj hs).symm
  refine ⟨pre, rep, acc.mins, ho, fun text => ?_, fun text => ?_⟩
  · rw [hr _ (long (s := minimumLine text) (c := 'M') (head_of (head_of (by decide +kernel))) (by decide)), report_minimum]
  · rw [hr _ (long (s := noteLine text) (c := 'N') (head_of (head_of (by decide +kernel))) (by decide)), report_note]
    refine and_congr_right fun _ => and_congr_right fun _ => ?_
    unfold NotedMajors unknownText
    by_cases h2 : acc.mins.py2 = some Ver.zero <;> by_cases h3 : acc.mins.py3 = some Ver.zero
    · have e : joinStr " or " ["2", "3"] = "2 or 3" := by decide
      rw [show (⟨0, 0⟩ : Ver) = Ver.zero from rfl]
      simp [h2, h3, e]
    · have e : joinStr " or " ["2"] = "2" := by decide
      rw [show (⟨0, 0⟩ : Ver) = Ver.zero from rfl]
      simp [h2, h3, e]
    · have e : joinStr " or " ["3"] = "3" := by decide
      rw [show (⟨0, 0⟩ : Ver) = Ver.zero from rfl]
      simp [h2, h3, e]
    · rw [show (⟨0, 0⟩ : Ver) = Ver.zero from rfl]
      simp [h2, h3]

/-- A run on an empty file: nothing is known about either major; one on a file that needs 3.0: there is no note. -/
theorem C57_program_witness :
    (∃ files out, program { exampleWorld with parse := fun _ => .ok (prog []) [] } ["a.py"] = .exit files out 0 ∧ files ≠ [] ∧
      minimumLine "~2, ~3" ∈ out ∧ noteLine "2 or 3" ∈ out) ∧
    ∃ files out, program exampleWorld ["a.py"] = .exit files out 0 ∧ files ≠ [] ∧ minimumLine "3.0" ∈ out ∧
      ∀ text, noteLine text ∉ out := by
  have k1 : (match program { exampleWorld with parse := fun _ => .ok (prog []) [] } ["a.py"] with
      | .exit files out 0 => !files.isEmpty && out.contains (minimumLine "~2, ~3") && out.contains (noteLine "2 or 3")
      | _ => false) = true := by decide +kernel
  have k2 : (match program exampleWorld ["a.py"] with
      | .exit files out 0 => !files.isEmpty && out.contains (minimumLine "3.0") && out.all fun l => l.toList.head? != some 'N'
      | _ => false) = true := by decide +kernel
  constructor
  · split at k1
    · rename_i files out h
      simp only [Bool.and_eq_true, Bool.not_eq_true', List.isEmpty_eq_false_iff, List.contains_iff_mem] at k1
      exact ⟨files, out, h, k1.1.1, k1.1.2, k1.2⟩
    · cases k1
  · split at k2
    · rename_i files out h
      simp only [Bool.and_eq_true, Bool.not_eq_true', List.isEmpty_eq_false_iff, List.contains_iff_mem] at k2
      refine ⟨files, out, h, k2.1.1, k2.1.2, fun text ht => ?_⟩
      have hn : (noteLine text).toList.head? = some 'N' := head_of (head_of (by decide +kernel))
      have := List.all_eq_true.mp k2.2 _ ht
      rw [hn] at this
      exact absurd this (by decide)
    · cases k2

/-! ### C61: the result of a file -/

/-- A text in a column: spaces follow up to the width of the column, if it is not wider already. -/
def InColumn (width : Nat) (text shown : List Char) : Prop :=
  ∃ n, shown = text ++ List.replicate n ' ' ∧ (text.length ≤ width → shown.length = width) ∧ (width ≤ text.length → n = 0)

/-- **C61.** With `-v` the result of a file in the default format starts with the versions of both majors, separated by a comma,
in a column of 12 characters, and the path. -/
theorem C61_column {cfg : Config} (hf : cfg.format = .default) (hv : cfg.verbose ≥ 1) (hq : cfg.quiet = false)
    (path text : String) (m : Req) :
    ∃ shown rest, InColumn 12 (PartText 2 (some m.py2) ++ ',' :: ' ' :: PartText 3 (some m.py3)) shown ∧
      outputResult cfg path text m = [String.ofList (shown ++ ' ' :: path.toList ++ rest ++ ['\n'])] ∧
      (text = "" ↔ rest = []) := by
  obtain ⟨rest, h1, h2, h3⟩ := (C61_default_result cfg path text m hf).2 hv hq
  have hr : (reqString m).toList = PartText 2 (some m.py2) ++ ',' :: ' ' :: PartText 3 (some m.py3) := by
    simp only [reqString, Req.vals, versionStringsFrom, versionString_part, String.toList_ofList]
    rw [if_neg (by decide)]
    simp [join]
  rw [hr] at h1
  refine ⟨_, rest, ⟨_, rfl, fun h => ?_, fun h => by omega⟩, h1, h2, fun h => ?_⟩
  · simp only [padRight, List.length_append, List.length_replicate] at h ⊢
    omega
  · apply Classical.byContradiction
    intro ht
    obtain ⟨_, _, _, hr, _⟩ := h3 ht
    rw [h] at hr
    cases hr

example : InColumn 12 "!2, 3.4".toList "!2, 3.4     ".toList := ⟨5, rfl, fun _ => rfl, fun h => absurd h (by decide)⟩

end Vermin.Props
