import Verif.Spec.Chosen
import Verif.Props.Program
/-
C17 and C20 for all collections of files.
-/
namespace Vermin.Props
open Vermin Vermin.Py Vermin.Spec Vermin.V

theorem chosen_total (ign : Bool) : ∀ (l K : List Req), ∃ K', Chosen ign K l K'
  | [], K => ⟨K, .done⟩
  | m :: l, K => by
    by_cases h : ign = true ∨ ¬ Against K m
    · obtain ⟨K', hK⟩ := chosen_total ign l (K ++ [m])
      exact ⟨K', .take h hK⟩
    · obtain ⟨K', hK⟩ := chosen_total ign l K
      have h1 : ign = false := by cases ign <;> simp_all
      exact ⟨K', .leave h1 (Classical.byContradiction fun h2 => h (.inr h2)) hK⟩

theorem conflict_against (K : List Req) (m : Req) : Conflict (joinAll Req.unknown K) m ↔ Against K m := by
  have ho := overall_joinAll (R := (· ∈ K)) (l := K) fun r => Iff.rfl
  have e2 : Py2Only (joinAll Req.unknown K) ↔ (∃ r ∈ K, r.py3 = none) ∧ ∀ r ∈ K, r.py2 ≠ none := by
    rw [py2Only_iff, ho.none3, ne_eq, ho.none2]
    constructor
    · rintro ⟨h1, h2⟩; exact ⟨h2, fun r hr h => h1 ⟨r, hr, h⟩⟩
    · rintro ⟨h1, h2⟩; exact ⟨fun ⟨r, hr, h⟩ => h2 r hr h, h1⟩
  have e3 : Py3Only (joinAll Req.unknown K) ↔ (∃ r ∈ K, r.py2 = none) ∧ ∀ r ∈ K, r.py3 ≠ none := by
    rw [py3Only_iff, ho.none2, ne_eq, ho.none3]
    constructor
    · rintro ⟨h1, h2⟩; exact ⟨by assumption, fun r hr h => by first | exact h2 ⟨r, hr, h⟩ | exact h1 ⟨r, hr, h⟩⟩
    · rintro ⟨h1, h2⟩; exact ⟨h1, fun ⟨r, hr, h⟩ => h2 r hr h⟩
  unfold Conflict Against
  rw [e2, e3, and_comm, and_comm (a := Py2Only m)]

theorem chosen_foldl {cfg : Config} : ∀ (l : List (Option ProcRes)) (a : ProcAcc) (K K' : List Req), a.mins = joinAll Req.unknown K →
    Chosen cfg.ignoreIncomp K (fileMins l) K' → (l.foldl (procStep cfg) a).mins = joinAll Req.unknown K'
  | [], a, K, K', ha, h => by cases h; exact ha
  | r :: l, a, K, K', ha, h => by
    rw [fileMins_cons] at h
    rw [List.foldl_cons]
    have hs := procStep_mins (cfg := cfg) (a := a) (r := r)
    cases hm : r.bind (·.mins) with
    | none =>
      rw [hm] at hs h
      exact chosen_foldl l _ K K' (by rw [hs]; exact ha) h
    | some m =>
      rw [hm] at hs h
      dsimp only at hs
      have hr := C02_combine_raises_iff cfg.ignoreIncomp a.mins m none
      rw [ha, conflict_against] at hr
      cases h with
      | take ht h =>
        cases hc : combineVersions cfg.ignoreIncomp a.mins m with
        | ok x =>
          rw [hc] at hs
          refine chosen_foldl l _ (K ++ [m]) K' ?_ h
          rw [hs, combineVersions_ok hc, ha]
          simp [joinAll]
        | error e =>
          obtain ⟨h1, h2⟩ := hr.mp ⟨e, by rw [← ha]; exact hc⟩
          rcases ht with ht | ht
          · rw [h1] at ht; cases ht
          · exact absurd h2 ht
      | leave hi hA h =>
        obtain ⟨e, he⟩ := hr.mpr ⟨hi, hA⟩
        rw [← ha] at he
        rw [he] at hs
        exact chosen_foldl l _ K K' (by rw [hs]; exact ha) h

/-- **C17.** For all collections of files, be they compatible or not: the overall minimum is the combination of exactly the requirements that are chosen in
turn. -/
theorem C17_chosen (cfg : Config) (l : List (Option ProcRes)) :
    ∃ K, Chosen cfg.ignoreIncomp [] (fileMins l) K ∧ Overall (· ∈ K) (processed cfg l).mins := by
  obtain ⟨K, hK⟩ := chosen_total cfg.ignoreIncomp (fileMins l) []
  refine ⟨K, hK, ?_⟩
  have : (processed cfg l).mins = joinAll Req.unknown K := chosen_foldl l ProcAcc.init [] K rfl hK
  rw [this]
  exact overall_joinAll fun r => Iff.rfl

/-- **C20 (exact).** For all collections of files, be they compatible or not, and targets: the exit code is 0 iff there are files and each target is met by the
requirements that are chosen in turn (or, in violations mode, none of these says anything). The others, which conflict with files before them, do not count. -/
theorem C20_exact (cfg : Config) (versions : Bool) (l : List (Option ProcRes)) {out : List String} {code : Nat}
    (h : mainRun cfg versions (okOuts l) = .ok (out, code)) (hus : ∀ m ∈ fileMins l, Usual m)
    (hviol : cfg.onlyShowViolations = true → ∀ m ∈ fileMins l, Firm m)
    (ht : OnePerMajor cfg.targets) (hv : ∀ t ∈ cfg.targets, t.2.major = 2 ∨ t.2.major = 3) :
    ∃ K, Chosen cfg.ignoreIncomp [] (fileMins l) K ∧ (code = 0 ∨ code = 1) ∧
      (code = 0 ↔ l ≠ [] ∧ ((cfg.onlyShowViolations = true ∧ ∀ r ∈ K, r = ⟨some ⟨0, 0⟩, some ⟨0, 0⟩⟩) ∨ ∀ t ∈ cfg.targets, TargetMet (· ∈ K) t)) := by
  obtain ⟨K, hK, hov⟩ := C17_chosen (localConfig cfg) l
  refine ⟨K, localConfig_ignoreIncomp cfg ▸ hK, ?_⟩
  by_cases hl : l = []
  · subst hl
    rw [show okOuts [] = [] from rfl, C11_no_files] at h
    injection h with h
    injection h with _ h
    subst h
    exact ⟨.inr rfl, nofun, fun h => absurd rfl h.1⟩
  · have hM : Majored (processed (localConfig cfg) l).mins := (usual_processed hus).1
    obtain ⟨rep, hr, -⟩ := mainRun_okOuts hl h
    have hu : Ver.zero ∉ (processed (localConfig cfg) l).uniqueVersions := by
      intro hz
      have := ((C21_range (localConfig cfg) l).2 _).mp hz
      exact absurd this.1 (by decide)
    obtain ⟨o, c, hr', hc, hiff⟩ := C11_targets_iff cfg versions _ hu hM ht
    rw [hr'] at hr
    simp only [Except.ok.injEq, Prod.mk.injEq] at hr
    obtain ⟨-, rfl⟩ := hr
    refine ⟨hc, ?_⟩
    have h01 : c = 0 ↔ ¬ c = 1 := by omega
    have hinc : cfg.onlyShowViolations = true ∧ Inconclusive (processed (localConfig cfg) l).mins ↔
        cfg.onlyShowViolations = true ∧ ∀ r ∈ K, r = ⟨some ⟨0, 0⟩, some ⟨0, 0⟩⟩ :=
      and_congr_right fun hv => inconclusive_iff hov (firm_kept.processed (hviol hv))
    rw [h01, hiff, hinc]
    have hmet := fun t htm => met_iff hov hM (t := t) (hv t htm)
    constructor
    · intro hno
      refine ⟨hl, ?_⟩
      by_cases hi : cfg.onlyShowViolations = true ∧ ∀ r ∈ K, r = ⟨some ⟨0, 0⟩, some ⟨0, 0⟩⟩
      · exact .inl hi
      · right
        intro t htm
        rw [← hmet t htm]
        exact Classical.byContradiction fun hn => hno ⟨hi, t, htm, fun v h1 h2 h3 => hn ⟨v, h1, h2, h3⟩⟩
    · rintro ⟨-, hi | hall⟩ ⟨hni, t, htm, hn⟩
      · exact hni hi
      · obtain ⟨v, h1, h2, h3⟩ := (hmet t htm).mpr (hall t htm)
        exact hn v h1 h2 h3

/-- Of three files the second one conflicts with the first one, and does not count for the target 2.7. -/
def threeFiles : List (Option ProcRes) :=
  [some (plainFile "a" ⟨some ⟨2, 3⟩, none⟩), some (plainFile "b" ⟨none, some ⟨3, 0⟩⟩), some (plainFile "c" ⟨some ⟨2, 7⟩, some ⟨3, 1⟩⟩)]
def targeting27 : Config := { Config.init 1 with targets := [(false, ⟨2, 7⟩)] }

theorem C20_exact_witness :
    Chosen targeting27.ignoreIncomp [] (fileMins threeFiles) [⟨some ⟨2, 3⟩, none⟩, ⟨some ⟨2, 7⟩, some ⟨3, 1⟩⟩] ∧
    TargetMet (· ∈ [⟨some ⟨2, 3⟩, none⟩, ⟨some ⟨2, 7⟩, some ⟨3, 1⟩⟩]) (false, ⟨2, 7⟩) ∧
    (mainRun targeting27 false (okOuts threeFiles)).map (·.2) = .ok 0 := by
  refine ⟨.take (.inr ?_) (.leave rfl ?_ (.take (.inr ?_) .done)), ⟨?_, ⟨some ⟨2, 7⟩, some ⟨3, 1⟩⟩, ⟨2, 7⟩, .tail _ (.head _), rfl, by decide, nofun⟩, by decide +kernel⟩
  · rintro (⟨_, ⟨_, h, _⟩, _⟩ | ⟨_, ⟨_, h, _⟩, _⟩) <;> cases h
  · exact .inl ⟨by decide, ⟨_, .head _, rfl⟩, fun r hr => by cases hr with | head => nofun | tail _ h => cases h⟩
  · rintro (⟨h, _⟩ | ⟨h, _⟩) <;> exact absurd h (by decide)
  · intro r hr
    rcases List.mem_cons.mp hr with rfl | hr
    · exact .inl ⟨rfl, _, rfl, by decide⟩
    · rw [List.mem_singleton.mp hr]; exact .inl ⟨rfl, _, rfl, by decide⟩

end Vermin.Props
