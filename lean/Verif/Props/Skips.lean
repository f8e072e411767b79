import Verif.Model.Skips
import Verif.Props.Detection
/-
What happens to the paths named on the command line: C81.
-/
namespace Vermin.Props
open Vermin Vermin.Py

/-- The looked-at path is a folder whose entries cannot be listed. -/
def Unlistable (fs : FS) (o : DetOpts) (d : Nat) (p : List Char) : Prop :=
  ¬ Ignored fs o p ∧ ¬ HiddenPath o p ∧ IsFolder fs (d = 0 ∨ o.scanSymlinkFolders = true) (Used fs o p) ∧ fs.listdir (Used fs o p) = none

/-- What is printed about such a folder. -/
def refusal (exText : List Char → String) (q : List Char) : String := "Ignoring " ++ String.ofList q ++ ": " ++ exText q ++ "\n"

theorem hidden_iff {o : DetOpts} {p : List Char} :
    (!o.hidden && decide (p ≠ ['.']) && decide (p.head? = some '.')) = true ↔ HiddenPath o p := by
  simp only [HiddenPath, Bool.and_eq_true, Bool.not_eq_true', decide_eq_true_eq, and_assoc]
  refine and_congr_right fun _ => and_congr_right fun _ => ?_
  cases p with
  | nil => simp
  | cons c r =>
    simp only [List.head?_cons, Option.some.injEq]
    exact ⟨fun h => ⟨r, by rw [h]⟩, fun ⟨r', h⟩ => by cases h; rfl⟩

theorem detStepMsgs_spec {fs : FS} {o : DetOpts} {exText : List Char → String} {d : Nat} {p : List Char} {s : DetStep}
    (h : detStep fs o d p = .ok s) (l : String) :
    l ∈ detStepMsgs fs o exText d p ↔ o.cfg.quiet = false ∧ Unlistable fs o d p ∧ l = refusal exText (Used fs o p) := by
  unfold detStep at h
  unfold detStepMsgs
  split at h
  · rename_i hi
    rw [if_pos hi]
    exact ⟨fun h => (nomatch h), fun h => absurd (ignored_iff.mp hi) h.2.1.1⟩
  · rename_i hi
    rw [if_neg hi]
    have hi : ¬ Ignored fs o p := fun h => hi (ignored_iff.mpr h)
    split at h
    · cases h
    · rename_i he
      rw [if_neg he]
      split at h
      · rename_i hh
        rw [if_pos hh]
        exact ⟨fun h => (nomatch h), fun h => absurd (hidden_iff.mp hh) h.2.1.2.1⟩
      · rename_i hh
        rw [if_neg hh]
        have hh : ¬ HiddenPath o p := fun h => hh (hidden_iff.mpr h)
        have hu : (if o.cfg.makePathsAbsolute = true then abspath fs.cwd p else p) = Used fs o p := rfl
        simp only [hu]
        have hdir := @statPath_dir fs (Used fs o p) (if d = 0 then true else o.scanSymlinkFolders)
        simp only [follow_iff] at hdir
        cases hst : statPath fs (Used fs o p) (if d = 0 then true else o.scanSymlinkFolders) with
        | none =>
          rw [hst] at hdir
          exact ⟨fun h => (nomatch h), fun h => nomatch hdir.mpr h.2.1.2.2.1⟩
        | some st =>
          rw [hst] at hdir
          cases st with
          | dir =>
            simp only
            cases hl : fs.listdir (Used fs o p) with
            | none =>
              simp only [nprint]
              cases hq : o.cfg.quiet
              · simp only [Bool.false_eq_true, if_false, List.mem_singleton]
                exact ⟨fun h => ⟨trivial, ⟨hi, hh, hdir.mp rfl, hl⟩, h⟩, fun h => h.2.2⟩
              · simp
            | some names =>
              exact ⟨fun h => (nomatch h), fun h => by have := h.2.1.2.2.2; rw [hl] at this; cases this⟩
          | reg => exact ⟨fun h => (nomatch h), fun h => nomatch hdir.mpr h.2.1.2.2.1⟩
          | other => exact ⟨fun h => (nomatch h), fun h => nomatch hdir.mpr h.2.1.2.2.1⟩

theorem detPaths_ok {fs : FS} {o : DetOpts} {d : Nat} : ∀ {ps : List (List Char)} {r : List (List Char) × List DetArg},
    detPaths fs o d ps = .ok r → ∀ p ∈ ps, ∃ s, detStep fs o d p = .ok s
  | [], _, _, _, hp => nomatch hp
  | p :: ps, r, h, q, hq => by
    rw [detPaths] at h
    cases hs : detStep fs o d p with
    | error e => rw [hs] at h; cases h
    | ok s =>
      rw [hs] at h
      simp only at h
      cases hr : detPaths fs o d ps with
      | error e => rw [hr] at h; cases h
      | ok r' =>
        rcases List.mem_cons.mp hq with rfl | hq
        · exact ⟨s, hs⟩
        · exact detPaths_ok hr q hq

theorem detRound_ok {fs : FS} {o : DetOpts} : ∀ {args : List DetArg} {r : List (List Char) × List DetArg},
    detRound fs o args = .ok r → ∀ a ∈ args, ∀ p ∈ a.1, ∃ s, detStep fs o a.2 p = .ok s
  | [], _, _, _, ha => nomatch ha
  | a :: args, r, h, b, hb => by
    rw [detRound] at h
    cases hs : detectIncremental fs o a with
    | error e => rw [hs] at h; cases h
    | ok s =>
      obtain ⟨s1, s2⟩ := s
      rw [hs] at h
      simp only at h
      cases hr : detRound fs o args with
      | error e => rw [hr] at h; cases h
      | ok r' =>
        rcases List.mem_cons.mp hb with rfl | hb
        · exact detPaths_ok hs
        · exact detRound_ok hr b hb

theorem detRoundMsgs_spec {fs : FS} {o : DetOpts} {exText : List Char → String} {args : List DetArg}
    {r : List (List Char) × List DetArg} (h : detRound fs o args = .ok r) (l : String) :
    l ∈ detRoundMsgs fs o exText args ↔
      o.cfg.quiet = false ∧ ∃ d p, InArgs args d p ∧ Unlistable fs o d p ∧ l = refusal exText (Used fs o p) := by
  unfold detRoundMsgs
  simp only [List.mem_flatMap]
  constructor
  · rintro ⟨a, ha, p, hp, hl⟩
    obtain ⟨s, hs⟩ := detRound_ok h a ha p hp
    obtain ⟨h1, h2, h3⟩ := (detStepMsgs_spec hs l).mp hl
    exact ⟨h1, a.2, p, ⟨a, ha, rfl, hp⟩, h2, h3⟩
  · rintro ⟨h1, d, p, ⟨a, ha, rfl, hp⟩, h2, h3⟩
    obtain ⟨s, hs⟩ := detRound_ok h a ha p hp
    exact ⟨a, ha, p, hp, (detStepMsgs_spec hs l).mpr ⟨h1, h2, h3⟩⟩

theorem detLoopMsgs_nil {fs : FS} {o : DetOpts} {exText : List Char → String} : ∀ {n : Nat}, detLoopMsgs fs o exText n [] = []
  | 0 => rfl
  | n + 1 => by
    rw [detLoopMsgs]
    simpa [detRoundMsgs, detRound] using detLoopMsgs_nil (n := n)

theorem detLoopMsgs_spec {fs : FS} {o : DetOpts} {exText : List Char → String} : ∀ {n : Nat} {acc res : List (List Char)} {args : List DetArg},
    detLoop fs o n acc args = .ok (some res) → ∀ l : String,
    l ∈ detLoopMsgs fs o exText n args ↔
      o.cfg.quiet = false ∧ ∃ d p, From fs o args d p ∧ Unlistable fs o d p ∧ l = refusal exText (Used fs o p)
  | n, acc, res, [], h, l => by
    rw [detLoopMsgs_nil]
    constructor
    · intro h; cases h
    · rintro ⟨_, d, p, h, _⟩; exact absurd h from_nil
  | 0, acc, res, a :: args, h, q => by cases h
  | n + 1, acc, res, a :: args, h, l => by
    rw [detLoop] at h
    · cases hr : detRound fs o (a :: args) with
      | error e => rw [hr] at h; cases h
      | ok r =>
        obtain ⟨acc', fur⟩ := r
        rw [hr] at h
        obtain ⟨s1, s2⟩ := detRound_spec hr
        rw [detLoopMsgs, hr, List.mem_append, detRoundMsgs_spec hr]
        simp only
        rw [detLoopMsgs_spec h l, ← and_or_left]
        refine and_congr_right fun _ => ?_
        constructor
        · rintro (⟨d, p, h, ht⟩ | ⟨d, p, h, ht⟩)
          · exact ⟨d, p, .base h, ht⟩
          · exact ⟨d, p, (from_round s2 d p).mpr (.inr h), ht⟩
        · rintro ⟨d, p, h, ht⟩
          rcases (from_round s2 d p).mp h with h | h
          · exact .inl ⟨d, p, h, ht⟩
          · exact .inr ⟨d, p, h, ht⟩
    · simp

/-- C81: what path detection prints is exactly what is to be said about the looked-at folders that cannot be listed. -/
theorem C81_messages {fs : FS} {o : DetOpts} {exText : List Char → String} {n : Nat} {paths res : List (List Char)}
    (h : detectPaths fs o n paths = .ok (some res)) (l : String) :
    l ∈ detLoopMsgs fs o exText n [(paths, 0)] ↔
      o.cfg.quiet = false ∧ ∃ d p, Visited fs o paths d p ∧ Unlistable fs o d p ∧ l = refusal exText (Used fs o p) := by
  rw [detLoopMsgs_spec h l]
  simp only [from_paths]

theorem main_paths_used {fs : FS} {cfg : Config} {paths : List (List Char)} :
    (if cfg.makePathsAbsolute = true then paths.map (abspath fs.cwd) else paths) = paths.map (Used fs (mainOpts cfg)) := by
  unfold Used mainOpts
  cases cfg.makePathsAbsolute <;> simp

theorem used_idem {fs : FS} {o : DetOpts} (hc : startsWith ['/'] fs.cwd = true) {p : List Char} : Used fs o (Used fs o p) = Used fs o p := by
  unfold Used
  split
  · exact abspath_idem hc
  · rfl

theorem main_messages {fs : FS} {cfg : Config} {exText : List Char → String} {n : Nat} {paths res : List (List Char)}
    (h : mainPaths fs cfg n paths = .ok (some res)) (l : String) :
    l ∈ mainPathsMsgs fs cfg exText n paths ↔ cfg.quiet = false ∧
      ∃ d p, Visited fs (mainOpts cfg) (paths.map (Used fs (mainOpts cfg))) d p ∧ Unlistable fs (mainOpts cfg) d p ∧ l = refusal exText (Used fs (mainOpts cfg) p) := by
  unfold mainPaths at h
  unfold mainPathsMsgs
  rw [main_paths_used] at h ⊢
  cases hd : detectPaths fs (mainOpts cfg) n (paths.map (Used fs (mainOpts cfg))) with
  | error e => rw [hd] at h; cases h
  | ok o =>
    cases o with
    | none => rw [hd] at h; cases h
    | some ps => exact C81_messages hd l

/-- C81: a named path that is neither ignored nor hidden is analysed if it is a file; of a folder every entry is looked at that is not hidden, or, if
it cannot be listed, this is said unless quiet mode is on. -/
theorem C81_named_partial {fs : FS} (hc : startsWith ['/'] fs.cwd = true) {cfg : Config} {exText : List Char → String} {n : Nat} {paths res : List (List Char)}
    (h : mainPaths fs cfg n paths = .ok (some res)) {p q : List Char} (hp : p ∈ paths) (hq : q = Used fs (mainOpts cfg) p)
    (hi : ¬ Ignored fs (mainOpts cfg) q) (hh : ¬ HiddenPath (mainOpts cfg) q) :
    (IsFile fs q → q ∈ res) ∧
    (∀ names, IsFolder fs True q → fs.listdir q = some names → ∀ e ∈ names, (cfg.analyzeHidden = true ∨ ∀ r, e ≠ '.' :: r) →
      Visited fs (mainOpts cfg) (paths.map (Used fs (mainOpts cfg))) 1 (pathJoin q e)) ∧
    (IsFolder fs True q → fs.listdir q = none → cfg.quiet = false → refusal exText q ∈ mainPathsMsgs fs cfg exText n paths) := by
  subst hq
  have hv : Visited fs (mainOpts cfg) (paths.map (Used fs (mainOpts cfg))) 0 (Used fs (mainOpts cfg) p) := .arg (List.mem_map.mpr ⟨p, hp, rfl⟩)
  have hu := used_idem (o := mainOpts cfg) (p := p) hc
  have hf : ∀ {q}, IsFolder fs True q → IsFolder fs ((0 : Nat) = 0 ∨ (mainOpts cfg).scanSymlinkFolders = true) q :=
    fun h => h.imp id fun h => ⟨.inl rfl, h.2⟩
  refine ⟨fun hfile => ?_, fun names hd hl e he hv' => ?_, fun hd hl hq => ?_⟩
  · exact ((C44_main h).2.2 _).mpr ⟨0, _, hv, hi, hh, hu.symm, hfile, .inl rfl⟩
  · have := Visited.entry hv (n := e) ⟨hi, hh, by rw [hu]; exact hf hd, names, by rw [hu]; exact hl, he, hv'⟩
    rwa [hu] at this
  · rw [main_messages h]
    refine ⟨hq, 0, _, hv, ⟨hi, hh, by rw [hu]; exact hf hd, by rw [hu]; exact hl⟩, by rw [hu]⟩

theorem detStep_nothing {fs : FS} {o : DetOpts} {exText : List Char → String} {p : List Char} (hp : p ≠ [])
    (h : Ignored fs o p ∨ HiddenPath o p ∨ (¬ IsFile fs (Used fs o p) ∧ ¬ IsFolder fs True (Used fs o p))) :
    detStep fs o 0 p = .ok .skip ∧ detStepMsgs fs o exText 0 p = [] := by
  unfold detStep detStepMsgs
  by_cases hi : Ignored fs o p
  · rw [if_pos (ignored_iff.mpr hi), if_pos (ignored_iff.mpr hi)]; exact ⟨rfl, rfl⟩
  · rw [if_neg fun h => hi (ignored_iff.mp h), if_neg fun h => hi (ignored_iff.mp h)]
    have he : ¬ (!o.hidden && p.isEmpty) = true := by simp [hp]
    rw [if_neg he, if_neg he]
    by_cases hh : HiddenPath o p
    · rw [if_pos (hidden_iff.mpr hh), if_pos (hidden_iff.mpr hh)]; exact ⟨rfl, rfl⟩
    · rw [if_neg fun h => hh (hidden_iff.mp h), if_neg fun h => hh (hidden_iff.mp h)]
      obtain ⟨h1, h2⟩ : ¬ IsFile fs (Used fs o p) ∧ ¬ IsFolder fs True (Used fs o p) := by
        rcases h with h | h | h
        · exact absurd h hi
        · exact absurd h hh
        · exact h
      have hu : (if o.cfg.makePathsAbsolute = true then abspath fs.cwd p else p) = Used fs o p := rfl
      simp only [hu, if_true]
      have hdir := @statPath_dir fs (Used fs o p) true
      have hreg := @statPath_reg fs (Used fs o p) true
      cases hst : statPath fs (Used fs o p) true with
      | none => exact ⟨rfl, rfl⟩
      | some st =>
        rw [hst] at hdir hreg
        cases st with
        | dir => exact absurd ((hdir.mp rfl).imp id fun h => ⟨trivial, h.2⟩) h2
        | reg => exact absurd (hreg.mp rfl) h1
        | other => exact ⟨rfl, rfl⟩

theorem detPaths_without {fs : FS} {o : DetOpts} {d : Nat} {p : List Char} (h : detStep fs o d p = .ok .skip) (l2 : List (List Char)) :
    ∀ l1 : List (List Char), detPaths fs o d (l1 ++ p :: l2) = detPaths fs o d (l1 ++ l2)
  | [] => by
    rw [List.nil_append, List.nil_append, detPaths, h]
    simp only
    cases detPaths fs o d l2 with
    | error e => rfl
    | ok r => rfl
  | q :: l1 => by
    rw [List.cons_append, List.cons_append, detPaths, detPaths, detPaths_without h l2 l1]

/-- C81: what is missing: a named path that is ignored or hidden, or that is no file and no folder, for example because it does not exist, is dropped.
The result and what is printed are those of a run without it. -/
theorem C81_dropped {fs : FS} {cfg : Config} {exText : List Char → String} {p q : List Char} (hq : q = Used fs (mainOpts cfg) p) (hq0 : q ≠ [])
    (h : Ignored fs (mainOpts cfg) q ∨ HiddenPath (mainOpts cfg) q ∨ (¬ IsFile fs (Used fs (mainOpts cfg) q) ∧ ¬ IsFolder fs True (Used fs (mainOpts cfg) q)))
    (n : Nat) (l1 l2 : List (List Char)) :
    mainPaths fs cfg n (l1 ++ p :: l2) = mainPaths fs cfg n (l1 ++ l2) ∧
    mainPathsMsgs fs cfg exText n (l1 ++ p :: l2) = mainPathsMsgs fs cfg exText n (l1 ++ l2) := by
  subst hq
  obtain ⟨h1, h2⟩ := detStep_nothing (exText := exText) hq0 h
  have hr : detRound fs (mainOpts cfg) [((l1 ++ p :: l2).map (Used fs (mainOpts cfg)), 0)] = detRound fs (mainOpts cfg) [((l1 ++ l2).map (Used fs (mainOpts cfg)), 0)] := by
    simp only [detRound, detectIncremental, List.map_append, List.map_cons, detPaths_without h1]
  unfold mainPaths mainPathsMsgs detectPaths
  simp only [main_paths_used]
  cases n with
  | zero => exact ⟨rfl, rfl⟩
  | succ n =>
    simp only [detLoop, detLoopMsgs, hr]
    refine ⟨trivial, ?_⟩
    congr 1
    simp [detRoundMsgs, h2]

end Vermin.Props
