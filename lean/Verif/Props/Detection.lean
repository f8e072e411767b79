import Verif.Lemmas.Paths
import Verif.Lemmas.Sort
import Verif.Props.Processor
/-
Path detection: C44, C45, C46, and C18 for `detect_paths`.
-/
namespace Vermin.Props
open Vermin Vermin.Py

/-! ### C46 -/

/-- A line, stripped, that starts with `#!` and mentions python, in any case. -/
def Magic (line : List Char) : Prop :=
  (∃ r, strip (lower line) = '#' :: '!' :: r) ∧ ∃ a b, strip (lower line) = a ++ (['p', 'y', 't', 'h', 'o', 'n'] ++ b)

theorem isSub_iff {sub : List Char} : ∀ {s : List Char}, isSub sub s = true ↔ ∃ a b, s = a ++ (sub ++ b)
  | [] => by
    simp only [isSub, List.isEmpty_iff]
    constructor
    · rintro rfl; exact ⟨[], [], rfl⟩
    · rintro ⟨a, b, h⟩
      have := congrArg List.length h
      simp only [List.length_nil, List.length_append] at this
      exact List.length_eq_zero_iff.mp (by omega)
  | c :: s => by
    rw [isSub, Bool.or_eq_true, isSub_iff, List.isPrefixOf_iff_prefix]
    constructor
    · rintro (⟨t, h⟩ | ⟨a, b, rfl⟩)
      · exact ⟨[], t, h.symm⟩
      · exact ⟨c :: a, b, rfl⟩
    · rintro ⟨a, b, h⟩
      cases a with
      | nil => exact .inl ⟨b, h.symm⟩
      | cons d a =>
        simp only [List.cons_append, List.cons.injEq] at h
        exact .inr ⟨a, b, h.2⟩

theorem isMagicLine_iff {line : List Char} : isMagicLine line = true ↔ Magic line := by
  unfold isMagicLine Magic
  simp only [Bool.and_eq_true]
  have hp : "python".toList = ['p', 'y', 't', 'h', 'o', 'n'] := by decide
  rw [hp, isSub_iff, startsWith, List.isPrefixOf_iff_prefix]
  refine and_congr_left fun _ => ?_
  exact ⟨fun ⟨t, h⟩ => ⟨t, h.symm⟩, fun ⟨t, h⟩ => ⟨t, h.symm⟩⟩

theorem magicLoop_iff : ∀ {n : Nat} {ls : List (List Char)},
    magicLoop n ls = true ↔ ∃ i, i < n ∧ ∃ l, ls[i]? = some l ∧ Magic l
  | 0, ls => by simp [magicLoop]
  | n + 1, [] => by simp [magicLoop]
  | n + 1, l :: ls => by
    rw [magicLoop]
    constructor
    · intro h
      split at h
      · rename_i hm; exact ⟨0, Nat.zero_lt_succ _, l, rfl, isMagicLine_iff.mp hm⟩
      · obtain ⟨i, hi, l', hl, hm⟩ := magicLoop_iff.mp h
        exact ⟨i + 1, Nat.succ_lt_succ hi, l', by simpa using hl, hm⟩
    · rintro ⟨i, hi, l', hl, hm⟩
      split
      · rfl
      · rename_i hn
        cases i with
        | zero =>
          simp only [List.getElem?_cons_zero, Option.some.injEq] at hl
          rw [← hl] at hm; exact absurd (isMagicLine_iff.mpr hm) hn
        | succ i =>
          exact magicLoop_iff.mpr ⟨i, Nat.lt_of_succ_lt_succ hi, l', by simpa using hl, hm⟩

theorem ext_of_hasExt {p e : List Char} (h : HasExt p e) : (extOf p).drop 1 = e := by
  rw [extOf_of_hasExt h]; rfl

theorem noext_of {p : List Char} (h : ∀ e, ¬ HasExt p e) : extOf p = [] := by
  refine Classical.byContradiction fun hne => ?_
  obtain ⟨e, he, -⟩ := hasExt_of_extOf hne
  exact h e he

/-- C46: python extensions, in any case, are python files. -/
theorem C46_python (fs : FS) (path : List Char) (e : String) (h : HasExt (lower path) e.toList)
    (he : e ∈ ["py", "py3", "pyw", "pyj", "pyi"]) : probablyPythonFile fs path = true := by
  unfold probablyPythonFile
  simp only [ext_of_hasExt h, String.ofList_toList]
  rw [if_pos]
  rw [List.contains_iff_mem]; exact he

/-- C46: compiled python and the listed other extensions are not. -/
theorem C46_not_python (fs : FS) (path : List Char) (e : String) (h : HasExt (lower path) e.toList)
    (he : e ∈ ["pyc", "pyd", "pxd", "pyx", "pyo"] ∨ e ∈ notPyCodeExts) : probablyPythonFile fs path = false := by
  have hdis : ∀ x ∈ ["py", "py3", "pyw", "pyj", "pyi"], x ∉ ["pyc", "pyd", "pxd", "pyx", "pyo"] ∧ x ∉ notPyCodeExts := by
    decide +kernel
  unfold probablyPythonFile
  simp only [ext_of_hasExt h, String.ofList_toList]
  rw [if_neg, if_pos]
  · rw [Bool.or_eq_true, List.contains_iff_mem, List.contains_iff_mem]; exact he
  · rw [List.contains_iff_mem]
    intro hm
    rcases he with he | he
    · exact (hdis e hm).1 he
    · exact (hdis e hm).2 he

/-- C46: all other files, also those without extension, are decided by their first ten lines. -/
theorem C46_contents (fs : FS) (path : List Char)
    (h : ∀ e : String, HasExt (lower path) e.toList →
      e ∉ ["py", "py3", "pyw", "pyj", "pyi"] ∧ e ∉ ["pyc", "pyd", "pxd", "pyx", "pyo"] ∧ e ∉ notPyCodeExts) :
    probablyPythonFile fs path = true ↔ ∃ i, i < 10 ∧ ∃ l, (fs.lines path)[i]? = some l ∧ Magic l := by
  have key : ∃ ext : String, String.ofList ((extOf (lower path)).drop 1) = ext ∧
      ext ∉ ["py", "py3", "pyw", "pyj", "pyi"] ∧ ext ∉ ["pyc", "pyd", "pxd", "pyx", "pyo"] ∧ ext ∉ notPyCodeExts := by
    by_cases hx : ∃ e, HasExt (lower path) e
    · obtain ⟨e, he⟩ := hx
      refine ⟨String.ofList e, by rw [ext_of_hasExt he], h _ (by rw [String.toList_ofList]; exact he)⟩
    · rw [noext_of fun e he => hx ⟨e, he⟩]
      exact ⟨"", rfl, by decide +kernel⟩
  obtain ⟨ext, h1, h2, h3, h4⟩ := key
  unfold probablyPythonFile
  simp only [h1]
  have hp : pyExts.contains ext = false := by
    cases hc : pyExts.contains ext
    · rfl
    · exact absurd (List.contains_iff_mem.mp hc) h2
  have hn : (nonCodeExts.contains ext || notPyCodeExts.contains ext) = false := by
    cases hc : (nonCodeExts.contains ext || notPyCodeExts.contains ext)
    · rfl
    · rw [Bool.or_eq_true, List.contains_iff_mem, List.contains_iff_mem] at hc
      rcases hc with hc | hc
      · exact absurd hc h3
      · exact absurd hc h4
  rw [hp, hn]
  exact magicLoop_iff

/-- The listed extension `DS_Store` is never met, as paths are lower-cased first: such files are decided by contents. -/
theorem C46_ds_store : "DS_Store" ∈ notPyCodeExts ∧ ∀ (p : List Char), ¬ HasExt (lower p) "DS_Store".toList := by
  refine ⟨by decide +kernel, ?_⟩
  rintro p ⟨dir, stem, h, -⟩
  have hD : 'D' ∈ lower p := by
    rw [h]
    have : 'D' ∈ "DS_Store".toList := by decide
    simp
  unfold lower at hD
  obtain ⟨c, -, hc⟩ := List.mem_map.mp hD
  unfold lowerChar at hc
  split at hc
  · rename_i hr
    have := congrArg Char.toNat hc
    have hall : ∀ n : Nat, n < 91 → 65 ≤ n → (Char.ofNat (n + 32)).toNat ≠ 'D'.toNat := by decide
    exact hall c.toNat (by omega) hr.1 this
  · rename_i hr
    apply hr
    rw [hc]; decide

def noFS : FS := { cwd := ['/'], lstat := fun _ => none, listdir := fun _ => none, lines := fun _ => [], search := fun _ _ => false }

example : probablyPythonFile noFS "dir.x/Setup.PY".toList = true ∧ probablyPythonFile noFS "a.py.Zip".toList = false ∧
    probablyPythonFile noFS ".py".toList = false ∧
    probablyPythonFile { noFS with lines := fun _ => ["".toList, " #!/usr/bin/env Python3\n".toList] } "run".toList = true := by
  decide +kernel

example : HasExt "dir.x/setup.py".toList "py".toList :=
  ⟨"dir.x/".toList, "setup".toList, by decide, .inr ⟨"dir.x".toList, by decide⟩, by decide, by decide, by decide, 's', by decide, by decide⟩

/-! ### C44 -/

/-- The path has an ignored character or is excluded by a regex. -/
def Ignored (fs : FS) (o : DetOpts) (p : List Char) : Prop :=
  (∃ c ∈ o.ignoreChars, c ∈ p) ∨ ∃ r ∈ o.cfg.exclusionRegex, fs.search r (String.ofList p) = true

/-- The path starts with a dot (and is not `.`), while hidden files are not looked at. -/
def HiddenPath (o : DetOpts) (p : List Char) : Prop := o.hidden = false ∧ p ≠ ['.'] ∧ ∃ r, p = '.' :: r

/-- The path that is used: absolute if configured. -/
def Used (fs : FS) (o : DetOpts) (p : List Char) : List Char := if o.cfg.makePathsAbsolute then abspath fs.cwd p else p

/-- A folder, or, where allowed, a link to one. -/
def IsFolder (fs : FS) (links : Prop) (p : List Char) : Prop :=
  fs.lstat p = some (.node .dir) ∨ (links ∧ fs.lstat p = some (.link (some .dir)))

/-- A file or a link to one. -/
def IsFile (fs : FS) (p : List Char) : Prop :=
  fs.lstat p = some (.node .reg) ∨ fs.lstat p = some (.link (some .reg))

/-- The entry `n` of the folder named `p`, looked at on level `d`, is looked at too. -/
def Entry (fs : FS) (o : DetOpts) (d : Nat) (p n : List Char) : Prop :=
  ¬ Ignored fs o p ∧ ¬ HiddenPath o p ∧ IsFolder fs (d = 0 ∨ o.scanSymlinkFolders = true) (Used fs o p) ∧
  ∃ names, fs.listdir (Used fs o p) = some names ∧ n ∈ names ∧ (o.hidden = true ∨ ∀ r, n ≠ '.' :: r)

/-- The paths that are looked at, with their level below the arguments. -/
inductive Visited (fs : FS) (o : DetOpts) (paths : List (List Char)) : Nat → List Char → Prop
  | arg {p} : p ∈ paths → Visited fs o paths 0 p
  | entry {d p n} : Visited fs o paths d p → Entry fs o d p n → Visited fs o paths (d + 1) (pathJoin (Used fs o p) n)

/-- A looked-at path is taken as `q`. -/
def Taken (fs : FS) (o : DetOpts) (d : Nat) (p q : List Char) : Prop :=
  ¬ Ignored fs o p ∧ ¬ HiddenPath o p ∧ q = Used fs o p ∧ IsFile fs q ∧ (d = 0 ∨ probablyPythonFile fs q = true)

theorem ignored_iff {fs : FS} {o : DetOpts} {p : List Char} :
    ((o.ignoreChars.any fun c => p.contains c) || o.cfg.isExcludedByRegex fs.search (String.ofList p)) = true ↔ Ignored fs o p := by
  simp [Ignored, Config.isExcludedByRegex]

theorem statPath_dir {fs : FS} {p : List Char} {b : Bool} : statPath fs p b = some .dir ↔ IsFolder fs (b = true) p := by
  unfold statPath IsFolder
  rcases fs.lstat p with _ | ⟨s⟩ | ⟨_ | s⟩
  · simp
  · simp
  · simp
  · cases s <;> cases b <;> simp

theorem statPath_reg {fs : FS} {p : List Char} {b : Bool} : statPath fs p b = some .reg ↔ IsFile fs p := by
  unfold statPath IsFile
  rcases fs.lstat p with _ | ⟨s⟩ | ⟨_ | s⟩
  · simp
  · simp
  · simp
  · cases s <;> cases b <;> simp

theorem follow_iff {d : Nat} {b : Bool} : (if d = 0 then true else b) = true ↔ (d = 0 ∨ b = true) := by
  split <;> simp_all

theorem detStep_spec {fs : FS} {o : DetOpts} {d : Nat} {p : List Char} {s : DetStep} (h : detStep fs o d p = .ok s) :
    (∀ q, s = .accept q ↔ Taken fs o d p q) ∧
    (∀ p', (∃ qs, s = .further qs ∧ p' ∈ qs) ↔ ∃ n, Entry fs o d p n ∧ p' = pathJoin (Used fs o p) n) := by
  unfold detStep at h
  split at h
  · rename_i hi
    have hi := ignored_iff.mp hi
    cases h
    exact ⟨fun q => ⟨fun h => (nomatch h), fun h => absurd hi h.1⟩,
      fun p' => ⟨fun ⟨_, h, _⟩ => (nomatch h), fun ⟨n, h, _⟩ => absurd hi h.1⟩⟩
  · rename_i hi
    have hi : ¬ Ignored fs o p := fun h => hi (ignored_iff.mpr h)
    split at h
    · cases h
    · split at h
      · rename_i hh
        have hh : HiddenPath o p := by
          simp only [Bool.and_eq_true, Bool.not_eq_true', decide_eq_true_eq] at hh
          obtain ⟨⟨h1, h2⟩, h3⟩ := hh
          refine ⟨h1, h2, ?_⟩
          cases p with
          | nil => cases h3
          | cons c r => simp only [List.head?_cons, Option.some.injEq] at h3; exact ⟨r, by rw [h3]⟩
        cases h
        exact ⟨fun q => ⟨fun h => (nomatch h), fun h => absurd hh h.2.1⟩,
          fun p' => ⟨fun ⟨_, h, _⟩ => (nomatch h), fun ⟨n, h, _⟩ => absurd hh h.2.1⟩⟩
      · rename_i hh
        have hh : ¬ HiddenPath o p := by
          rintro ⟨h1, h2, r, h3⟩
          apply hh
          simp only [Bool.and_eq_true, Bool.not_eq_true', decide_eq_true_eq]
          exact ⟨⟨h1, h2⟩, by rw [h3]; rfl⟩
        have hu : (if o.cfg.makePathsAbsolute = true then abspath fs.cwd p else p) = Used fs o p := rfl
        simp only [hu] at h
        have hdir := @statPath_dir fs (Used fs o p) (if d = 0 then true else o.scanSymlinkFolders)
        have hreg := @statPath_reg fs (Used fs o p) (if d = 0 then true else o.scanSymlinkFolders)
        cases hst : statPath fs (Used fs o p) (if d = 0 then true else o.scanSymlinkFolders) with
        | none =>
          rw [hst] at h hdir hreg
          cases h
          refine ⟨fun q => ⟨fun h => (nomatch h), fun h => ?_⟩, fun p' => ⟨fun ⟨_, h, _⟩ => (nomatch h), fun ⟨n, h, _⟩ => ?_⟩⟩
          · have := h.2.2.2.1; rw [h.2.2.1] at this; exact nomatch hreg.mpr this
          · have := h.2.2.1; simp only [follow_iff] at hdir; exact nomatch hdir.mpr this
        | some st =>
          rw [hst] at h hdir hreg
          simp only [follow_iff] at hdir
          cases st with
          | dir =>
            have hf := hdir.mp rfl
            have hnf : ¬ IsFile fs (Used fs o p) := fun h => nomatch hreg.mpr h
            simp only at h
            cases hl : fs.listdir (Used fs o p) with
            | none =>
              rw [hl] at h
              cases h
              refine ⟨fun q => ⟨fun h => (nomatch h), fun h => ?_⟩, fun p' => ⟨fun ⟨_, h, _⟩ => (nomatch h), fun ⟨n, h, _⟩ => ?_⟩⟩
              · have := h.2.2.2.1; rw [h.2.2.1] at this; exact absurd this hnf
              · obtain ⟨_, _, _, names, h1, _⟩ := h; rw [hl] at h1; cases h1
            | some names =>
              rw [hl] at h
              cases h
              refine ⟨fun q => ⟨fun h => (nomatch h), fun h => ?_⟩, fun p' => ?_⟩
              · have := h.2.2.2.1; rw [h.2.2.1] at this; exact absurd this hnf
              · constructor
                · rintro ⟨qs, h1, h2⟩
                  cases h1
                  obtain ⟨n, hn, rfl⟩ := List.mem_map.mp h2
                  rw [List.mem_filter, Bool.or_eq_true, decide_eq_true_eq] at hn
                  refine ⟨n, ⟨hi, hh, hf, names, hl, hn.1, ?_⟩, rfl⟩
                  rcases hn.2 with h' | h'
                  · exact .inl h'
                  · exact .inr fun r hr => h' (by rw [hr]; rfl)
                · rintro ⟨n, ⟨_, _, _, names', h1, h2, h3⟩, rfl⟩
                  rw [hl] at h1; cases h1
                  refine ⟨_, rfl, List.mem_map.mpr ⟨n, ?_, rfl⟩⟩
                  rw [List.mem_filter, Bool.or_eq_true, decide_eq_true_eq]
                  refine ⟨h2, ?_⟩
                  rcases h3 with h3 | h3
                  · exact .inl h3
                  · refine .inr fun hn => ?_
                    cases n with
                    | nil => cases hn
                    | cons c r => simp only [List.head?_cons, Option.some.injEq] at hn; exact h3 r (by rw [hn])
          | reg =>
            have hf := hreg.mp rfl
            have hnd : ¬ IsFolder fs (d = 0 ∨ o.scanSymlinkFolders = true) (Used fs o p) := fun h => nomatch hdir.mpr h
            simp only at h
            split at h
            · rename_i hpy
              cases h
              refine ⟨fun q => ?_, fun p' => ⟨fun ⟨_, h, _⟩ => (nomatch h), fun ⟨n, h, _⟩ => absurd h.2.2.1 hnd⟩⟩
              constructor
              · intro h; cases h; exact ⟨hi, hh, rfl, hf, hpy⟩
              · intro h; rw [h.2.2.1]
            · rename_i hpy
              cases h
              refine ⟨fun q => ⟨fun h => (nomatch h), fun h => ?_⟩, fun p' => ⟨fun ⟨_, h, _⟩ => (nomatch h), fun ⟨n, h, _⟩ => absurd h.2.2.1 hnd⟩⟩
              exact absurd (by rw [← h.2.2.1]; exact h.2.2.2.2) hpy
          | other =>
            have hnf : ¬ IsFile fs (Used fs o p) := fun h => nomatch hreg.mpr h
            have hnd : ¬ IsFolder fs (d = 0 ∨ o.scanSymlinkFolders = true) (Used fs o p) := fun h => nomatch hdir.mpr h
            cases h
            refine ⟨fun q => ⟨fun h => (nomatch h), fun h => ?_⟩, fun p' => ⟨fun ⟨_, h, _⟩ => (nomatch h), fun ⟨n, h, _⟩ => absurd h.2.2.1 hnd⟩⟩
            have := h.2.2.2.1; rw [h.2.2.1] at this; exact absurd this hnf

theorem detPaths_spec {fs : FS} {o : DetOpts} {d : Nat} : ∀ {ps acc : List (List Char)} {fur : List DetArg},
    detPaths fs o d ps = .ok (acc, fur) →
    (∀ q, q ∈ acc ↔ ∃ p ∈ ps, Taken fs o d p q) ∧
    (∀ p' d', (∃ a ∈ fur, a.2 = d' ∧ p' ∈ a.1) ↔ d' = d + 1 ∧ ∃ p ∈ ps, ∃ n, Entry fs o d p n ∧ p' = pathJoin (Used fs o p) n)
  | [], acc, fur, h => by cases h; exact ⟨by simp, by simp⟩
  | p :: ps, acc, fur, h => by
    rw [detPaths] at h
    cases hs : detStep fs o d p with
    | error e => rw [hs] at h; cases h
    | ok s =>
      rw [hs] at h
      simp only at h
      cases hr : detPaths fs o d ps with
      | error e => rw [hr] at h; cases h
      | ok r =>
        obtain ⟨acc', fur'⟩ := r
        rw [hr] at h
        obtain ⟨i1, i2⟩ := detPaths_spec hr
        obtain ⟨s1, s2⟩ := detStep_spec hs
        cases s with
        | skip =>
          cases h
          refine ⟨fun q => ?_, fun p' d' => ?_⟩
          · rw [i1]
            constructor
            · rintro ⟨p, hp, h⟩; exact ⟨p, List.mem_cons_of_mem _ hp, h⟩
            · rintro ⟨p, hp, h⟩
              rcases List.mem_cons.mp hp with rfl | hp
              · exact nomatch (s1 q).mpr h
              · exact ⟨p, hp, h⟩
          · rw [i2]
            refine and_congr_right fun _ => ?_
            constructor
            · rintro ⟨p, hp, h⟩; exact ⟨p, List.mem_cons_of_mem _ hp, h⟩
            · rintro ⟨p, hp, h⟩
              rcases List.mem_cons.mp hp with rfl | hp
              · obtain ⟨_, h, _⟩ := (s2 p').mpr h; cases h
              · exact ⟨p, hp, h⟩
        | accept x =>
          cases h
          refine ⟨fun q => ?_, fun p' d' => ?_⟩
          · rw [List.mem_cons, i1]
            constructor
            · rintro (rfl | ⟨p, hp, h⟩)
              · exact ⟨p, List.mem_cons_self, (s1 _).mp rfl⟩
              · exact ⟨p, List.mem_cons_of_mem _ hp, h⟩
            · rintro ⟨p, hp, h⟩
              rcases List.mem_cons.mp hp with rfl | hp
              · have := (s1 q).mpr h; cases this; exact .inl rfl
              · exact .inr ⟨p, hp, h⟩
          · rw [i2]
            refine and_congr_right fun _ => ?_
            constructor
            · rintro ⟨p, hp, h⟩; exact ⟨p, List.mem_cons_of_mem _ hp, h⟩
            · rintro ⟨p, hp, h⟩
              rcases List.mem_cons.mp hp with rfl | hp
              · obtain ⟨_, h, _⟩ := (s2 p').mpr h; cases h
              · exact ⟨p, hp, h⟩
        | further qs =>
          cases h
          refine ⟨fun q => ?_, fun p' d' => ?_⟩
          · rw [i1]
            constructor
            · rintro ⟨p, hp, h⟩; exact ⟨p, List.mem_cons_of_mem _ hp, h⟩
            · rintro ⟨p, hp, h⟩
              rcases List.mem_cons.mp hp with rfl | hp
              · exact nomatch (s1 q).mpr h
              · exact ⟨p, hp, h⟩
          · constructor
            · rintro ⟨a, ha, h1, h2⟩
              rcases List.mem_cons.mp ha with rfl | ha
              · exact ⟨h1.symm, p, List.mem_cons_self, (s2 p').mp ⟨qs, rfl, h2⟩⟩
              · obtain ⟨h3, p, hp, h⟩ := (i2 p' d').mp ⟨a, ha, h1, h2⟩
                exact ⟨h3, p, List.mem_cons_of_mem _ hp, h⟩
            · rintro ⟨h3, p, hp, h⟩
              rcases List.mem_cons.mp hp with rfl | hp
              · obtain ⟨_, he, hm⟩ := (s2 p').mpr h
                cases he
                exact ⟨_, List.mem_cons_self, h3.symm, hm⟩
              · obtain ⟨a, ha, h⟩ := (i2 p' d').mpr ⟨h3, p, hp, h⟩
                exact ⟨a, List.mem_cons_of_mem _ ha, h⟩

/-- `p` is among the arguments of a round, on level `d`. -/
def InArgs (args : List DetArg) (d : Nat) (p : List Char) : Prop := ∃ a ∈ args, a.2 = d ∧ p ∈ a.1

theorem detRound_spec {fs : FS} {o : DetOpts} : ∀ {args : List DetArg} {acc : List (List Char)} {fur : List DetArg},
    detRound fs o args = .ok (acc, fur) →
    (∀ q, q ∈ acc ↔ ∃ d p, InArgs args d p ∧ Taken fs o d p q) ∧
    (∀ d' p', InArgs fur d' p' ↔ ∃ d p n, InArgs args d p ∧ d' = d + 1 ∧ Entry fs o d p n ∧ p' = pathJoin (Used fs o p) n)
  | [], acc, fur, h => by cases h; exact ⟨by simp [InArgs], by simp [InArgs]⟩
  | a :: args, acc, fur, h => by
    rw [detRound] at h
    cases hs : detectIncremental fs o a with
    | error e => rw [hs] at h; cases h
    | ok r1 =>
      obtain ⟨acc1, fur1⟩ := r1
      rw [hs] at h
      simp only at h
      cases hr : detRound fs o args with
      | error e => rw [hr] at h; cases h
      | ok r2 =>
        obtain ⟨acc2, fur2⟩ := r2
        rw [hr] at h
        cases h
        obtain ⟨i1, i2⟩ := detRound_spec hr
        obtain ⟨s1, s2⟩ := detPaths_spec hs
        have hin : ∀ d p, InArgs (a :: args) d p ↔ (a.2 = d ∧ p ∈ a.1) ∨ InArgs args d p := by
          intro d p
          simp [InArgs]
        refine ⟨fun q => ?_, fun d' p' => ?_⟩
        · rw [List.mem_append, s1, i1]
          constructor
          · rintro (⟨p, hp, h⟩ | ⟨d, p, hp, h⟩)
            · exact ⟨a.2, p, (hin _ _).mpr (.inl ⟨rfl, hp⟩), h⟩
            · exact ⟨d, p, (hin _ _).mpr (.inr hp), h⟩
          · rintro ⟨d, p, hp, h⟩
            rcases (hin _ _).mp hp with ⟨rfl, hp'⟩ | hp
            · exact .inl ⟨p, hp', h⟩
            · exact .inr ⟨d, p, hp, h⟩
        · have hsplit : InArgs (fur1 ++ fur2) d' p' ↔ InArgs fur1 d' p' ∨ InArgs fur2 d' p' := by
            simp only [InArgs, List.mem_append]
            constructor
            · rintro ⟨x, hx | hx, h⟩
              · exact .inl ⟨x, hx, h⟩
              · exact .inr ⟨x, hx, h⟩
            · rintro (⟨x, hx, h⟩ | ⟨x, hx, h⟩)
              · exact ⟨x, .inl hx, h⟩
              · exact ⟨x, .inr hx, h⟩
          rw [hsplit, i2]
          have := s2 p' d'
          constructor
          · rintro (h | ⟨d, p, n, hp, h⟩)
            · obtain ⟨h1, p, hp, n, h⟩ := this.mp h
              exact ⟨a.2, p, n, (hin _ _).mpr (.inl ⟨rfl, hp⟩), h1, h⟩
            · exact ⟨d, p, n, (hin _ _).mpr (.inr hp), h⟩
          · rintro ⟨d, p, n, hp, h1, h⟩
            rcases (hin _ _).mp hp with ⟨rfl, hp'⟩ | hp
            · exact .inl (this.mpr ⟨h1, p, hp', n, h⟩)
            · exact .inr ⟨d, p, n, hp, h1, h⟩

/-- What is looked at, starting from the arguments of a round. -/
inductive From (fs : FS) (o : DetOpts) (args : List DetArg) : Nat → List Char → Prop
  | base {d p} : InArgs args d p → From fs o args d p
  | entry {d p n} : From fs o args d p → Entry fs o d p n → From fs o args (d + 1) (pathJoin (Used fs o p) n)

theorem from_round {fs : FS} {o : DetOpts} {args fur : List DetArg}
    (hf : ∀ d' p', InArgs fur d' p' ↔ ∃ d p n, InArgs args d p ∧ d' = d + 1 ∧ Entry fs o d p n ∧ p' = pathJoin (Used fs o p) n)
    (d : Nat) (p : List Char) : From fs o args d p ↔ InArgs args d p ∨ From fs o fur d p := by
  constructor
  · intro h
    induction h with
    | base h => exact .inl h
    | entry h he ih =>
      rcases ih with ih | ih
      · exact .inr (.base ((hf _ _).mpr ⟨_, _, _, ih, rfl, he, rfl⟩))
      · exact .inr (.entry ih he)
  · rintro (h | h)
    · exact .base h
    · induction h with
      | base h =>
        obtain ⟨d, p, n, h1, rfl, h2, rfl⟩ := (hf _ _).mp h
        exact .entry (.base h1) h2
      | entry _ he ih => exact .entry ih he

theorem from_nil {fs : FS} {o : DetOpts} {d : Nat} {p : List Char} : ¬ From fs o [] d p := by
  intro h
  induction h with
  | base h => obtain ⟨a, ha, _⟩ := h; cases ha
  | entry _ _ ih => exact ih

theorem detLoop_spec {fs : FS} {o : DetOpts} : ∀ {n : Nat} {acc res : List (List Char)} {args : List DetArg},
    detLoop fs o n acc args = .ok (some res) →
    ∀ q, q ∈ res ↔ q ∈ acc ∨ ∃ d p, From fs o args d p ∧ Taken fs o d p q
  | n, acc, res, [], h, q => by
    have h : (Except.ok (some acc) : Except Err _) = .ok (some res) := by cases n <;> exact h
    cases h
    constructor
    · exact .inl
    · rintro (h | ⟨d, p, h, _⟩)
      · exact h
      · exact absurd h from_nil
  | 0, acc, res, a :: args, h, q => by cases h
  | n + 1, acc, res, a :: args, h, q => by
    rw [detLoop] at h
    · cases hr : detRound fs o (a :: args) with
      | error e => rw [hr] at h; cases h
      | ok r =>
        obtain ⟨acc', fur⟩ := r
        rw [hr] at h
        obtain ⟨s1, s2⟩ := detRound_spec hr
        rw [detLoop_spec h q, List.mem_append, s1, or_assoc]
        refine or_congr_right ?_
        constructor
        · rintro (⟨d, p, h, ht⟩ | ⟨d, p, h, ht⟩)
          · exact ⟨d, p, .base h, ht⟩
          · exact ⟨d, p, (from_round s2 d p).mpr (.inr h), ht⟩
        · rintro ⟨d, p, h, ht⟩
          rcases (from_round s2 d p).mp h with h | h
          · exact .inl ⟨d, p, h, ht⟩
          · exact .inr ⟨d, p, h, ht⟩
    · simp

theorem from_paths {fs : FS} {o : DetOpts} {paths : List (List Char)} {d : Nat} {p : List Char} :
    From fs o [(paths, 0)] d p ↔ Visited fs o paths d p := by
  constructor
  · intro h
    induction h with
    | base h =>
      obtain ⟨a, ha, h1, h2⟩ := h
      rw [List.mem_singleton] at ha
      subst ha
      subst h1
      exact .arg h2
    | entry _ he ih => exact .entry ih he
  · intro h
    induction h with
    | arg h => exact .base ⟨_, List.mem_singleton_self _, rfl, h⟩
    | entry _ he ih => exact .entry ih he

/-- C44: the detected paths are exactly the looked-at paths that are files and, unless named directly, look like python. -/
theorem C44_exact {fs : FS} {o : DetOpts} {n : Nat} {paths res : List (List Char)}
    (h : detectPaths fs o n paths = .ok (some res)) (q : List Char) :
    q ∈ res ↔ ∃ d p, Visited fs o paths d p ∧ Taken fs o d p q := by
  rw [detLoop_spec h q]
  simp only [List.not_mem_nil, false_or, from_paths]

/-! Termination and errors. -/

theorem used_ne_nil {fs : FS} {o : DetOpts} {p : List Char} (h : p ≠ []) : Used fs o p ≠ [] := by
  unfold Used
  split
  · exact normpath_ne_nil _
  · exact h

theorem pathJoin_ne_nil {a n : List Char} (h : a ≠ []) : pathJoin a n ≠ [] := by
  unfold pathJoin
  split
  · rename_i hs; rintro rfl; cases hs
  · split <;> simp [h]

theorem detPaths_error {fs : FS} {o : DetOpts} {d : Nat} : ∀ {ps : List (List Char)} {e : Err},
    detPaths fs o d ps = .error e → [] ∈ ps ∧ o.hidden = false ∧ e = .indexError
  | [], e, h => by cases h
  | p :: ps, e, h => by
    rw [detPaths] at h
    cases hs : detStep fs o d p with
    | error e' =>
      rw [hs] at h
      cases h
      unfold detStep at hs
      split at hs
      · cases hs
      · split at hs
        · rename_i hc
          rw [Bool.and_eq_true, Bool.not_eq_true', List.isEmpty_iff] at hc
          cases hs
          exact ⟨by rw [hc.2]; exact List.mem_cons_self, hc.1, rfl⟩
        · exfalso
          simp only at hs
          repeat' split at hs
          all_goals cases hs
    | ok s =>
      rw [hs] at h
      simp only at h
      cases hr : detPaths fs o d ps with
      | error e' =>
        rw [hr] at h
        cases h
        obtain ⟨h1, h2⟩ := detPaths_error hr
        exact ⟨List.mem_cons_of_mem _ h1, h2⟩
      | ok r =>
        rw [hr] at h
        cases s <;> cases h

theorem detRound_error {fs : FS} {o : DetOpts} : ∀ {args : List DetArg} {e : Err},
    detRound fs o args = .error e → (∃ d, InArgs args d []) ∧ o.hidden = false ∧ e = .indexError
  | [], e, h => by cases h
  | a :: args, e, h => by
    rw [detRound] at h
    cases hs : detectIncremental fs o a with
    | error e' =>
      rw [hs] at h
      cases h
      obtain ⟨h1, h2⟩ := detPaths_error hs
      exact ⟨⟨a.2, a, List.mem_cons_self, rfl, h1⟩, h2⟩
    | ok r1 =>
      rw [hs] at h
      simp only at h
      cases hr : detRound fs o args with
      | error e' =>
        rw [hr] at h
        cases h
        obtain ⟨⟨d, b, hb, h1⟩, h2⟩ := detRound_error hr
        exact ⟨⟨d, b, List.mem_cons_of_mem _ hb, h1⟩, h2⟩
      | ok r => rw [hr] at h; cases h

theorem detLoop_error {fs : FS} {o : DetOpts} : ∀ {n : Nat} {acc : List (List Char)} {args : List DetArg} {e : Err},
    detLoop fs o n acc args = .error e → (∃ d, InArgs args d []) ∧ o.hidden = false ∧ e = .indexError
  | n, acc, [], e, h => by cases n <;> cases h
  | 0, acc, a :: args, e, h => by cases h
  | n + 1, acc, a :: args, e, h => by
    rw [detLoop] at h
    · cases hr : detRound fs o (a :: args) with
      | error e' => rw [hr] at h; cases h; exact detRound_error hr
      | ok r =>
        obtain ⟨acc', fur⟩ := r
        rw [hr] at h
        obtain ⟨⟨d, hd⟩, h2⟩ := detLoop_error h
        obtain ⟨d', p, m, hp, -, hE, hj⟩ := ((detRound_spec hr).2 d []).mp hd
        have hpn : p = [] := by
          refine Classical.byContradiction fun hne => ?_
          exact pathJoin_ne_nil (used_ne_nil hne) hj.symm
        exact ⟨⟨d', by rw [← hpn]; exact hp⟩, h2⟩
    · simp

/-- C44: the only exception is IndexError, for an empty argument while hidden files are not looked at. -/
theorem C44_error {fs : FS} {o : DetOpts} {n : Nat} {paths : List (List Char)} {e : Err}
    (h : detectPaths fs o n paths = .error e) : [] ∈ paths ∧ o.hidden = false ∧ e = .indexError := by
  obtain ⟨⟨d, a, ha, h1, h2⟩, h3⟩ := detLoop_error h
  rw [List.mem_singleton] at ha
  subst ha
  exact ⟨h2, h3⟩

theorem detRound_empty {fs : FS} {o : DetOpts} : ∀ {args : List DetArg}, (∀ d p, ¬ InArgs args d p) →
    detRound fs o args = .ok ([], [])
  | [], _ => rfl
  | (ps, d) :: args, h => by
    have hps : ps = [] := by
      rw [List.eq_nil_iff_forall_not_mem]
      intro p hp
      exact h d p ⟨_, List.mem_cons_self, rfl, hp⟩
    subst hps
    have ih : detRound fs o args = .ok ([], []) :=
      detRound_empty fun d p ⟨b, hb, h'⟩ => h d p ⟨b, List.mem_cons_of_mem _ hb, h'⟩
    rw [detRound, show detectIncremental fs o ([], d) = .ok ([], []) from rfl]
    simp only [ih]
    rfl

/-- `h` decreases from a folder to its entries, as looked at: the part of the tree that is scanned has finite depth. -/
def FiniteDepth (fs : FS) (o : DetOpts) (h : List Char → Nat) : Prop :=
  ∀ d p m, Entry fs o d p m → h (Used fs o (pathJoin (Used fs o p) m)) < h (Used fs o p)

theorem detLoop_terminates {fs : FS} {o : DetOpts} {height : List Char → Nat} (hh : FiniteDepth fs o height) :
    ∀ {n : Nat} {acc : List (List Char)} {args : List DetArg}, (∀ d p, InArgs args d p → height (Used fs o p) < n) →
    (∀ d p, InArgs args d p → p ≠ []) → ∃ res, detLoop fs o (n + 1) acc args = .ok (some res)
  | n, acc, [], _, _ => ⟨acc, rfl⟩
  | 0, acc, a :: args, h, _ => by
    have : detRound fs o (a :: args) = .ok ([], []) := detRound_empty fun d p hp => absurd (h d p hp) (Nat.not_lt_zero _)
    refine ⟨acc ++ [], ?_⟩
    rw [detLoop]
    · rw [this]; rfl
    · simp
  | n + 1, acc, a :: args, h, hne => by
    rw [detLoop]
    · cases hr : detRound fs o (a :: args) with
      | error e =>
        obtain ⟨⟨d, hd⟩, -⟩ := detRound_error hr
        exact absurd rfl (hne d [] hd)
      | ok r =>
        obtain ⟨acc', fur⟩ := r
        have hs := (detRound_spec hr).2
        simp only
        refine detLoop_terminates hh (n := n) ?_ ?_
        · intro d' p' hp'
          obtain ⟨d, p, m, hp, -, hE, rfl⟩ := (hs d' p').mp hp'
          have h1 := hh d p m hE
          have h2 := h d p hp
          omega
        · intro d' p' hp'
          obtain ⟨d, p, m, hp, -, hE, rfl⟩ := (hs d' p').mp hp'
          exact pathJoin_ne_nil (used_ne_nil (hne d p hp))
    · simp

/-- C44: if the scanned part of the tree has finite depth, detection ends, with a result for each list of non-empty
arguments. -/
theorem C44_terminates {fs : FS} {o : DetOpts} {height : List Char → Nat} (hh : FiniteDepth fs o height)
    (paths : List (List Char)) (hne : [] ∉ paths) : ∃ n res, detectPaths fs o n paths = .ok (some res) := by
  obtain ⟨b, hb⟩ : ∃ b, ∀ p ∈ paths, height (Used fs o p) < b := by
    clear hne
    induction paths with
    | nil => exact ⟨0, by simp⟩
    | cons p ps ih =>
      obtain ⟨b, hb⟩ := ih
      refine ⟨max b (height (Used fs o p) + 1), fun q hq => ?_⟩
      rcases List.mem_cons.mp hq with rfl | hq
      · omega
      · have := hb q hq; omega
  have hin : ∀ d p, InArgs [(paths, 0)] d p → p ∈ paths := by
    rintro d p ⟨a, ha, -, hp⟩
    rw [List.mem_singleton] at ha
    subst ha; exact hp
  obtain ⟨res, hr⟩ := detLoop_terminates hh (n := b) (acc := []) (args := [(paths, 0)])
    (fun d p hp => hb p (hin d p hp)) (fun d p hp h => hne (by rw [← h]; exact hin d p hp))
  exact ⟨b + 1, res, hr⟩

/-- C44: the number of rounds allowed does not matter once it is enough. -/
theorem C44_rounds {fs : FS} {o : DetOpts} {n m : Nat} {paths r r' : List (List Char)}
    (h : detectPaths fs o n paths = .ok (some r)) (h' : detectPaths fs o m paths = .ok (some r')) : r = r' := by
  have key : ∀ (n m : Nat) (acc r r' : List (List Char)) (args : List DetArg), detLoop fs o n acc args = .ok (some r) →
      detLoop fs o m acc args = .ok (some r') → r = r' := by
    intro n
    induction n with
    | zero =>
      intro m acc r r' args h h'
      cases args with
      | nil => cases h; cases m <;> (cases h'; rfl)
      | cons a args => cases h
    | succ n ih =>
      intro m acc r r' args h h'
      cases args with
      | nil => cases h; cases m <;> (cases h'; rfl)
      | cons a args =>
        cases m with
        | zero => cases h'
        | succ m =>
          rw [detLoop] at h h'
          · cases hr : detRound fs o (a :: args) with
            | error e => rw [hr] at h; cases h
            | ok x => rw [hr] at h h'; exact ih m _ _ _ _ h h'
          · simp
          · simp
  exact key n m [] r r' _ h h'

/-! ### The paths analysed by main -/

theorem mem_dedup {p : List Char} : ∀ {l : List (List Char)}, p ∈ dedup l ↔ p ∈ l
  | [] => Iff.rfl
  | q :: l => by
    rw [dedup]
    split
    · rename_i h
      rw [List.contains_iff_mem, mem_dedup] at h
      rw [mem_dedup, List.mem_cons]
      exact ⟨.inr, fun h' => h'.elim (fun e => e ▸ h) id⟩
    · rw [List.mem_cons, List.mem_cons, mem_dedup]

theorem nodup_dedup : ∀ {l : List (List Char)}, (dedup l).Nodup
  | [] => List.nodup_nil
  | q :: l => by
    rw [dedup]
    split
    · exact nodup_dedup
    · rename_i h
      rw [List.contains_iff_mem] at h
      exact List.nodup_cons.mpr ⟨h, nodup_dedup⟩

/-- C44: `main` analyses each such file once, in the order of the paths' characters. -/
theorem C44_main {fs : FS} {cfg : Config} {n : Nat} {paths res : List (List Char)}
    (h : mainPaths fs cfg n paths = .ok (some res)) :
    res.Nodup ∧ (res.Pairwise fun a b => leChars a b = true) ∧
    ∀ q, q ∈ res ↔ ∃ d p, Visited fs (mainOpts cfg) (paths.map (Used fs (mainOpts cfg))) d p ∧ Taken fs (mainOpts cfg) d p q := by
  unfold mainPaths at h
  have hpaths : (if cfg.makePathsAbsolute = true then paths.map (abspath fs.cwd) else paths) =
      paths.map (Used fs (mainOpts cfg)) := by
    unfold Used mainOpts
    cases cfg.makePathsAbsolute <;> simp
  rw [hpaths] at h
  cases hd : detectPaths fs (mainOpts cfg) n (paths.map (Used fs (mainOpts cfg))) with
  | error e => rw [hd] at h; cases h
  | ok o =>
    cases o with
    | none => rw [hd] at h; cases h
    | some ps =>
      rw [hd] at h
      simp only [Except.ok.injEq, Option.some.injEq] at h
      subst h
      refine ⟨(sort_perm _).nodup_iff.mpr nodup_dedup, sort_sorted ⟨leChars_total, leChars_trans⟩ _, fun q => ?_⟩
      rw [mem_sort, mem_dedup]
      exact C44_exact hd q

/-- Every looked-at path of `main` with absolute paths is absolute. -/
theorem visited_abs {fs : FS} {o : DetOpts} {paths : List (List Char)} {d : Nat} {p : List Char}
    (hc : startsWith ['/'] fs.cwd = true) (ha : o.cfg.makePathsAbsolute = true)
    (hp : ∀ p ∈ paths, startsWith ['/'] p = true) (h : Visited fs o paths d p) : startsWith ['/'] p = true := by
  cases h with
  | arg h => exact hp _ h
  | entry h he =>
    rename_i d q n
    have hs : startsWith ['/'] (Used fs o q) = true := by unfold Used; rw [if_pos ha]; exact abspath_starts hc
    obtain ⟨r, hr⟩ := startsWith_slash_iff.mp hs
    rw [hr]
    unfold pathJoin
    split
    · assumption
    · split <;> rfl

/-- C44/C43: with the parsable format no analysed path has a colon or newline. -/
theorem C44_parsable {fs : FS} {cfg : Config} {n : Nat} {paths res : List (List Char)}
    (h : mainPaths fs cfg n paths = .ok (some res)) (hf : cfg.format = .parsable) (hc : startsWith ['/'] fs.cwd = true) :
    ∀ q ∈ res, ':' ∉ q ∧ '\n' ∉ q := by
  intro q hq
  obtain ⟨d, p, hv, hi, -, hu, -⟩ := ((C44_main h).2.2 q).mp hq
  have hp : ':' ∉ p ∧ '\n' ∉ p := by
    constructor
    · intro hc; exact hi (.inl ⟨':', by simp [mainOpts, hf], hc⟩)
    · intro hc; exact hi (.inl ⟨'\n', by simp [mainOpts, hf], hc⟩)
  by_cases ha : cfg.makePathsAbsolute = true
  · have hs : startsWith ['/'] p = true := by
      refine visited_abs hc (o := mainOpts cfg) ha ?_ hv
      intro x hx
      obtain ⟨y, -, rfl⟩ := List.mem_map.mp hx
      unfold Used
      rw [if_pos (show (mainOpts cfg).cfg.makePathsAbsolute = true from ha)]
      exact abspath_starts hc
    have hq' : q = normpath p := by
      rw [hu]; unfold Used abspath
      rw [if_pos (show (mainOpts cfg).cfg.makePathsAbsolute = true from ha), if_pos hs]
    rw [hq']
    constructor
    · intro hm
      rcases mem_normpath hs hm with h | h
      · revert h; decide
      · exact hp.1 h
    · intro hm
      rcases mem_normpath hs hm with h | h
      · revert h; decide
      · exact hp.2 h
  · have : q = p := by rw [hu]; unfold Used mainOpts; simp [ha]
    rw [this]; exact hp

/-! ### C45 -/

/-- Names mean the same relative to the working directory and absolutely, and `listdir` gives names. -/
structure Coherent (fs : FS) : Prop where
  cwd : startsWith ['/'] fs.cwd = true
  lstat : ∀ p, p ≠ [] → fs.lstat p = fs.lstat (abspath fs.cwd p)
  listdir : ∀ p, p ≠ [] → fs.listdir p = fs.listdir (abspath fs.cwd p)
  lines : ∀ p, p ≠ [] → fs.lines p = fs.lines (abspath fs.cwd p)
  names : ∀ p ns n, fs.listdir p = some ns → n ∈ ns → PlainName n

/-- The configuration that makes paths absolute. -/
def absolute (cfg : Config) : Config := { cfg with makePathsAbsolute := true }

theorem lower_join {a n : List Char} : lower (pathJoin a n) = pathJoin (lower a) (lower n) := by
  have hl : ∀ c, lowerChar c = '/' ↔ c = '/' := by
    intro c
    constructor
    · intro h
      unfold lowerChar at h
      split at h
      · rename_i hr
        have h := congrArg Char.toNat h
        have hall : ∀ n : Nat, n < 91 → 65 ≤ n → (Char.ofNat (n + 32)).toNat ≠ '/'.toNat := by decide
        exact absurd h (hall c.toNat (by omega) hr.1)
      · exact h
    · rintro rfl; decide
  have hs : startsWith ['/'] (lower n) = startsWith ['/'] n := by
    cases n with
    | nil => rfl
    | cons c n =>
      simp only [lower, List.map_cons, startsWith, List.isPrefixOf, Bool.and_true]
      rw [Bool.eq_iff_iff, beq_iff_eq, beq_iff_eq]
      exact ⟨fun h => ((hl c).mp h.symm).symm, fun h => ((hl c).mpr h.symm).symm⟩
  have he : endsWith ['/'] (lower a) = endsWith ['/'] a := by
    rw [Bool.eq_iff_iff, endsWith_slash, endsWith_slash]
    constructor
    · rintro ⟨b, hb⟩
      have hne : a ≠ [] := by rintro rfl; simp [lower] at hb
      have hd := List.dropLast_concat_getLast hne
      refine ⟨a.dropLast, ?_⟩
      rw [← hd] at hb
      simp only [lower, List.map_append, List.map_cons, List.map_nil] at hb
      have := List.append_inj_right' hb rfl
      simp only [List.cons.injEq, and_true] at this
      rw [(hl _).mp this] at hd
      exact hd.symm
    · rintro ⟨b, rfl⟩
      exact ⟨lower b, by simp [lower, (hl '/').mpr rfl]⟩
  unfold pathJoin
  rw [hs, he]
  have hie : (lower a).isEmpty = a.isEmpty := by cases a <;> rfl
  rw [hie]
  split
  · rfl
  · split
    · simp [lower]
    · simp [lower, (hl '/').mpr rfl]

theorem lower_plain {n : List Char} (h : PlainName n) : '/' ∉ lower n ∧ lower n ≠ [] := by
  constructor
  · intro hm
    obtain ⟨c, hc, hl⟩ := List.mem_map.mp hm
    unfold lowerChar at hl
    split at hl
    · rename_i hr
      have hl := congrArg Char.toNat hl
      have hall : ∀ n : Nat, n < 91 → 65 ≤ n → (Char.ofNat (n + 32)).toNat ≠ '/'.toNat := by decide
      exact absurd hl (hall c.toNat (by omega) hr.1)
    · rw [hl] at hc; exact h.noSlash hc
  · intro he; exact h.ne (List.map_eq_nil_iff.mp he)

theorem baseName_join' {a n : List Char} (hn : '/' ∉ n) : baseName (pathJoin a n) = n := by
  have hs : startsWith ['/'] n = false := by
    cases hs : startsWith ['/'] n with
    | false => rfl
    | true =>
      obtain ⟨r, rfl⟩ := startsWith_slash_iff.mp hs
      exact absurd List.mem_cons_self hn
  unfold pathJoin
  rw [hs]
  simp only [Bool.false_eq_true, if_false]
  split
  · rename_i h
    rw [Bool.or_eq_true] at h
    rcases h with h | h
    · rw [List.isEmpty_iff.mp h]; exact baseName_eq (.inl rfl) hn
    · exact baseName_eq (.inr (endsWith_slash.mp h)) hn
  · have : a ++ '/' :: n = (a ++ ['/']) ++ n := by simp
    rw [this]
    exact baseName_eq (.inr ⟨a, rfl⟩) hn

/-- Whether a folder's entry looks like python depends on its name and contents only. -/
theorem probably_join {fs : FS} {a b n : List Char} (hn : PlainName n) (hl : fs.lines (pathJoin a n) = fs.lines (pathJoin b n)) :
    probablyPythonFile fs (pathJoin a n) = probablyPythonFile fs (pathJoin b n) := by
  have he : extOf (lower (pathJoin a n)) = extOf (lower (pathJoin b n)) := by
    unfold extOf
    simp only [lower_join, baseName_join' (lower_plain hn).1]
  unfold probablyPythonFile
  rw [he, hl]

/-- C45: without exclusion regexes and ignored characters, scanning without making paths absolute finds the same files as
with, provided hidden files are looked at or no argument starts with a dot.  Missing: arguments starting with a dot, where
it is false, see `C45_false`. -/
theorem C45_relative_partial {fs : FS} (hfs : Coherent fs) {cfg : Config} (hrel : cfg.makePathsAbsolute = false)
    (hreg : cfg.exclusionRegex = []) (hfmt : cfg.format = .default) {paths : List (List Char)} (hne : [] ∉ paths)
    (hdot : cfg.analyzeHidden = true ∨ ∀ p ∈ paths, ∀ r, p ≠ '.' :: r) {n m : Nat} {res resA : List (List Char)}
    (h : mainPaths fs cfg n paths = .ok (some res)) (hA : mainPaths fs (absolute cfg) m paths = .ok (some resA)) :
    ∀ q, q ∈ resA ↔ ∃ p ∈ res, abspath fs.cwd p = q := by
  obtain ⟨-, -, h⟩ := C44_main h
  obtain ⟨-, -, hA⟩ := C44_main hA
  have hc := hfs.cwd
  -- what both scans use
  have uR : ∀ p, Used fs (mainOpts cfg) p = p := fun p => by unfold Used mainOpts; simp [hrel]
  have uA : ∀ p, Used fs (mainOpts (absolute cfg)) p = abspath fs.cwd p := fun p => by unfold Used mainOpts absolute; simp
  have hmapR : paths.map (Used fs (mainOpts cfg)) = paths := by
    conv => rhs; rw [← List.map_id paths]
    exact List.map_congr_left fun p _ => uR p
  have hmapA : paths.map (Used fs (mainOpts (absolute cfg))) = paths.map (abspath fs.cwd) :=
    List.map_congr_left fun p _ => uA p
  rw [hmapR] at h
  rw [hmapA] at hA
  have igR : ∀ p, ¬ Ignored fs (mainOpts cfg) p := by
    rintro p (⟨c, hc, -⟩ | ⟨r, hr, -⟩)
    · simp [mainOpts, hfmt] at hc
    · simp [mainOpts, hreg] at hr
  have igA : ∀ p, ¬ Ignored fs (mainOpts (absolute cfg)) p := by
    rintro p (⟨c, hc, -⟩ | ⟨r, hr, -⟩)
    · simp [mainOpts, absolute, hfmt] at hc
    · simp [mainOpts, absolute, hreg] at hr
  have hidA : ∀ p, startsWith ['/'] p = true → ¬ HiddenPath (mainOpts (absolute cfg)) p := by
    rintro p hp ⟨-, -, r, rfl⟩; cases hp
  have folder : ∀ (l : Prop) p, p ≠ [] → (IsFolder fs l p ↔ IsFolder fs l (abspath fs.cwd p)) := by
    intro l p hp
    unfold IsFolder; rw [hfs.lstat p hp]
  have file : ∀ p, p ≠ [] → (IsFile fs p ↔ IsFile fs (abspath fs.cwd p)) := by
    intro p hp
    unfold IsFile; rw [hfs.lstat p hp]
  -- not hidden: kept by entries
  have ok : ∀ d p, Visited fs (mainOpts cfg) paths d p → p ≠ [] ∧ ¬ HiddenPath (mainOpts cfg) p ∧
      (cfg.analyzeHidden = true ∨ ∀ r, p ≠ '.' :: r) := by
    intro d p hv
    have key : p ≠ [] ∧ (cfg.analyzeHidden = true ∨ ∀ r, p ≠ '.' :: r) := by
      induction hv with
      | arg hp => exact ⟨fun h => hne (by rw [← h]; exact hp), hdot.imp id fun h => h _ hp⟩
      | entry hv he ih =>
        rename_i d p n
        rw [uR]
        refine ⟨pathJoin_ne_nil ih.1, ih.2.imp id fun hp r hr => ?_⟩
        obtain ⟨c, t, rfl⟩ : ∃ c t, p = c :: t := by
          cases p with
          | nil => exact absurd rfl ih.1
          | cons c t => exact ⟨c, t, rfl⟩
        obtain ⟨-, -, -, ns, hns, hn, -⟩ := he
        have hpl := hfs.names _ ns n hns hn
        unfold pathJoin at hr
        rw [hpl.head] at hr
        simp only [Bool.false_eq_true, if_false] at hr
        split at hr
        · simp only [List.cons_append, List.cons.injEq] at hr; exact hp t (by rw [hr.1])
        · simp only [List.cons_append, List.cons.injEq] at hr; exact hp t (by rw [hr.1])
    refine ⟨key.1, ?_, key.2⟩
    rintro ⟨h1, h2, r, h3⟩
    rcases key.2 with h | h
    · have h1 : cfg.analyzeHidden = false := h1
      rw [h] at h1; cases h1
    · exact h r h3
  have absOk : ∀ d p, Visited fs (mainOpts (absolute cfg)) (paths.map (abspath fs.cwd)) d p → startsWith ['/'] p = true := by
    intro d p hv
    refine visited_abs hc (o := mainOpts (absolute cfg)) rfl ?_ hv
    intro x hx
    obtain ⟨y, -, rfl⟩ := List.mem_map.mp hx
    exact abspath_starts hc
  have entryIff : ∀ d p p' k, p ≠ [] → ¬ HiddenPath (mainOpts cfg) p → startsWith ['/'] p' = true →
      abspath fs.cwd p = abspath fs.cwd p' →
      (Entry fs (mainOpts cfg) d p k ↔ Entry fs (mainOpts (absolute cfg)) d p' k) := by
    intro d p p' k hp hh hs he
    unfold Entry
    rw [uR, uA, ← he]
    simp only [igR, igA, hidA p' hs, hh, not_false_eq_true, true_and]
    rw [folder _ p hp, hfs.listdir p hp]
    exact Iff.rfl
  -- both scans look at the same places
  have fwd : ∀ d p, Visited fs (mainOpts cfg) paths d p →
      ∃ p', Visited fs (mainOpts (absolute cfg)) (paths.map (abspath fs.cwd)) d p' ∧ abspath fs.cwd p = abspath fs.cwd p' ∧
        (d = 0 ∨ ∃ a b k, p = pathJoin a k ∧ p' = pathJoin b k ∧ PlainName k) := by
    intro d p hv
    induction hv with
    | arg hp => exact ⟨_, .arg (List.mem_map.mpr ⟨_, hp, rfl⟩), (abspath_idem hc).symm, .inl rfl⟩
    | entry hv he ih =>
      rename_i d p k
      obtain ⟨p', hv', hpp, -⟩ := ih
      obtain ⟨o1, o2, o3⟩ := ok d p hv
      have he' := (entryIff d p p' k o1 o2 (absOk d p' hv') hpp).mp he
      refine ⟨_, .entry hv' he', ?_, .inr ⟨_, _, k, rfl, rfl, ?_⟩⟩
      · obtain ⟨-, -, -, ns, hns, hn, -⟩ := he
        have hpl := hfs.names _ ns k hns hn
        rw [uR, uA, abspath_join hc o1 hpl, abspath_join hc (p := abspath fs.cwd p') (normpath_ne_nil _) hpl, abspath_idem hc, hpp]
      · obtain ⟨-, -, -, ns, hns, hn, -⟩ := he
        exact hfs.names _ ns k hns hn
  have bwd : ∀ d p', Visited fs (mainOpts (absolute cfg)) (paths.map (abspath fs.cwd)) d p' →
      ∃ p, Visited fs (mainOpts cfg) paths d p ∧ abspath fs.cwd p = abspath fs.cwd p' ∧
        (d = 0 ∨ ∃ a b k, p = pathJoin a k ∧ p' = pathJoin b k ∧ PlainName k) := by
    intro d p' hv
    induction hv with
    | arg hp =>
      obtain ⟨p, hp', rfl⟩ := List.mem_map.mp hp
      exact ⟨p, .arg hp', (abspath_idem hc).symm, .inl rfl⟩
    | entry hv' he' ih =>
      rename_i d p' k
      obtain ⟨p, hv, hpp, -⟩ := ih
      obtain ⟨o1, o2, o3⟩ := ok d p hv
      have he := (entryIff d p p' k o1 o2 (absOk d p' hv') hpp).mpr he'
      obtain ⟨-, -, -, ns, hns, hn, -⟩ := id he
      have hpl := hfs.names _ ns k hns hn
      refine ⟨_, .entry hv he, ?_, .inr ⟨_, _, k, rfl, rfl, hpl⟩⟩
      rw [uR, uA, abspath_join hc o1 hpl, abspath_join hc (p := abspath fs.cwd p') (normpath_ne_nil _) hpl, abspath_idem hc, hpp]
  have python : ∀ d p p', p ≠ [] → p' ≠ [] → abspath fs.cwd p = abspath fs.cwd p' →
      (d = 0 ∨ ∃ a b k, p = pathJoin a k ∧ p' = pathJoin b k ∧ PlainName k) →
      ((d = 0 ∨ probablyPythonFile fs p = true) ↔ (d = 0 ∨ probablyPythonFile fs (abspath fs.cwd p') = true)) := by
    rintro d p p' hp hp' hpp (h0 | ⟨a, b, k, rfl, rfl, hk⟩)
    · simp [h0]
    · refine or_congr_right ?_
      by_cases hb : b = []
      · subst hb
        have e : abspath fs.cwd (pathJoin [] k) = pathJoin (normpath fs.cwd) k := by
          have : pathJoin [] k = k := by unfold pathJoin; rw [hk.head]; rfl
          rw [this]
          unfold abspath
          rw [if_neg (by rw [hk.head]; decide), normpath_join hc hk]
        rw [e]
        rw [probably_join hk (b := normpath fs.cwd)]
        rw [← e, ← hpp, ← hfs.lines _ hp]
      · rw [abspath_join hc hb hk]
        rw [probably_join hk (b := abspath fs.cwd b)]
        rw [← abspath_join hc hb hk, ← hpp, ← hfs.lines _ hp]
  have ne_of_abs : ∀ p', startsWith ['/'] p' = true → p' ≠ [] := by rintro p' h rfl; cases h
  intro q
  rw [hA]
  constructor
  · rintro ⟨d, p', hv', -, -, hq, hf, hpy⟩
    obtain ⟨p, hv, hpp, hk⟩ := bwd d p' hv'
    obtain ⟨o1, o2, -⟩ := ok d p hv
    rw [uA] at hq
    subst hq
    refine ⟨p, (h p).mpr ⟨d, p, hv, igR p, o2, (uR p).symm, ?_, ?_⟩, hpp⟩
    · rw [file p o1, hpp]; exact hf
    · exact (python d p p' o1 (ne_of_abs p' (absOk d p' hv')) hpp hk).mpr hpy
  · rintro ⟨p, hp, rfl⟩
    obtain ⟨d, p1, hv, -, -, hq, hf, hpy⟩ := (h p).mp hp
    rw [uR] at hq
    subst hq
    obtain ⟨p', hv', hpp, hk⟩ := fwd d p hv
    obtain ⟨o1, o2, -⟩ := ok d p hv
    refine ⟨d, p', hv', igA p', hidA p' (absOk d p' hv'), by rw [uA]; exact hpp, ?_, ?_⟩
    · exact (file p o1).mp hf
    · rw [hpp]; exact (python d p p' o1 (ne_of_abs p' (absOk d p' hv')) hpp hk).mp hpy

/-- A folder `/w`, the working directory, with one file `a.py`. -/
def smallFS : FS :=
  { cwd := "/w".toList
    lstat := fun p =>
      if abspath "/w".toList p = "/w".toList then some (.node .dir)
      else if abspath "/w".toList p = "/w/a.py".toList then some (.node .reg) else none
    listdir := fun p => if abspath "/w".toList p = "/w".toList then some ["a.py".toList] else none
    lines := fun _ => []
    search := fun _ _ => false }

theorem smallFS_coherent : Coherent smallFS where
  cwd := by decide
  lstat := by
    intro p _
    have hi : abspath "/w".toList (abspath "/w".toList p) = abspath "/w".toList p := abspath_idem (by decide)
    simp only [smallFS, hi]
  listdir := by
    intro p _
    have hi : abspath "/w".toList (abspath "/w".toList p) = abspath "/w".toList p := abspath_idem (by decide)
    simp only [smallFS, hi]
  lines := fun _ _ => rfl
  names := by
    intro p ns n h hn
    simp only [smallFS] at h
    split at h
    · injection h with h; subst h
      rw [List.mem_singleton] at hn
      subst hn
      exact ⟨by decide, by decide, by decide, by decide⟩
    · cases h

/-- C45 is false: `vermin --no-make-paths-absolute .` finds nothing in a folder where `vermin .` finds a file. -/
theorem C45_false : ∃ (fs : FS) (cfg : Config) (n : Nat), Coherent fs ∧ cfg.makePathsAbsolute = false ∧
    mainPaths fs cfg n [['.']] = .ok (some []) ∧
    mainPaths fs (absolute cfg) n [['.']] = .ok (some ["/w/a.py".toList]) :=
  ⟨smallFS, { Config.init 1 with makePathsAbsolute := false }, 3, smallFS_coherent, rfl, by decide +kernel, by decide +kernel⟩

/-- A case of `C45_relative_partial`: naming the folder otherwise finds the file. -/
example : mainPaths smallFS { Config.init 1 with makePathsAbsolute := false } 3 ["../w".toList] = .ok (some []) ∧
    mainPaths smallFS { Config.init 1 with makePathsAbsolute := false } 3 ["a.py".toList] = .ok (some ["a.py".toList]) ∧
    mainPaths smallFS { Config.init 1 with makePathsAbsolute := false, analyzeHidden := true } 3 [['.']] =
      .ok (some ["./a.py".toList]) := by decide +kernel

/-- A case of C44: with the default settings the file is found below the working directory, once. -/
example : mainPaths smallFS (Config.init 1) 3 [['.'], "/w".toList, "a.py".toList] = .ok (some ["/w/a.py".toList]) := by
  decide +kernel

/-- C44 is about folders of finite depth: a cycle of symbolic links is followed forever with --scan-symlink-folders. -/
theorem C44_cycle : ∃ (fs : FS) (o : DetOpts), o.scanSymlinkFolders = true ∧ ∀ n, detectPaths fs o n [['a']] = .ok none := by
  refine ⟨{ noFS with lstat := fun _ => some (.link (some .dir)), listdir := fun _ => some [['a']] },
    { hidden := false, ignoreChars := [], scanSymlinkFolders := true, cfg := { Config.init 1 with makePathsAbsolute := false } },
    rfl, ?_⟩
  have key : ∀ n p d, (p.head? = some 'a') → detLoop
      ({ noFS with lstat := fun _ => some (.link (some .dir)), listdir := fun _ => some [['a']] } : FS)
      { hidden := false, ignoreChars := [], scanSymlinkFolders := true, cfg := { Config.init 1 with makePathsAbsolute := false } }
      n [] [([p], d)] = .ok none := by
    intro n
    induction n with
    | zero => intro p d _; rfl
    | succ n ih =>
      intro p d hp
      obtain ⟨r, rfl⟩ : ∃ r, p = 'a' :: r := by
        cases p with
        | nil => cases hp
        | cons c r => simp only [List.head?_cons, Option.some.injEq] at hp; exact ⟨r, by rw [hp]⟩
      have hstep := ih (pathJoin ('a' :: r) ['a']) (d + 1) (by
        have hs : startsWith ['/'] ['a'] = false := by decide
        unfold pathJoin; rw [hs]; simp only [Bool.false_eq_true, if_false]; split <;> rfl)
      rw [detLoop]
      · have : detRound ({ noFS with lstat := fun _ => some (.link (some .dir)), listdir := fun _ => some [['a']] } : FS)
          { hidden := false, ignoreChars := [], scanSymlinkFolders := true, cfg := { Config.init 1 with makePathsAbsolute := false } }
          [(['a' :: r], d)] = .ok ([], [([pathJoin ('a' :: r) ['a']], d + 1)]) := by
          cases d <;> rfl
        rw [this]
        exact hstep
      · simp
  intro n
  exact key n ['a'] 0 rfl

/-! ### C18 for path detection -/

theorem detCollect_map (fs : FS) (o : DetOpts) : ∀ args : List DetArg,
    detCollect (args.map (detectIncremental fs o)) = detRound fs o args
  | [] => rfl
  | a :: as => by
    rw [List.map_cons, detRound]
    cases detectIncremental fs o a with
    | error e => rfl
    | ok x =>
      simp only [detCollect, detCollect_map fs o as]

/-- A schedule for `k` items: every worker finishes its item once, and all results are consumed. -/
structure FullSchedule {α : Type} (xs : List α) (es : List IEvent) : Prop where
  once : (doneOf es).Nodup
  items : ∀ i ∈ doneOf es, i < xs.length
  all : (IMap.run xs IMap.init es).consumed.length = xs.length

/-- Round by round: with `m` rounds left, the paths found and left are `acc'` and `args'`. -/
inductive DetRun (fs : FS) (o : DetOpts) : Nat → List (List Char) → List DetArg → Nat → List (List Char) → List DetArg → Prop
  | refl {n : Nat} {acc : List (List Char)} {args : List DetArg} : DetRun fs o n acc args n acc args
  | step {n m : Nat} {acc a acc' : List (List Char)} {args f args' : List DetArg} (h : detRound fs o args = .ok (a, f))
      (hr : DetRun fs o n (acc ++ a) f m acc' args') : DetRun fs o (n + 1) acc args m acc' args'

/-- C18: path detection gives the same with several processes as with one, whatever the order in which the workers finish. -/
theorem C18_detection {fs : FS} {o : DetOpts} {sched : Nat → List IEvent} :
    ∀ (n : Nat) (acc : List (List Char)) (args : List DetArg),
      (∀ k acc' args', DetRun fs o n acc args (k + 1) acc' args' →
        FullSchedule (args'.map (detectIncremental fs o)) (sched k)) →
      detLoopPar fs o sched n acc args = detLoop fs o n acc args
  | n, acc, [], _ => by rw [detLoopPar, detLoop]
  | 0, acc, a :: as, _ => by rw [detLoopPar, detLoop]
  | n + 1, acc, a :: as, h => by
    rw [detLoopPar, detLoop]
    · have hs : FullSchedule ((a :: as).map (detectIncremental fs o)) (sched n) := h n acc _ .refl
      rw [(C18_delivered_prefix _ hs.once hs.items).eq_of_length hs.all, detCollect_map]
      cases hr : detRound fs o (a :: as) with
      | error e => rfl
      | ok x =>
        obtain ⟨a', f⟩ := x
        exact C18_detection n _ _ fun k acc' args' hrun => h k acc' args' (.step hr hrun)
    · simp
    · simp

/-- A schedule for three items that finish in reverse order. -/
example : FullSchedule [1, 2, 3] [.done 2, .next, .done 1, .done 0, .next, .next, .next] :=
  ⟨by decide, by decide, by decide⟩

end Vermin.Props
