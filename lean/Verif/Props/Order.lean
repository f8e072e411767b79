import Verif.Props.Program
import Verif.Props.Arguments
import Verif.Props.Detection
/-
C86: the order in which paths are named, and how often, does not matter.  C45 exactly.
-/
namespace Vermin.Props
open Vermin Vermin.Py Vermin.Spec

/-! ### Paths -/

/-- What the paths of one tuple lead to. -/
theorem detPaths_mem {fs : FS} {o : DetOpts} {d : Nat} : ∀ {ps acc : List (List Char)} {fur : List DetArg},
    detPaths fs o d ps = .ok (acc, fur) → (∀ p ∈ ps, ∃ s, detStep fs o d p = .ok s) ∧
      (∀ q, q ∈ acc ↔ ∃ p ∈ ps, detStep fs o d p = .ok (.accept q)) ∧
      ∀ a, a ∈ fur ↔ ∃ p ∈ ps, detStep fs o d p = .ok (.further a.1) ∧ a.2 = d + 1
  | [], acc, fur, h => by
    cases h
    simp
  | p :: ps, acc, fur, h => by
    unfold detPaths at h
    cases hs : detStep fs o d p with
    | error e => rw [hs] at h; cases h
    | ok s =>
      rw [hs] at h
      dsimp only at h
      cases hr : detPaths fs o d ps with
      | error e => rw [hr] at h; cases h
      | ok x =>
        obtain ⟨acc', fur'⟩ := x
        obtain ⟨h1, h2, h3⟩ := detPaths_mem hr
        rw [hr] at h
        dsimp only at h
        refine ⟨fun q hq => ?_, fun q => ?_, fun a => ?_⟩
        · rcases List.mem_cons.mp hq with rfl | hq
          · exact ⟨s, hs⟩
          · exact h1 q hq
        · cases s <;> (cases h; simp [hs, h2, eq_comm])
        · cases s <;> cases h
          · simp [hs, h3]
          · simp [hs, h3]
          · obtain ⟨qs, e⟩ := a
            simp [hs, h3, eq_comm]

theorem detRound_mem {fs : FS} {o : DetOpts} : ∀ {args : List DetArg} {acc : List (List Char)} {fur : List DetArg},
    detRound fs o args = .ok (acc, fur) → (∀ d p, InArgs args d p → ∃ s, detStep fs o d p = .ok s) ∧
      (∀ q, q ∈ acc ↔ ∃ d p, InArgs args d p ∧ detStep fs o d p = .ok (.accept q)) ∧
      ∀ a, a ∈ fur ↔ ∃ d p, InArgs args d p ∧ detStep fs o d p = .ok (.further a.1) ∧ a.2 = d + 1
  | [], acc, fur, h => by
    cases h
    simp [InArgs]
  | b :: bs, acc, fur, h => by
    unfold detRound detectIncremental at h
    cases hs : detPaths fs o b.2 b.1 with
    | error e => rw [hs] at h; cases h
    | ok x =>
      obtain ⟨a1, f1⟩ := x
      rw [hs] at h
      dsimp only at h
      cases hr : detRound fs o bs with
      | error e => rw [hr] at h; cases h
      | ok y =>
        obtain ⟨a2, f2⟩ := y
        rw [hr] at h
        cases h
        obtain ⟨h1, h2, h3⟩ := detPaths_mem hs
        obtain ⟨k1, k2, k3⟩ := detRound_mem hr
        have key : ∀ {d p}, InArgs (b :: bs) d p ↔ (b.2 = d ∧ p ∈ b.1) ∨ InArgs bs d p := by
          intro d p
          simp [InArgs]
        refine ⟨fun d p hp => ?_, fun q => ?_, fun a => ?_⟩
        · rcases key.mp hp with ⟨rfl, hq⟩ | hp
          · exact h1 p hq
          · exact k1 d p hp
        · rw [List.mem_append, h2, k2]
          constructor
          · rintro (⟨p, hp, he⟩ | ⟨d, p, hp, he⟩)
            · exact ⟨b.2, p, key.mpr (.inl ⟨rfl, hp⟩), he⟩
            · exact ⟨d, p, key.mpr (.inr hp), he⟩
          · rintro ⟨d, p, hp, he⟩
            rcases key.mp hp with ⟨rfl, hq⟩ | hp
            · exact .inl ⟨p, hq, he⟩
            · exact .inr ⟨d, p, hp, he⟩
        · rw [List.mem_append, h3, k3]
          constructor
          · rintro (⟨p, hp, he⟩ | ⟨d, p, hp, he⟩)
            · exact ⟨b.2, p, key.mpr (.inl ⟨rfl, hp⟩), he⟩
            · exact ⟨d, p, key.mpr (.inr hp), he⟩
          · rintro ⟨d, p, hp, he⟩
            rcases key.mp hp with ⟨rfl, hq⟩ | hp
            · exact .inl ⟨p, hq, he⟩
            · exact .inr ⟨d, p, hp, he⟩

theorem detStep_error {fs : FS} {o : DetOpts} {d : Nat} {p : List Char} {e : Err} (h : detStep fs o d p = .error e) : e = .indexError := by
  unfold detStep at h
  repeat' split at h
  all_goals first
    | (cases h; done)
    | (cases h; rfl)
    | (dsimp only at h; repeat' split at h
       all_goals first
         | (cases h; done)
         | (cases h; rfl))

theorem detPaths_fails {fs : FS} {o : DetOpts} {d : Nat} : ∀ {ps : List (List Char)} {e : Err}, detPaths fs o d ps = .error e →
    e = .indexError ∧ ∃ p ∈ ps, ∃ e, detStep fs o d p = .error e
  | [], e, h => nomatch h
  | p :: ps, e, h => by
    unfold detPaths at h
    cases hs : detStep fs o d p with
    | error e' =>
      rw [hs] at h
      cases h
      exact ⟨detStep_error hs, p, List.mem_cons_self, _, hs⟩
    | ok s =>
      rw [hs] at h
      dsimp only at h
      cases hr : detPaths fs o d ps with
      | error e' =>
        rw [hr] at h
        cases h
        obtain ⟨h1, q, hq, h2⟩ := detPaths_fails hr
        exact ⟨h1, q, List.mem_cons_of_mem _ hq, h2⟩
      | ok x => rw [hr] at h; cases s <;> cases h

theorem detRound_fails {fs : FS} {o : DetOpts} : ∀ {args : List DetArg} {e : Err}, detRound fs o args = .error e →
    e = .indexError ∧ ∃ d p, InArgs args d p ∧ ∃ e, detStep fs o d p = .error e
  | [], e, h => nomatch h
  | b :: bs, e, h => by
    unfold detRound detectIncremental at h
    cases hs : detPaths fs o b.2 b.1 with
    | error e' =>
      rw [hs] at h
      cases h
      obtain ⟨h1, p, hp, h2⟩ := detPaths_fails hs
      exact ⟨h1, b.2, p, ⟨b, List.mem_cons_self, rfl, hp⟩, h2⟩
    | ok x =>
      obtain ⟨a1, f1⟩ := x
      rw [hs] at h
      dsimp only at h
      cases hr : detRound fs o bs with
      | error e' =>
        rw [hr] at h
        cases h
        obtain ⟨h1, d, p, ⟨a, ha, h3⟩, h2⟩ := detRound_fails hr
        exact ⟨h1, d, p, ⟨a, List.mem_cons_of_mem _ ha, h3⟩, h2⟩
      | ok y => rw [hr] at h; cases h

/-- Two detections that end alike: with the same exception, both unfinished, or with the same files. -/
def EndAlike : Except Err (Option (List (List Char))) → Except Err (Option (List (List Char))) → Prop
  | .ok (some l), .ok (some l') => ∀ q, q ∈ l ↔ q ∈ l'
  | .ok none, .ok none => True
  | .error e, .error e' => e = e'
  | _, _ => False

theorem detLoop_order {fs : FS} {o : DetOpts} : ∀ {n : Nat} {acc acc' : List (List Char)} {args args' : List DetArg},
    (∀ q, q ∈ acc ↔ q ∈ acc') → (args = [] ↔ args' = []) → (∀ d p, InArgs args d p ↔ InArgs args' d p) →
    EndAlike (detLoop fs o n acc args) (detLoop fs o n acc' args')
  | n, acc, acc', [], args', ha, he, hi => by
    obtain rfl := he.mp rfl
    cases n <;> exact ha
  | 0, acc, acc', a :: as, args', ha, he, hi => by
    cases args' with
    | nil => exact absurd (he.mpr rfl) (by simp)
    | cons b bs => trivial
  | n + 1, acc, acc', a :: as, args', ha, he, hi => by
    cases args' with
    | nil => exact absurd (he.mpr rfl) (by simp)
    | cons b bs =>
      rw [detLoop, detLoop]
      · cases hr : detRound fs o (a :: as) with
        | error e =>
          obtain ⟨rfl, d, p, hp, e, hs⟩ := detRound_fails hr
          cases hr' : detRound fs o (b :: bs) with
          | error e' => exact (detRound_fails hr').1.symm
          | ok x =>
            obtain ⟨s, h⟩ := (detRound_mem hr').1 d p ((hi d p).mp hp)
            rw [hs] at h
            cases h
        | ok x =>
          obtain ⟨a1, f1⟩ := x
          obtain ⟨h1, h2, h3⟩ := detRound_mem hr
          cases hr' : detRound fs o (b :: bs) with
          | error e =>
            obtain ⟨-, d, p, hp, e, hs⟩ := detRound_fails hr'
            obtain ⟨s, h⟩ := h1 d p ((hi d p).mpr hp)
            rw [hs] at h
            cases h
          | ok y =>
            obtain ⟨a2, f2⟩ := y
            obtain ⟨k1, k2, k3⟩ := detRound_mem hr'
            have hf : ∀ x, x ∈ f1 ↔ x ∈ f2 := fun x => by
              rw [h3, k3]
              exact ⟨fun ⟨d, p, hp, h⟩ => ⟨d, p, (hi d p).mp hp, h⟩, fun ⟨d, p, hp, h⟩ => ⟨d, p, (hi d p).mpr hp, h⟩⟩
            refine detLoop_order (fun q => ?_) ?_ fun d p => ?_
            · rw [List.mem_append, List.mem_append, ha, h2, k2]
              exact or_congr Iff.rfl
                ⟨fun ⟨d, p, hp, h⟩ => ⟨d, p, (hi d p).mp hp, h⟩, fun ⟨d, p, hp, h⟩ => ⟨d, p, (hi d p).mpr hp, h⟩⟩
            · constructor
              · rintro rfl
                exact List.eq_nil_iff_forall_not_mem.mpr fun x hx => nomatch (hf x).mpr hx
              · rintro rfl
                exact List.eq_nil_iff_forall_not_mem.mpr fun x hx => nomatch (hf x).mp hx
            · exact ⟨fun ⟨x, hx, h⟩ => ⟨x, (hf x).mp hx, h⟩, fun ⟨x, hx, h⟩ => ⟨x, (hf x).mpr hx, h⟩⟩
      all_goals simp

theorem leChars_antisymm : ∀ {a b : List Char}, leChars a b = true → leChars b a = true → a = b
  | [], [], _, _ => rfl
  | [], _ :: _, _, h => by cases h
  | _ :: _, [], h, _ => by cases h
  | a :: as, b :: bs, h, h' => by
    unfold leChars at h h'
    by_cases h1 : a.toNat < b.toNat
    · rw [if_neg (by omega), if_pos h1] at h'
      cases h'
    · by_cases h2 : b.toNat < a.toNat
      · rw [if_neg h1, if_pos h2] at h
        cases h
      · rw [if_neg h1, if_neg h2] at h
        rw [if_neg h2, if_neg h1] at h'
        have hc : a = b := Char.ext (UInt32.toNat_inj.mp (by
          show a.toNat = b.toNat
          omega))
        rw [hc, leChars_antisymm h h']

/-- The sorted paths without duplicates depend on which paths there are only. -/
theorem sort_dedup {l l' : List (List Char)} (h : ∀ q, q ∈ l ↔ q ∈ l') : sort leChars (dedup l) = sort leChars (dedup l') := by
  refine List.Perm.eq_of_pairwise (le := fun a b => leChars a b = true) (fun a b _ _ h1 h2 => leChars_antisymm h1 h2)
    (sort_sorted ⟨leChars_total, leChars_trans⟩ _) (sort_sorted ⟨leChars_total, leChars_trans⟩ _) ?_
  refine (List.perm_ext_iff_of_nodup ((sort_perm _).nodup_iff.mpr nodup_dedup) ((sort_perm _).nodup_iff.mpr nodup_dedup)).mpr fun q => ?_
  rw [mem_sort, mem_sort, mem_dedup, mem_dedup]
  exact h q

/-- **C86 (detection).** The files that are analysed, and their order, depend on which paths are named only. -/
theorem C86_paths (fs : FS) (cfg : Config) (n : Nat) {paths paths' : List (List Char)} (h : ∀ p, p ∈ paths ↔ p ∈ paths') :
    mainPaths fs cfg n paths = mainPaths fs cfg n paths' := by
  have key : ∀ l l' : List (List Char), (∀ p, p ∈ l ↔ p ∈ l') →
      EndAlike (detectPaths fs (mainOpts cfg) n l) (detectPaths fs (mainOpts cfg) n l') := fun l l' h =>
    detLoop_order (fun _ => Iff.rfl) (by simp) fun d p => by simp [InArgs, h]
  have h' : ∀ p, p ∈ (if cfg.makePathsAbsolute then paths.map (abspath fs.cwd) else paths) ↔
      p ∈ (if cfg.makePathsAbsolute then paths'.map (abspath fs.cwd) else paths') := by
    intro p
    split
    · simp only [List.mem_map, h]
    · exact h p
  have h' := key _ _ h'
  unfold mainPaths
  revert h'
  cases detectPaths fs (mainOpts cfg) n (if cfg.makePathsAbsolute then paths.map (abspath fs.cwd) else paths) with
  | error e =>
    cases detectPaths fs (mainOpts cfg) n (if cfg.makePathsAbsolute then paths'.map (abspath fs.cwd) else paths') with
    | error e' => rintro rfl; rfl
    | ok x => exact False.elim
  | ok x =>
    cases x with
    | none =>
      cases detectPaths fs (mainOpts cfg) n (if cfg.makePathsAbsolute then paths'.map (abspath fs.cwd) else paths') with
      | error e' => exact False.elim
      | ok y =>
        cases y with
        | none => exact fun _ => rfl
        | some l' => exact False.elim
    | some l =>
      cases detectPaths fs (mainOpts cfg) n (if cfg.makePathsAbsolute then paths'.map (abspath fs.cwd) else paths') with
      | error e' => exact False.elim
      | ok y =>
        cases y with
        | none => exact False.elim
        | some l' =>
          intro hm
          show Except.ok (some _) = Except.ok (some _)
          rw [sort_dedup hm]

/-! ### Arguments -/

theorem classify_inert {w : String} (h : Inert w) : classify w = .other := by
  have hw := inert_width h
  cases hc : classify w <;> rw [hc] at hw <;> first | rfl | (exfalso; cases hw)

theorem argStep_next {env : ArgEnv} {w : String} {st : ArgState} (h : cmdWidth (classify w) ≤ 1) (a b : Option String) :
    argStep env w a st = argStep env w b st := by
  unfold argStep
  cases hc : classify w <;> rw [hc] at h <;> first | rfl | (exfalso; revert h; decide)

theorem argLoop_inert {env : ArgEnv} : ∀ {ps : List String} {st : ArgState}, (∀ w ∈ ps, Inert w) → argLoop env ps st = .ok st
  | [], st, _ => rfl
  | w :: ps, st, h => by
    unfold argLoop argStep
    rw [classify_inert (h w List.mem_cons_self)]
    exact argLoop_inert fun x hx => h x (List.mem_cons_of_mem _ hx)

theorem argLoop_opts {env : ArgEnv} {ps : List String} (hp : ∀ w ∈ ps, Inert w) : ∀ {opts : List Opt} {st : ArgState}, (∀ o ∈ opts, o.Ok) →
    argLoop env (opts.flatMap Opt.words ++ ps) st = argLoop env (opts.flatMap Opt.words) st
  | [], st, _ => argLoop_inert hp
  | .flag w :: opts, st, h => by
    have h1 := h (.flag w) (by simp)
    simp only [List.flatMap_cons, Opt.words, List.cons_append, List.nil_append]
    unfold argLoop
    rw [argStep_next (by rw [flag_width h1]; exact Nat.le_refl _) _ (opts.flatMap Opt.words).head?]
    cases argStep env w (opts.flatMap Opt.words).head? st with
    | error e => rfl
    | ok st' => exact argLoop_opts hp fun o ho => h o (List.mem_cons_of_mem _ ho)
  | .value w v :: opts, st, h => by
    obtain ⟨-, h2⟩ := h (.value w v) (by simp)
    simp only [List.flatMap_cons, Opt.words, List.cons_append, List.nil_append]
    unfold argLoop
    dsimp only [List.head?_cons]
    cases argStep env w (some v) st with
    | error e => rfl
    | ok st' =>
      dsimp only
      unfold argLoop argStep
      rw [classify_inert h2]
      exact argLoop_opts hp fun o ho => h o (List.mem_cons_of_mem _ ho)
  | .noConfig :: opts, st, h => by
    simp only [List.flatMap_cons, Opt.words, List.cons_append, List.nil_append]
    have hc : classify "--no-config-file" = .other := by decide +kernel
    unfold argLoop argStep
    rw [hc]
    exact argLoop_opts hp fun o ho => h o (List.mem_cons_of_mem _ ho)

/-- A word that does not begin with a dash. -/
def Dashless (w : String) : Prop := w.toList.head? ≠ some '-'

theorem preArgs_skip {env : ArgEnv} {w : String} (h : Dashless w) (rest : List String) (p : PreArgs) : preArgs env (w :: rest) p = preArgs env rest p := by
  have key : ∀ x : String, x.toList.head? = some '-' → w ≠ x := fun x hx hw => h (hw ▸ hx)
  have h1 : w ∉ ["--help", "-h"] := by simp [key "--help" (by decide), key "-h" (by decide)]
  have h2 : w ∉ ["--version", "-V"] := by simp [key "--version" (by decide), key "-V" (by decide)]
  have h3 : w ∉ ["--config-file", "-c"] := by simp [key "--config-file" (by decide), key "-c" (by decide)]
  have h4 := key "--no-config-file" (by decide)
  conv => lhs; unfold preArgs
  rw [if_neg h1, if_neg h2, if_neg h4]
  exact if_neg h3

theorem preArgs_dashless {env : ArgEnv} : ∀ {ps : List String} {p : PreArgs}, (∀ w ∈ ps, Dashless w) → preArgs env ps p = .ok p
  | [], p, _ => rfl
  | w :: ps, p, h => by
    rw [preArgs_skip (h w List.mem_cons_self)]
    exact preArgs_dashless fun x hx => h x (List.mem_cons_of_mem _ hx)

/-- The words before the paths decide what is parsed first, if a word that needs a value has one. -/
theorem preArgs_append {env : ArgEnv} {ps : List String} (hp : ∀ w ∈ ps, Dashless w) : ∀ {ws : List String} {p : PreArgs},
    (∀ w, ws.getLast? = some w → w ∉ ["--config-file", "-c"]) → preArgs env (ws ++ ps) p = preArgs env ws p
  | [], p, _ => preArgs_dashless hp
  | w :: ws, p, h => by
    rw [List.cons_append]
    unfold preArgs
    have ih : ∀ q, preArgs env (ws ++ ps) q = preArgs env ws q := fun q => preArgs_append hp fun x hx => h x (by
      rw [List.getLast?_cons, hx]; rfl)
    by_cases hc : w ∈ ["--config-file", "-c"]
    · cases ws with
      | nil => exact absurd hc (h w rfl)
      | cons v vs =>
        dsimp only [List.cons_append, List.head?_cons]
        rw [← List.cons_append]
        simp only [ih]
    · simp only [if_neg hc, ih]

theorem opts_last : ∀ {opts : List Opt}, (∀ o ∈ opts, o.Ok) → ∀ w, (opts.flatMap Opt.words).getLast? = some w → w ∉ ["--config-file", "-c"]
  | [], _, w, h => nomatch h
  | [o], ho, w, h => by
    have ho := ho o List.mem_cons_self
    have hv : ∀ x, x ∈ ["--config-file", "-c"] → IsValueOpt x := by
      intro x hx
      simp only [List.mem_cons, List.not_mem_nil, or_false] at hx
      rcases hx with rfl | rfl <;> simp [IsValueOpt, valueNames]
    intro hc
    cases o with
    | flag v =>
      have h : v = w := by simpa [Opt.words] using h
      subst h
      have h1 := flag_width ho
      rw [value_width (hv _ hc)] at h1
      cases h1
    | value v x =>
      have h : x = w := by simpa [Opt.words] using h
      subst h
      exact ho.2.2 (hv _ hc)
    | noConfig =>
      have h : "--no-config-file" = w := by simpa [Opt.words] using h
      subst h
      revert hc
      decide
  | o :: o' :: opts, ho, w, h => by
    refine opts_last (opts := o' :: opts) (fun x hx => ho x (List.mem_cons_of_mem _ hx)) w ?_
    rw [List.flatMap_cons, List.getLast?_append] at h
    cases hl : ((o' :: opts).flatMap Opt.words).getLast? with
    | some x => rw [hl] at h; exact h
    | none =>
      exfalso
      rw [List.getLast?_eq_none_iff] at hl
      cases o' <;> simp [Opt.words] at hl

/-- Two results of parsing that differ in the order and the number of the paths only. -/
def ParsedAlike : Except ArgStop Parsed → Except ArgStop Parsed → Prop
  | .ok p, .ok p' => p'.cfg = p.cfg ∧ p'.versions = p.versions ∧ ∀ x, x ∈ p.paths ↔ x ∈ p'.paths
  | .error e, .error e' => e' = e
  | _, _ => False

theorem argFinish_order {ws ps ps' : List String} (h : ∀ w, w ∈ ps ↔ w ∈ ps') {st : ArgState} (hl : st.pathPos ≤ ws.length) :
    ParsedAlike (argFinish (ws ++ ps) st) (argFinish (ws ++ ps') st) := by
  have key : ∀ x, x ∈ (ws ++ ps).drop st.pathPos ↔ x ∈ (ws ++ ps').drop st.pathPos := fun x => by
    rw [List.drop_append_of_le_length hl, List.drop_append_of_le_length hl, List.mem_append, List.mem_append, h]
  unfold argFinish
  dsimp only
  repeat' split
  all_goals first
    | rfl
    | exact ⟨rfl, rfl, key⟩

theorem C86_parse (env : ArgEnv) {opts : List Opt} (ho : ∀ o ∈ opts, o.Ok) {paths paths' : List String} (hp : ∀ w ∈ paths, Dashless w)
    (h : ∀ w, w ∈ paths ↔ w ∈ paths') (config : Config) :
    ParsedAlike (parseArgs env (opts.flatMap Opt.words ++ paths) config) (parseArgs env (opts.flatMap Opt.words ++ paths') config) := by
  have hp' : ∀ w ∈ paths', Dashless w := fun w hw => hp w ((h w).mpr hw)
  have hi : ∀ w ∈ paths, Inert w := fun w hw => C50_inert (hp w hw)
  have hi' : ∀ w ∈ paths', Inert w := fun w hw => C50_inert (hp' w hw)
  have hw := words_width ho
  have he : (opts.flatMap Opt.words ++ paths).isEmpty = (opts.flatMap Opt.words ++ paths').isEmpty := by
    rw [Bool.eq_iff_iff, List.isEmpty_iff, List.isEmpty_iff, List.append_eq_nil_iff, List.append_eq_nil_iff]
    refine and_congr Iff.rfl ?_
    rw [List.eq_nil_iff_forall_not_mem, List.eq_nil_iff_forall_not_mem]
    exact forall_congr' fun w => not_congr (h w)
  have fin : ∀ c0, ParsedAlike
      (match argLoop env (opts.flatMap Opt.words ++ paths) { cfg := c0, pathPos := 0, versions := false, fmt := none } with
        | .error e => .error e
        | .ok st => argFinish (opts.flatMap Opt.words ++ paths) st)
      (match argLoop env (opts.flatMap Opt.words ++ paths') { cfg := c0, pathPos := 0, versions := false, fmt := none } with
        | .error e => .error e
        | .ok st => argFinish (opts.flatMap Opt.words ++ paths') st) := by
    intro c0
    rw [argLoop_opts hi ho, argLoop_opts hi' ho]
    cases hl : argLoop env (opts.flatMap Opt.words) { cfg := c0, pathPos := 0, versions := false, fmt := none } with
    | error e => rfl
    | ok st =>
      refine argFinish_order h ?_
      have := argLoop_pathPos hl
      dsimp only at this
      omega
  unfold parseArgs
  rw [he]
  split
  · rfl
  · cases env.detected with
    | error e => rfl
    | ok detected =>
      dsimp only
      rw [preArgs_append hp (opts_last ho), preArgs_append hp' (opts_last ho)]
      cases preArgs env (opts.flatMap Opt.words) { noConfig := false, argConfig := none } with
      | error e => rfl
      | ok pre =>
        dsimp only
        split
        · rfl
        · split
          · exact fin config
          · split
            · rfl
            · exact fin _

/-- **C86.** For a command line of options followed by paths, the run depends on which paths are named only, neither on their order nor on how
often they are named. -/
theorem C86_order (w : World) {opts : List Opt} (ho : ∀ o ∈ opts, o.Ok) {paths paths' : List String} (hp : ∀ x ∈ paths, Dashless x)
    (h : ∀ x, x ∈ paths ↔ x ∈ paths') :
    program w (opts.flatMap Opt.words ++ paths) = program w (opts.flatMap Opt.words ++ paths') := by
  have hs := C86_parse w.args ho hp h (Config.init w.args.cpus)
  unfold program
  revert hs
  cases parseArgs w.args (opts.flatMap Opt.words ++ paths) (Config.init w.args.cpus) with
  | error e =>
    cases parseArgs w.args (opts.flatMap Opt.words ++ paths') (Config.init w.args.cpus) with
    | error e' => rintro rfl; rfl
    | ok p => exact False.elim
  | ok p =>
    cases parseArgs w.args (opts.flatMap Opt.words ++ paths') (Config.init w.args.cpus) with
    | error e' => exact False.elim
    | ok p' =>
      rintro ⟨h1, h2, h3⟩
      dsimp only
      rw [h1, h2, C86_paths w.fs p.cfg w.rounds (paths := p.paths.map String.toList) (paths' := p'.paths.map String.toList)]
      intro q
      simp only [List.mem_map, h3]

/-! ### C45 exactly: arguments that start with a dot -/

/-- If all paths lead to an end, so do some of them. -/
theorem detLoop_fewer {fs : FS} {o : DetOpts} : ∀ {n : Nat} {acc acc' : List (List Char)} {args args' : List DetArg} {res : List (List Char)},
    (args = [] → args' = []) → (∀ d p, InArgs args' d p → InArgs args d p) → detLoop fs o n acc args = .ok (some res) →
    ∃ res', detLoop fs o n acc' args' = .ok (some res')
  | n, acc, acc', args, [], res, he, hi, h => by cases n <;> exact ⟨_, rfl⟩
  | 0, acc, acc', [], b :: bs, res, he, hi, h => nomatch he rfl
  | 0, acc, acc', a :: as, b :: bs, res, he, hi, h => nomatch h
  | n + 1, acc, acc', [], b :: bs, res, he, hi, h => nomatch he rfl
  | n + 1, acc, acc', a :: as, b :: bs, res, he, hi, h => by
    rw [detLoop] at h
    · rw [detLoop]
      · cases hr : detRound fs o (a :: as) with
        | error e => rw [hr] at h; cases h
        | ok x =>
          obtain ⟨a1, f1⟩ := x
          rw [hr] at h
          obtain ⟨h1, h2, h3⟩ := detRound_mem hr
          cases hr' : detRound fs o (b :: bs) with
          | error e =>
            obtain ⟨-, d, p, hp, e, hs⟩ := detRound_fails hr'
            obtain ⟨s, h⟩ := h1 d p (hi d p hp)
            rw [hs] at h
            cases h
          | ok y =>
            obtain ⟨a2, f2⟩ := y
            obtain ⟨k1, k2, k3⟩ := detRound_mem hr'
            have hf : ∀ x, x ∈ f2 → x ∈ f1 := fun x hx => by
              rw [k3] at hx
              rw [h3]
              obtain ⟨d, p, hp, h⟩ := hx
              exact ⟨d, p, hi d p hp, h⟩
            refine detLoop_fewer (fun hz => ?_) (fun d p => ?_) h
            · subst hz
              exact List.eq_nil_iff_forall_not_mem.mpr fun x hx => nomatch hf x hx
            · exact fun ⟨x, hx, h⟩ => ⟨x, hf x hx, h⟩
      all_goals simp
    all_goals simp

/-- The arguments that do not start with a dot. -/
def dotless (paths : List (List Char)) : List (List Char) := paths.filter fun p => decide (p.head? ≠ some '.')

/-- **C45 (dots).** If paths are not made absolute and hidden files are not looked at, arguments that start with a dot lead to nothing, be it `.`,
`..` or `./x`. -/
theorem C45_dots {fs : FS} (hcwd : ¬ IsFile fs ['.']) (hnames : ∀ p ns n, fs.listdir p = some ns → n ∈ ns → PlainName n) {cfg : Config}
    (hrel : cfg.makePathsAbsolute = false) (hhid : cfg.analyzeHidden = false) {paths : List (List Char)} {n : Nat} {res : List (List Char)}
    (h : mainPaths fs cfg n paths = .ok (some res)) : mainPaths fs cfg n (dotless paths) = .ok (some res) := by
  have uR : ∀ p, Used fs (mainOpts cfg) p = p := fun p => by unfold Used mainOpts; simp [hrel]
  have hmap : ∀ l : List (List Char), l.map (Used fs (mainOpts cfg)) = l := fun l => by
    conv => rhs; rw [← List.map_id l]
    exact List.map_congr_left fun p _ => uR p
  obtain ⟨res', h'⟩ : ∃ res', mainPaths fs cfg n (dotless paths) = .ok (some res') := by
    unfold mainPaths at h ⊢
    rw [if_neg (by simp [hrel])] at h ⊢
    cases hd : detectPaths fs (mainOpts cfg) n paths with
    | error e => rw [hd] at h; cases h
    | ok o =>
      rw [hd] at h
      cases o with
      | none => cases h
      | some l =>
        obtain ⟨l', hl⟩ := detLoop_fewer (acc' := []) (args' := [(dotless paths, 0)]) (by simp)
          (fun d p => by simp only [InArgs, List.mem_singleton, exists_eq_left, dotless, List.mem_filter]; exact fun h => ⟨h.1, h.2.1⟩) hd
        have hl : detectPaths fs (mainOpts cfg) n (dotless paths) = .ok (some l') := hl
        rw [hl]
        exact ⟨_, rfl⟩
  have hid : ∀ p : List Char, p.head? = some '.' → p ≠ ['.'] → HiddenPath (mainOpts cfg) p := by
    intro p h1 h2
    cases p with
    | nil => cases h1
    | cons c p =>
      cases h1
      exact ⟨hhid, h2, p, rfl⟩
  have down : ∀ d p, Visited fs (mainOpts cfg) paths d p →
      Visited fs (mainOpts cfg) (dotless paths) d p ∨ p.head? = some '.' ∧ (d = 0 ∨ p ≠ ['.']) := by
    intro d p hv
    induction hv with
    | arg hp =>
      rename_i p
      by_cases hd : p.head? = some '.'
      · exact .inr ⟨hd, .inl rfl⟩
      · exact .inl (.arg (List.mem_filter.mpr ⟨hp, by simpa using hd⟩))
    | entry hv he ih =>
      rename_i d p k
      rcases ih with ih | ⟨h1, h2⟩
      · exact .inl (.entry ih he)
      · by_cases hp : p = ['.']
        · subst hp
          rw [uR]
          obtain ⟨-, -, -, ns, hl, hk, -⟩ := he
          have hpn := hnames _ _ _ hl hk
          have hs : startsWith ['/'] k = false := by
            cases k with
            | nil => rfl
            | cons c k =>
              cases hc : startsWith ['/'] (c :: k) with
              | false => rfl
              | true =>
                obtain ⟨r, hr⟩ := startsWith_slash_iff.mp hc
                exact absurd (show '/' ∈ c :: k by rw [hr]; exact List.mem_cons_self) hpn.noSlash
          have hj : pathJoin ['.'] k = '.' :: '/' :: k := by
            unfold pathJoin
            rw [hs]
            rfl
          rw [hj]
          exact .inr ⟨rfl, .inr (by simp)⟩
        · exact absurd (hid p h1 hp) he.2.1
  have up : ∀ d p, Visited fs (mainOpts cfg) (dotless paths) d p → Visited fs (mainOpts cfg) paths d p := by
    intro d p hv
    induction hv with
    | arg hp => exact .arg (List.mem_filter.mp hp).1
    | entry hv he ih => exact .entry ih he
  obtain ⟨n1, s1, m1⟩ := C44_main h
  obtain ⟨n2, s2, m2⟩ := C44_main h'
  rw [h']
  refine congrArg (fun l => Except.ok (some l)) ?_
  refine List.Perm.eq_of_pairwise (le := fun a b => leChars a b = true) (fun a b _ _ h1 h2 => leChars_antisymm h1 h2) s2 s1 ?_
  refine (List.perm_ext_iff_of_nodup n2 n1).mpr fun q => ?_
  rw [m1, m2, hmap, hmap]
  constructor
  · exact fun ⟨d, p, hv, ht⟩ => ⟨d, p, up d p hv, ht⟩
  · rintro ⟨d, p, hv, ht⟩
    refine ⟨d, p, ?_, ht⟩
    rcases down d p hv with hv | ⟨h1, h2⟩
    · exact hv
    · exfalso
      by_cases hp : p = ['.']
      · subst hp
        obtain ⟨-, -, rfl, hf, -⟩ := ht
        rw [uR] at hf
        exact hcwd hf
      · exact ht.2.1 (hid p h1 hp)

/-- **C45, exactly.** Scanning without making paths absolute finds the files that scanning the arguments that do not start with a dot finds with
absolute paths, unless hidden files are looked at. -/
theorem C45_exact {fs : FS} (hfs : Coherent fs) (hcwd : ¬ IsFile fs ['.']) {cfg : Config} (hrel : cfg.makePathsAbsolute = false)
    (hreg : cfg.exclusionRegex = []) (hfmt : cfg.format = .default) {paths : List (List Char)} (hne : [] ∉ paths)
    {n m : Nat} {res resA : List (List Char)} (h : mainPaths fs cfg n paths = .ok (some res))
    (hA : mainPaths fs (absolute cfg) m (if cfg.analyzeHidden then paths else dotless paths) = .ok (some resA)) :
    ∀ q, q ∈ resA ↔ ∃ p ∈ res, abspath fs.cwd p = q := by
  by_cases hh : cfg.analyzeHidden = true
  · rw [if_pos hh] at hA
    exact C45_relative_partial hfs hrel hreg hfmt hne (.inl hh) h hA
  · rw [if_neg hh] at hA
    have hh : cfg.analyzeHidden = false := by simpa using hh
    refine C45_relative_partial hfs hrel hreg hfmt (fun hc => hne (List.mem_filter.mp hc).1) (.inr fun p hp r hr => ?_)
      (C45_dots hcwd hfs.names hrel hh h) hA
    subst hr
    have := (List.mem_filter.mp hp).2
    simp at this

/-- A case of `C45_exact`: `.` leads to nothing, `a.py` is found. -/
example : mainPaths smallFS { Config.init 1 with makePathsAbsolute := false } 3 [['.'], "./a.py".toList, "a.py".toList] =
      .ok (some ["a.py".toList]) ∧
    mainPaths smallFS (absolute { Config.init 1 with makePathsAbsolute := false }) 3 (dotless [['.'], "./a.py".toList, "a.py".toList]) =
      .ok (some ["/w/a.py".toList]) ∧ ¬ IsFile smallFS ['.'] := by
  refine ⟨by decide +kernel, by decide +kernel, ?_⟩
  unfold IsFile
  decide +kernel

/-- A case of C86: a run that names a file twice and another that does not exist, in another order. -/
theorem C86_witness : (∀ o ∈ [Opt.flag "-q", Opt.value "--exclude" "os"], o.Ok) ∧
    program exampleWorld ["-q", "--exclude", "os", "b", "a.py", "/a.py", "a.py"] =
      program exampleWorld ["-q", "--exclude", "os", "a.py", "/a.py", "b"] ∧
    ∃ files out, program exampleWorld ["-q", "--exclude", "os", "a.py", "/a.py", "b"] = .exit files out 0 := by
  have ho : ∀ o ∈ [Opt.flag "-q", Opt.value "--exclude" "os"], o.Ok := by
    intro o h
    simp only [List.mem_cons, List.not_mem_nil, or_false] at h
    rcases h with rfl | rfl
    · exact .inl ⟨.quiet, true, by decide⟩
    · exact ⟨by simp [IsValueOpt, valueNames], C50_inert (by decide)⟩
  refine ⟨ho, C86_order exampleWorld (paths := ["b", "a.py", "/a.py", "a.py"]) (paths' := ["a.py", "/a.py", "b"]) ho ?_ ?_, ?_⟩
  · intro x hx
    simp only [List.mem_cons, List.not_mem_nil, or_false] at hx
    rcases hx with rfl | rfl | rfl | rfl <;> (unfold Dashless; decide)
  · intro x
    simp only [List.mem_cons, List.not_mem_nil, or_false]
    grind
  · have key : (match program exampleWorld ["-q", "--exclude", "os", "a.py", "/a.py", "b"] with | .exit _ _ 0 => true | _ => false) = true := by
      decide +kernel
    split at key
    · exact ⟨_, _, by assumption⟩
    · cases key

end Vermin.Props
