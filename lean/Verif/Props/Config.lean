import Verif.Model.ConfigFile
import Verif.Lemmas.Sort
import Verif.Lemmas.Dict
import Verif.Lemmas.Version
import Verif.Lemmas.Text
import Verif.Lemmas.Int
/-
C10 (targets), C47 (config file search), C48 (override), C54 (exclusions).
-/
namespace Vermin.Props
open Vermin Vermin.Py

/-! ### C10 -/

/-- Calls that change the targets. -/
inductive TargetOp where
  | add (a : Config.TargetArg) (exact : Bool)
  | clear

def TargetOp.run (c : Config) : TargetOp → Config
  | .add a e => (c.addTarget a e).1
  | .clear => c.clearTargets

def runTargets (c : Config) (ops : List TargetOp) : Config := ops.foldl TargetOp.run c

/-- The target a call asks for, if it is well-formed. -/
def TargetOp.asks : TargetOp → Option Target
  | .add (.text s) _ => parseTarget s
  | .add (.ver v) e => some (e, v)
  | .add (.pair e v) _ => some (e, v)
  | .add .bad _ => none
  | .clear => none

/-- The calls after the last `clear`. -/
def sinceClear (ops : List TargetOp) : List TargetOp :=
  (ops.reverse.takeWhile fun
    | .clear => false
    | .add _ _ => true).reverse

theorem sinceClear_append (ops : List TargetOp) (o : TargetOp) : sinceClear (ops ++ [o]) =
    match o with
    | .clear => []
    | .add a e => sinceClear ops ++ [.add a e] := by
  cases o <;> simp [sinceClear]

theorem targetLe_preord : IsPreord Config.targetLe := by
  constructor
  · intro a b; simpa [Config.targetLe] using Ver.le_total _ _
  · intro a b c; simpa [Config.targetLe] using fun h1 h2 => Ver.le_trans h1 h2

theorem filterMap_one {α β : Type} (f : α → Option β) (x : α) : [x].filterMap f = (f x).toList := by
  cases h : f x <;> simp [h]

/-- `c` with other targets. -/
def withTargets (c : Config) (ts : List Target) : Config := { c with targets := ts }

/-- C10: after any calls, the targets are the first two well-formed ones asked for since the last clear, in ascending
version order; nothing else changes. -/
theorem C10_targets (cpus : Nat) (ops : List TargetOp) :
    let c := runTargets (Config.init cpus) ops
    c.targets.length ≤ 2 ∧ c.targets.Pairwise (fun a b => a.2 ≤ b.2) ∧
    c.targets.Perm (((sinceClear ops).filterMap TargetOp.asks).take 2) ∧
    c = withTargets (Config.init cpus) c.targets := by
  induction h : ops.reverse generalizing ops with
  | nil =>
    have : ops = [] := by simpa using h
    subst this
    exact ⟨Nat.zero_le _, List.Pairwise.nil, List.Perm.refl _, rfl⟩
  | cons o rops ih =>
    have e : ops = rops.reverse ++ [o] := by
      have := congrArg List.reverse h; simpa using this
    subst e
    obtain ⟨h1, h2, h3, h4⟩ := ih rops.reverse (by simp)
    simp only [runTargets, List.foldl_append, List.foldl_cons, List.foldl_nil, sinceClear_append] at *
    generalize rops.reverse.foldl TargetOp.run (Config.init cpus) = c at *
    generalize sinceClear rops.reverse = s at *
    have hlen := h3.length_eq
    cases o with
    | clear =>
      refine ⟨Nat.zero_le _, List.Pairwise.nil, List.Perm.refl _, ?_⟩
      rw [h4]; rfl
    | add a ex =>
      simp only [TargetOp.run, List.filterMap_append, filterMap_one]
      have push : ∀ t, c.targets.length ≠ 2 → TargetOp.asks (.add a ex) = some t →
          (c.addTarget a ex).1 = c.pushTarget t → (c.addTarget a ex).1.targets.length ≤ 2 ∧
          (c.addTarget a ex).1.targets.Pairwise (fun a b => a.2 ≤ b.2) ∧
          (c.addTarget a ex).1.targets.Perm ((s.filterMap TargetOp.asks ++ (TargetOp.asks (.add a ex)).toList).take 2) ∧
          (c.addTarget a ex).1 = withTargets (Config.init cpus) (c.addTarget a ex).1.targets := by
        intro t hl ha hp
        have hlt : (s.filterMap TargetOp.asks).length < 2 := by
          rw [List.length_take] at hlen; omega
        have htk : (s.filterMap TargetOp.asks).take 2 = s.filterMap TargetOp.asks := List.take_of_length_le (by omega)
        rw [htk] at h3 hlen
        rw [ha, hp]
        refine ⟨?_, ?_, ?_, ?_⟩
        · simp only [Config.pushTarget, length_sort, List.length_append, List.length_singleton]; omega
        · simpa [Config.pushTarget, Config.targetLe] using sort_sorted targetLe_preord (c.targets ++ [t])
        · rw [List.take_of_length_le (by simp; omega)]
          exact (sort_perm _).trans (h3.append (List.Perm.refl _))
        · rw [h4]; rfl
      have skip : (c.addTarget a ex).1 = c → (c.targets.length = 2 ∨ TargetOp.asks (.add a ex) = none) →
          (c.addTarget a ex).1.targets.length ≤ 2 ∧
          (c.addTarget a ex).1.targets.Pairwise (fun a b => a.2 ≤ b.2) ∧
          (c.addTarget a ex).1.targets.Perm ((s.filterMap TargetOp.asks ++ (TargetOp.asks (.add a ex)).toList).take 2) ∧
          (c.addTarget a ex).1 = withTargets (Config.init cpus) (c.addTarget a ex).1.targets := by
        intro hp hor
        rw [hp]
        refine ⟨h1, h2, ?_, h4⟩
        rcases hor with hl | hn
        · rw [List.length_take] at hlen
          rw [List.take_append_of_le_length (by omega)]; exact h3
        · rw [hn]; simpa using h3
      by_cases hl : c.targets.length = 2
      · exact skip (by simp [Config.addTarget, hl]) (Or.inl hl)
      · cases a with
        | text t =>
          cases hp : parseTarget t with
          | none => exact skip (by simp [Config.addTarget, hl, hp]) (Or.inr hp)
          | some p => exact push p hl hp (by simp [Config.addTarget, hl, hp])
        | ver v => exact push _ hl rfl (by simp [Config.addTarget, hl])
        | pair e v => exact push _ hl rfl (by simp [Config.addTarget, hl])
        | bad => exact skip (by simp [Config.addTarget, hl]) (Or.inr rfl)

/-- C10: a rejected call changes nothing; a call is rejected iff there are two targets already or it is malformed. -/
theorem C10_rejected (c : Config) (a : Config.TargetArg) (e : Bool) :
    ((c.addTarget a e).2 = false → (c.addTarget a e).1 = c) ∧
    ((c.addTarget a e).2 = false ↔ c.targets.length = 2 ∨ TargetOp.asks (.add a e) = none) := by
  unfold Config.addTarget
  by_cases hl : c.targets.length = 2
  · simp [hl]
  · cases a with
    | text t => cases hp : parseTarget t <;> simp [hl, TargetOp.asks, hp]
    | ver v => simp [hl, TargetOp.asks]
    | pair e v => simp [hl, TargetOp.asks]
    | bad => simp [hl, TargetOp.asks]

example : (runTargets (Config.init 4) [.add (.text "2.7") true, .clear, .add (.text "3.8-") true, .add (.text "x") true,
    .add (.ver ⟨2, 7⟩) true, .add (.text "3.9") true]).targets = [(true, ⟨2, 7⟩), (false, ⟨3, 8⟩)] := by decide +kernel

/-! ### C54 -/

/-- Calls that change the exclusions. -/
inductive ExclOp where
  | add (x : String)
  | addFile (lines : List String)
  | clear

def ExclOp.run (c : Config) : ExclOp → Config
  | .add x => c.addExclusion x
  | .addFile l => c.addExclusionLines l
  | .clear => c.clearExclusions

/-- Whether `x` has been added since the last clear, by the history of calls (most recent call first). -/
def addedSince (x : String) : List ExclOp → Prop
  | [] => False
  | .clear :: _ => False
  | .add y :: ops => x = y ∨ addedSince x ops
  | .addFile ls :: ops => (∃ l ∈ ls, x = String.ofList (strip l.toList)) ∨ addedSince x ops

theorem mem_addSet (s : List String) (x y : String) : y ∈ addSet s x ↔ y = x ∨ y ∈ s := by
  unfold addSet
  split
  · rename_i h
    simp only [List.contains_iff_mem] at h
    constructor
    · exact Or.inr
    · rintro (rfl | h')
      · exact h
      · exact h'
  · simp [or_comm]

theorem nodup_addSet {s : List String} (h : s.Nodup) (x : String) : (addSet s x).Nodup := by
  unfold addSet
  split
  · exact h
  · rename_i hx
    simp only [List.contains_iff_mem] at hx
    exact List.nodup_append.mpr ⟨h, List.nodup_cons.mpr ⟨by simp, List.nodup_nil⟩, by
      intro a ha b hb; simp only [List.mem_singleton] at hb; subst hb; rintro rfl; exact hx ha⟩

theorem mem_addExclusionLines (ls : List String) (c : Config) (x : String) :
    x ∈ (c.addExclusionLines ls).exclusions ↔ (∃ l ∈ ls, x = String.ofList (strip l.toList)) ∨ x ∈ c.exclusions := by
  unfold Config.addExclusionLines
  induction ls generalizing c with
  | nil => simp
  | cons l ls ih =>
    rw [List.foldl_cons, ih]
    simp only [Config.addExclusion, mem_addSet, List.mem_cons, exists_eq_or_imp]
    constructor
    · rintro (h | h | h)
      · exact Or.inl (Or.inr h)
      · exact Or.inl (Or.inl h)
      · exact Or.inr h
    · rintro ((h | h) | h)
      · exact Or.inr (Or.inl h)
      · exact Or.inl h
      · exact Or.inr (Or.inr h)

theorem nodup_addExclusionLines (ls : List String) (c : Config) (h : c.exclusions.Nodup) :
    (c.addExclusionLines ls).exclusions.Nodup := by
  unfold Config.addExclusionLines
  induction ls generalizing c with
  | nil => exact h
  | cons l ls ih => exact ih _ (nodup_addSet h _)

/-- C54: membership after any calls. -/
theorem C54_is_excluded (cpus : Nat) (ops : List ExclOp) (x : String) :
    (ops.foldl ExclOp.run (Config.init cpus)).isExcluded x = true ↔ addedSince x ops.reverse := by
  simp only [Config.isExcluded, List.contains_iff_mem]
  induction h : ops.reverse generalizing ops with
  | nil =>
    have : ops = [] := by simpa using h
    subst this; simp [addedSince, Config.init, Config.setFormat]
  | cons o rops ih =>
    have e : ops = rops.reverse ++ [o] := by
      have := congrArg List.reverse h; simpa using this
    subst e
    have ih := ih rops.reverse (by simp)
    rw [List.foldl_append]
    simp only [List.foldl_cons, List.foldl_nil]
    cases o with
    | add y => simp only [ExclOp.run, Config.addExclusion, mem_addSet, addedSince, ih]
    | addFile l => simp only [ExclOp.run, mem_addExclusionLines, addedSince, ih]
    | clear => simp [ExclOp.run, Config.clearExclusions, addedSince]

/-- C54: `exclusions()` is strictly ascending and has exactly the excluded names. -/
theorem C54_exclusions_sorted (cpus : Nat) (ops : List ExclOp) :
    let c := ops.foldl ExclOp.run (Config.init cpus)
    c.sortedExclusions.Pairwise (fun a b => leStr a b = true ∧ a ≠ b) ∧
    ∀ x, x ∈ c.sortedExclusions ↔ c.isExcluded x = true := by
  have hn : ∀ (c : Config), c.exclusions.Nodup → (ops.foldl ExclOp.run c).exclusions.Nodup := by
    induction ops with
    | nil => exact fun c h => h
    | cons o ops ih =>
      intro c h
      refine ih _ ?_
      cases o with
      | add y => exact nodup_addSet h _
      | addFile l => exact nodup_addExclusionLines l c h
      | clear => exact List.nodup_nil
  have hn := hn (Config.init cpus) List.nodup_nil
  refine ⟨?_, ?_⟩
  · have h1 := sort_sorted leStr_preord (ops.foldl ExclOp.run (Config.init cpus)).exclusions
    have h2 : (sort leStr (ops.foldl ExclOp.run (Config.init cpus)).exclusions).Nodup := (sort_perm _).nodup_iff.mpr hn
    exact h1.and h2
  · intro x
    simp only [Config.sortedExclusions, mem_sort, Config.isExcluded, List.contains_iff_mem]

/-- C54: the specialised tests look up the documented texts. -/
theorem C54_forms (c : Config) (f k : String) :
    c.isExcludedKwarg f k = c.isExcluded (f ++ "(" ++ k ++ ")") ∧
    c.isExcludedErrorHandler k = c.isExcluded ("ceh=" ++ k) ∧
    c.isExcludedEncoding k = c.isExcluded ("ce=" ++ k) := ⟨rfl, rfl, rfl⟩

example : ([ExclOp.add "b", .clear, .addFile ["  zip(strict)\n", "a\n"], .add "a"].foldl ExclOp.run
    (Config.init 1)).sortedExclusions = ["a", "zip(strict)"] := by decide +kernel

/-! ### C48 -/

/-- The two configs answer every query alike. -/
structure SameSettings (c d : Config) : Prop where
  quiet : c.quiet = d.quiet
  verbose : c.verbose = d.verbose
  printVisits : c.printVisits = d.printVisits
  processes : c.processes = d.processes
  ignoreIncomp : c.ignoreIncomp = d.ignoreIncomp
  pessimistic : c.pessimistic = d.pessimistic
  showTips : c.showTips = d.showTips
  analyzeHidden : c.analyzeHidden = d.analyzeHidden
  exclusions : ∀ x, c.isExcluded x = d.isExcluded x
  exclusionRegex : ∀ search path, c.isExcludedByRegex search path = d.isExcludedByRegex search path
  makePathsAbsolute : c.makePathsAbsolute = d.makePathsAbsolute
  backports : c.backports = d.backports
  features : ∀ x, c.hasFeature x = d.hasFeature x
  targets : c.targets = d.targets
  evalAnnotations : c.evalAnnotations = d.evalAnnotations
  onlyShowViolations : c.onlyShowViolations = d.onlyShowViolations
  parseComments : c.parseComments = d.parseComments
  scanSymlinkFolders : c.scanSymlinkFolders = d.scanSymlinkFolders
  format : c.format = d.format

theorem contains_sort (l : List String) (x : String) : (sort leStr l).contains x = l.contains x := by
  rw [Bool.eq_iff_iff, List.contains_iff_mem, List.contains_iff_mem, mem_sort]

theorem any_sort (l : List String) (p : String → Bool) : (sort leStr l).any p = l.any p := by
  rw [Bool.eq_iff_iff, List.any_eq_true, List.any_eq_true]
  constructor
  · rintro ⟨x, hx, h⟩; exact ⟨x, mem_sort.mp hx, h⟩
  · rintro ⟨x, hx, h⟩; exact ⟨x, mem_sort.mpr hx, h⟩

/-- C48: after `c.override_from(d)` every query is answered as by `d` with its format set (again); whatever `c` was. -/
theorem C48_override (c d : Config) : SameSettings (c.overrideFrom d) (d.setFormat d.format) := by
  unfold Config.overrideFrom Config.setFormat
  cases d.format <;>
  exact ⟨rfl, rfl, rfl, rfl, rfl, rfl, rfl, rfl, fun x => contains_sort _ x, fun s p => any_sort _ _, rfl, rfl, fun _ => rfl,
    rfl, rfl, rfl, rfl, rfl, rfl⟩

/-- C48: for the default format that is `d` itself, and likewise for a parsable config that respects its format. -/
theorem C48_override_exact (c d : Config)
    (h : d.format = .parsable → 3 ≤ d.verbose ∧ d.ignoreIncomp = true ∧ d.showTips = false) :
    SameSettings (c.overrideFrom d) d := by
  have e : d.setFormat d.format = d := by
    cases d with
    | mk _ _ _ _ _ _ _ _ _ _ _ _ _ _ _ _ _ _ f =>
      cases f with
      | default => rfl
      | parsable =>
        obtain ⟨h1, h2, h3⟩ := h rfl
        simp only at h1 h2 h3
        simp only [Config.setFormat, h2, h3, Nat.max_eq_right h1]
  have := C48_override c d
  rwa [e] at this

example : SameSettings ((Config.init 4).overrideFrom (((Config.init 2).addExclusion "z").addExclusion "a"))
    (((Config.init 2).addExclusion "z").addExclusion "a") := C48_override_exact _ _ (by decide)

/-! ### C47 -/

/-- "Config file names being looked for" (README.rst:186), in order of preference. -/
def documentedFiles : List String := ["vermin.ini", "vermin.conf", ".vermin", "setup.cfg"]
/-- "Project boundary files/folders" (README.rst:188-189) -/
def documentedBoundaries : List String := [".git", ".svn", ".hg", ".bzr", "_darcs", ".fslckout", ".p4root", ".pijul"]

theorem configFileNames_documented : configFileNames = documentedFiles := rfl
theorem mem_projectBoundaries (b : String) : b ∈ projectBoundaries ↔ b ∈ documentedBoundaries := by
  simp only [projectBoundaries, documentedBoundaries, List.mem_cons, List.not_mem_nil, or_false]
  constructor <;> (intro h; rcases h with h | h | h | h | h | h | h | h <;> simp [h])

/-- `f` is `start` or one of its parents, and no folder from `start` up to (but not including) `f` is a project boundary
or contains a config file. -/
inductive Reaches (fs : CfgFs) : Folder → Folder → Prop
  | here (f) : Reaches fs f f
  | up {d up f} (hb : ∀ b ∈ documentedBoundaries, fs.exist (d :: up) b = false)
      (hc : ∀ n ∈ documentedFiles, ¬ (fs.exist (d :: up) n = true ∧ fs.read (d :: up) n = .read true))
      (h : Reaches fs up f) : Reaches fs (d :: up) f

/-- No file raises an exception the code does not expect. -/
def NoCrash (fs : CfgFs) : Prop := ∀ f n e, fs.read f n ≠ .crash e

theorem searchFolder_spec {fs : CfgFs} (hn : NoCrash fs) (f : Folder) (ns : List String) :
    (∃ pre n post, ns = pre ++ n :: post ∧ searchFolder fs f ns = .ok (some n) ∧ fs.exist f n = true ∧
      fs.read f n = .read true ∧ ∀ m ∈ pre, ¬ (fs.exist f m = true ∧ fs.read f m = .read true)) ∨
    (searchFolder fs f ns = .ok none ∧ ∀ m ∈ ns, ¬ (fs.exist f m = true ∧ fs.read f m = .read true)) := by
  induction ns with
  | nil => exact Or.inr ⟨rfl, by simp⟩
  | cons n ns ih =>
    have next : searchFolder fs f (n :: ns) = searchFolder fs f ns → ¬ (fs.exist f n = true ∧ fs.read f n = .read true) →
        (∃ pre m post, n :: ns = pre ++ m :: post ∧ searchFolder fs f (n :: ns) = .ok (some m) ∧ fs.exist f m = true ∧
          fs.read f m = .read true ∧ ∀ k ∈ pre, ¬ (fs.exist f k = true ∧ fs.read f k = .read true)) ∨
        (searchFolder fs f (n :: ns) = .ok none ∧
          ∀ m ∈ n :: ns, ¬ (fs.exist f m = true ∧ fs.read f m = .read true)) := by
      intro he hno
      rw [he]
      rcases ih with ⟨pre, m, post, e, h1, h2, h3, h4⟩ | ⟨h1, h2⟩
      · refine Or.inl ⟨n :: pre, m, post, by rw [e]; rfl, h1, h2, h3, ?_⟩
        intro k hk
        rcases List.mem_cons.mp hk with rfl | hk
        · exact hno
        · exact h4 k hk
      · refine Or.inr ⟨h1, ?_⟩
        intro k hk
        rcases List.mem_cons.mp hk with rfl | hk
        · exact hno
        · exact h2 k hk
    cases he : fs.exist f n with
    | false => exact next (by simp [searchFolder, he]) (by simp [he])
    | true =>
      cases hr : fs.read f n with
      | read b =>
        cases b with
        | true => exact Or.inl ⟨[], n, ns, rfl, by simp [searchFolder, he, hr], he, hr, by simp⟩
        | false => exact next (by simp [searchFolder, he, hr]) (by simp [hr])
      | unreadable => exact next (by simp [searchFolder, he, hr]) (by simp [hr])
      | parsingError => exact next (by simp [searchFolder, he, hr]) (by simp [hr])
      | crash e => exact absurd hr (hn f n e)

theorem searchFolder_ok {fs : CfgFs} (hn : NoCrash fs) (f : Folder) (ns : List String) :
    ∃ r, searchFolder fs f ns = .ok r := by
  rcases searchFolder_spec hn f ns with ⟨_, n, _, _, h, _⟩ | ⟨h, _⟩
  · exact ⟨_, h⟩
  · exact ⟨_, h⟩

/-- C47: a file is returned iff it is the first candidate with the section, in the nearest folder that has one, and no
project boundary lies in between. -/
theorem C47_found_iff {fs : CfgFs} (hn : NoCrash fs) (start f : Folder) (n : String) :
    detectConfigFile fs start = .ok (some (f, n)) ↔
      Reaches fs start f ∧ ∃ pre post, documentedFiles = pre ++ n :: post ∧ fs.exist f n = true ∧
        fs.read f n = .read true ∧ ∀ m ∈ pre, ¬ (fs.exist f m = true ∧ fs.read f m = .read true) := by
  have uniq : ∀ {pre pre' post post' : List String} {n n' : String} {f : Folder},
      pre ++ n :: post = pre' ++ n' :: post' → (fs.exist f n = true ∧ fs.read f n = .read true) →
      (fs.exist f n' = true ∧ fs.read f n' = .read true) →
      (∀ m ∈ pre, ¬ (fs.exist f m = true ∧ fs.read f m = .read true)) →
      (∀ m ∈ pre', ¬ (fs.exist f m = true ∧ fs.read f m = .read true)) → n = n' := by
    intro pre
    induction pre with
    | nil =>
      intro pre' post post' n n' f e h h' h1 h2
      cases pre' with
      | nil => simp at e; exact e.1
      | cons x pre' => simp at e; exact absurd (e.1 ▸ h) (h2 x (by simp))
    | cons x pre ih =>
      intro pre' post post' n n' f e h h' h1 h2
      cases pre' with
      | nil => simp at e; exact absurd (e.1 ▸ h') (h1 x (by simp))
      | cons y pre' =>
        simp at e
        exact ih e.2 h h' (fun m hm => h1 m (by simp [hm])) (fun m hm => h2 m (by simp [hm]))
  have here : ∀ (g : Folder) (m : String), searchFolder fs g configFileNames = .ok (some m) →
      ∃ pre post, configFileNames = pre ++ m :: post ∧ fs.exist g m = true ∧
        fs.read g m = .read true ∧ ∀ k ∈ pre, ¬ (fs.exist g k = true ∧ fs.read g k = .read true) := by
    intro g m hm
    rcases searchFolder_spec hn g configFileNames with ⟨pre, k, post, e, h1, h2, h3, h4⟩ | ⟨h1, _⟩
    · rw [h1] at hm; cases hm; exact ⟨pre, post, e, h2, h3, h4⟩
    · rw [h1] at hm; cases hm
  induction start with
  | nil =>
    simp only [detectConfigFile]
    rcases searchFolder_spec hn [] configFileNames with ⟨pre, k, post, e, h1, h2, h3, h4⟩ | ⟨h1, h2⟩
    · rw [h1]
      constructor
      · intro h; cases h; exact ⟨.here _, pre, post, e, h2, h3, h4⟩
      · rintro ⟨hr, pre', post', e', h2', h3', h4'⟩
        cases hr
        have := uniq (e.symm.trans e') ⟨h2, h3⟩ ⟨h2', h3'⟩ h4 h4'
        subst this; rfl
    · rw [h1]
      constructor
      · intro h; cases h
      · rintro ⟨hr, pre', post', e', h2', h3', h4'⟩
        cases hr
        exact absurd ⟨h2', h3'⟩ (h2 n (by rw [configFileNames_documented, e']; simp))
  | cons d up ih =>
    simp only [detectConfigFile]
    rcases searchFolder_spec hn (d :: up) configFileNames with ⟨pre, k, post, e, h1, h2, h3, h4⟩ | ⟨h1, h2⟩
    · rw [h1]
      constructor
      · intro h; cases h; exact ⟨.here _, pre, post, e, h2, h3, h4⟩
      · rintro ⟨hr, pre', post', e', h2', h3', h4'⟩
        cases hr with
        | here =>
          have := uniq (e.symm.trans e') ⟨h2, h3⟩ ⟨h2', h3'⟩ h4 h4'
          subst this; rfl
        | up _ hc _ => exact absurd ⟨h2, h3⟩ (hc k (by rw [← configFileNames_documented, e]; simp))
    · rw [h1]
      show (if projectBoundaries.any (fs.exist (d :: up)) then Except.ok none else detectConfigFile fs up) = _ ↔ _
      by_cases hb : projectBoundaries.any (fs.exist (d :: up)) = true
      · rw [if_pos hb]
        constructor
        · intro h; cases h
        · rintro ⟨hr, pre', post', e', h2', h3', h4'⟩
          cases hr with
          | here => exact absurd ⟨h2', h3'⟩ (h2 n (by rw [configFileNames_documented, e']; simp))
          | up hb' _ _ =>
            obtain ⟨b, hbm, hbe⟩ := List.any_eq_true.mp hb
            rw [hb' b ((mem_projectBoundaries b).mp hbm)] at hbe; cases hbe
      · rw [if_neg hb]
        refine Iff.trans ih ?_
        have hb' : ∀ b ∈ documentedBoundaries, fs.exist (d :: up) b = false := by
          intro b hbm
          replace hbm := (mem_projectBoundaries b).mpr hbm
          cases hx : fs.exist (d :: up) b with
          | false => rfl
          | true => exact absurd (List.any_eq_true.mpr ⟨b, hbm, hx⟩) hb
        constructor
        · rintro ⟨hr, hrest⟩; exact ⟨.up hb' h2 hr, hrest⟩
        · rintro ⟨hr, pre', post', e', h2', h3', h4'⟩
          cases hr with
          | here => exact absurd ⟨h2', h3'⟩ (h2 n (by rw [configFileNames_documented, e']; simp))
          | up _ _ hr => exact ⟨hr, pre', post', e', h2', h3', h4'⟩

/-- C47: the search always ends, with a file or with none (unless reading a candidate crashes). -/
theorem C47_terminates {fs : CfgFs} (hn : NoCrash fs) (start : Folder) : ∃ r, detectConfigFile fs start = .ok r := by
  induction start with
  | nil =>
    obtain ⟨r, hr⟩ := searchFolder_ok hn [] configFileNames
    cases r <;> simp only [detectConfigFile, hr] <;> exact ⟨_, rfl⟩
  | cons d up ih =>
    obtain ⟨r, hr⟩ := searchFolder_ok hn (d :: up) configFileNames
    cases r with
    | some n => simp only [detectConfigFile, hr]; exact ⟨_, rfl⟩
    | none =>
      simp only [detectConfigFile, hr]
      show ∃ r, (if projectBoundaries.any (fs.exist (d :: up)) then Except.ok none else detectConfigFile fs up) = _
      split
      · exact ⟨_, rfl⟩
      · exact ih

/-- C47: nothing above a folder with a project boundary influences the result. -/
theorem C47_boundary {fs fs' : CfgFs} {d : String} {up : Folder} (hb : ∃ b ∈ documentedBoundaries, fs.exist (d :: up) b = true)
    (he : ∀ n, fs.exist (d :: up) n = fs'.exist (d :: up) n) (hr : ∀ n, fs.read (d :: up) n = fs'.read (d :: up) n) :
    detectConfigFile fs (d :: up) = detectConfigFile fs' (d :: up) := by
  have hs : ∀ ns, searchFolder fs (d :: up) ns = searchFolder fs' (d :: up) ns := by
    intro ns
    induction ns with
    | nil => rfl
    | cons n ns ih => simp only [searchFolder, he, hr, ih]
  have hb1 : projectBoundaries.any (fs.exist (d :: up)) = true := by
    obtain ⟨b, h1, h2⟩ := hb; exact List.any_eq_true.mpr ⟨b, (mem_projectBoundaries b).mpr h1, h2⟩
  have hb2 : projectBoundaries.any (fs'.exist (d :: up)) = true := by
    obtain ⟨b, h1, h2⟩ := hb; exact List.any_eq_true.mpr ⟨b, (mem_projectBoundaries b).mpr h1, (he b) ▸ h2⟩
  simp only [detectConfigFile, hs, hb1, hb2, if_true]

/-- C47 without the assumption on crashes fails: a broken `vermin.ini` hides a good `.vermin`. -/
theorem C47_crash : ∃ fs : CfgFs, (fs.exist ["p"] ".vermin" = true ∧ fs.read ["p"] ".vermin" = .read true) ∧
    detectConfigFile fs ["p"] = .error .valueError :=
  ⟨⟨fun _ n => n == "vermin.ini" || n == ".vermin",
    fun _ n => if n = "vermin.ini" then .crash .valueError else .read true⟩, by decide +kernel, by decide +kernel⟩

example : let fs : CfgFs := ⟨fun f n => (f = ["home"] ∧ n = "setup.cfg") || (f = ["proj", "home"] ∧ n = "vermin.ini"),
      fun f _ => .read (f = ["home"])⟩
    NoCrash fs ∧ detectConfigFile fs ["sub", "proj", "home"] = .ok (some (["home"], "setup.cfg")) := by
  refine ⟨?_, by decide +kernel⟩
  intro f n e h; cases h

end Vermin.Props
