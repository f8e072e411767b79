import Verif.Spec.PathText
import Verif.Props.Strings
import Verif.Lemmas.Paths
import Verif.Model.State
/-
C98: paths are joined, made absolute and taken apart as `os.path` documents.
-/
namespace Vermin.Props
open Vermin Vermin.Py Vermin.Spec

theorem walk_fold : ∀ {cs s : List (List Char)}, (∀ w ∈ s, PlainName w) → (∀ w ∈ cs, '/' ∉ w) →
    ∀ t, Walk s cs t ↔ cs.foldl (normStep true) s = t
  | [], s, _, _, t => ⟨fun h => by cases h; rfl, fun h => by cases h; exact .there⟩
  | c :: cs, s, hs, hc, t => by
    have hcs : ∀ w ∈ cs, '/' ∉ w := fun w hw => hc w (List.mem_cons_of_mem _ hw)
    have hstep : ∀ w ∈ normStep true s c, PlainName w :=
      comps_plain (l := [c]) (fun w hw => hc w (by rw [List.mem_singleton.mp hw]; exact List.mem_cons_self)) hs
    have ih := walk_fold (s := normStep true s c) hstep hcs t
    rw [List.foldl_cons, ← ih]
    have hlast : ∀ w, s.getLast? = some w → w ≠ ['.', '.'] := fun w hw => (hs w (List.mem_of_getLast? hw)).notDotDot
    constructor
    · intro h
      cases h with
      | stay h h' => rw [normStep, if_pos h]; exact h'
      | up h =>
        rw [normStep, if_neg (by decide), if_neg]
        · exact h
        · rintro (h | ⟨h, -⟩ | ⟨-, h⟩)
          · exact h rfl
          · cases h
          · exact hlast _ h rfl
      | down h1 h2 h3 h => rw [normStep, if_neg (by simp [h1, h2]), if_pos (.inl h3)]; exact h
    · intro h
      by_cases h1 : c = [] ∨ c = ['.']
      · rw [normStep, if_pos h1] at h; exact .stay h1 h
      · by_cases h2 : c = ['.', '.']
        · subst h2
          rw [normStep, if_neg (by decide), if_neg] at h
          · exact .up h
          · rintro (h | ⟨h, -⟩ | ⟨-, h⟩)
            · exact h rfl
            · cases h
            · exact hlast _ h rfl
        · rw [normStep, if_neg h1, if_pos (.inl h2)] at h
          rw [not_or] at h1
          exact .down h1.1 h1.2 h2 h

theorem pieces_slash (p : List Char) (ws : List (List Char)) : Pieces (· = '/') p ws ↔ splitOn (· == '/') p = ws := by
  rw [C95_split]
  simp only [beq_iff_eq]

theorem pieces_free {p : List Char} {w : List Char} (h : w ∈ splitOn (· == '/') p) : '/' ∉ w := by
  intro hw
  simpa using splitOn_free h _ hw

theorem head_slash {p : List Char} : p.head? = some '/' ↔ startsWith ['/'] p = true := by
  rw [startsWith_slash_iff]
  cases p with
  | nil => simp
  | cons c r => simp [eq_comm]

theorem splitOn_slash (a b : List Char) : splitOn (· == '/') (a ++ '/' :: b) = splitOn (· == '/') a ++ splitOn (· == '/') b := by
  induction a with
  | nil => simp [splitOn]
  | cons c a ih =>
    by_cases hc : c = '/'
    · subst hc
      simp only [List.cons_append, splitOn, beq_self_eq_true, if_true, ih]
    · have hc' : (c == '/') = false := by simpa using hc
      simp only [List.cons_append, splitOn, hc', Bool.false_eq_true, if_false, ih]
      have := splitOn_ne (· == '/') a
      cases h : splitOn (· == '/') a with
      | nil => exact absurd h this
      | cons w ws => simp

theorem leadSlashes_two {a : List Char} (ha : startsWith ['/'] a = true) (s : List Char) :
    (TwoSlashes a ∧ leadSlashes a ++ s = '/' :: '/' :: s) ∨ (¬ TwoSlashes a ∧ leadSlashes a ++ s = '/' :: s) := by
  unfold leadSlashes
  rw [if_pos ha]
  split
  · rename_i h
    refine .inl ⟨?_, rfl⟩
    match a, h with
    | [], h => cases h
    | [_], h => simp [startsWith, List.isPrefixOf] at h
    | '/' :: '/' :: r, h =>
      refine ⟨r, rfl, ?_⟩
      cases r with
      | nil => simp
      | cons c r => simp [startsWith, List.isPrefixOf] at h; simp [Ne.symm h]
    | x :: y :: r, h =>
      simp [startsWith, List.isPrefixOf] at h
      obtain ⟨⟨rfl, rfl⟩, h⟩ := h
      refine ⟨r, rfl, ?_⟩
      cases r with
      | nil => simp
      | cons c r => simp [List.isPrefixOf] at h; simp [Ne.symm h]
  · rename_i h
    refine .inr ⟨?_, rfl⟩
    rintro ⟨r, rfl, hr⟩
    apply h
    cases r with
    | nil => simp [startsWith, List.isPrefixOf]
    | cons c r =>
      simp only [List.head?_cons, ne_eq, Option.some.injEq] at hr
      simp [startsWith, List.isPrefixOf, Ne.symm hr]

theorem walk_total : ∀ (cs s : List (List Char)), ∃ t, Walk s cs t
  | [], s => ⟨s, .there⟩
  | c :: cs, s => by
    by_cases h1 : c = [] ∨ c = ['.']
    · obtain ⟨t, h⟩ := walk_total cs s; exact ⟨t, .stay h1 h⟩
    · by_cases h2 : c = ['.', '.']
      · obtain ⟨t, h⟩ := walk_total cs s.dropLast; subst h2; exact ⟨t, .up h⟩
      · obtain ⟨t, h⟩ := walk_total cs (s ++ [c])
        rw [not_or] at h1
        exact ⟨t, .down h1.1 h1.2 h2 h⟩

theorem walk_append {ds : List (List Char)} : ∀ {cs s t : List (List Char)}, Walk s (cs ++ ds) t ↔ ∃ m, Walk s cs m ∧ Walk m ds t
  | [], s, t => ⟨fun h => ⟨s, .there, h⟩, fun ⟨m, h1, h2⟩ => by cases h1; exact h2⟩
  | c :: cs, s, t => by
    constructor
    · intro h
      cases h with
      | stay h h' => obtain ⟨m, h1, h2⟩ := walk_append.mp h'; exact ⟨m, .stay h h1, h2⟩
      | up h' => obtain ⟨m, h1, h2⟩ := walk_append.mp h'; exact ⟨m, .up h1, h2⟩
      | down a b c h' => obtain ⟨m, h1, h2⟩ := walk_append.mp h'; exact ⟨m, .down a b c h1, h2⟩
    · rintro ⟨m, h, h2⟩
      cases h with
      | stay h h' => exact .stay h (walk_append.mpr ⟨m, h', h2⟩)
      | up h' => exact .up (walk_append.mpr ⟨m, h', h2⟩)
      | down a b c h' => exact .down a b c (walk_append.mpr ⟨m, h', h2⟩)

theorem walk_empty {s t : List (List Char)} : Walk s [[]] t ↔ t = s := by
  constructor
  · intro h
    cases h with
    | stay _ h => cases h; rfl
    | down h => exact absurd rfl h
  · rintro rfl
    exact .stay (.inl rfl) .there

theorem leadsTo_iff {s t : List (List Char)} {p : List Char} :
    LeadsTo s p t ↔ Walk (if startsWith ['/'] p then [] else s) (splitOn (· == '/') p) t := by
  unfold LeadsTo
  simp only [pieces_slash, head_slash]
  cases h : startsWith ['/'] p
  · have h' : p.head? ≠ some '/' := fun hp => by rw [head_slash.mp hp] at h; cases h
    simp [h']
  · have h' := head_slash.mpr h
    simp [h']

theorem leadsTo_total (s : List (List Char)) (p : List Char) : ∃ t, LeadsTo s p t := by
  obtain ⟨t, h⟩ := walk_total (splitOn (· == '/') p) (if startsWith ['/'] p then [] else s)
  exact ⟨t, leadsTo_iff.mpr h⟩

/-- C98: `os.path.join`, as a text. -/
theorem C98_join (a b q : List Char) : pathJoin a b = q ↔
    (b.head? = some '/' ∧ q = b) ∨ (b.head? ≠ some '/' ∧ (a = [] ∨ a.getLast? = some '/') ∧ q = a ++ b) ∨
      (b.head? ≠ some '/' ∧ a ≠ [] ∧ a.getLast? ≠ some '/' ∧ q = a ++ '/' :: b) := by
  have he : (a.isEmpty || endsWith ['/'] a) = true ↔ a = [] ∨ a.getLast? = some '/' := by
    rw [Bool.or_eq_true, List.isEmpty_iff, endsWith_slash, List.getLast?_eq_some_iff]
  unfold pathJoin
  by_cases hb : b.head? = some '/'
  · rw [if_pos (head_slash.mp hb)]
    simp [hb, eq_comm]
  · rw [if_neg (fun h => hb (head_slash.mpr h))]
    by_cases ha : a = [] ∨ a.getLast? = some '/'
    · rw [if_pos (he.mpr ha)]
      constructor
      · exact fun h => .inr (.inl ⟨hb, ha, h.symm⟩)
      · rintro (⟨h, -⟩ | ⟨-, -, h⟩ | ⟨-, h1, h2, -⟩)
        · exact absurd h hb
        · exact h.symm
        · exact absurd ha (by simp [h1, h2])
    · rw [if_neg (fun h => ha (he.mp h))]
      rw [not_or] at ha
      constructor
      · exact fun h => .inr (.inr ⟨hb, ha.1, ha.2, h.symm⟩)
      · rintro (⟨h, -⟩ | ⟨-, h, -⟩ | ⟨-, -, -, h⟩)
        · exact absurd h hb
        · exact absurd h (by simp [ha.1, ha.2])
        · exact h.symm

/-- C98: the joined path leads where the first path and then the second one lead. -/
theorem C98_joined (s t : List (List Char)) (a b : List Char) :
    LeadsTo s (pathJoin a b) t ↔ ∃ m, LeadsTo s a m ∧ LeadsTo m b t := by
  rcases (C98_join a b _).mp rfl with ⟨hb, h⟩ | ⟨hb, ha, h⟩ | ⟨hb, ha, -, h⟩
  · rw [h]
    have hb' := head_slash.mp hb
    simp only [leadsTo_iff, hb', if_true]
    exact ⟨fun h => (leadsTo_total s a).imp fun m hm => ⟨leadsTo_iff.mp hm, h⟩, fun ⟨_, _, h⟩ => h⟩
  · rw [h]
    have hb' : startsWith ['/'] b = false := by
      cases h : startsWith ['/'] b with
      | false => rfl
      | true => exact absurd (head_slash.mpr h) hb
    rcases ha with rfl | ha
    · simp only [leadsTo_iff, List.nil_append, hb', Bool.false_eq_true, if_false]
      have : splitOn (· == '/') ([] : List Char) = [[]] := rfl
      rw [this]
      simp only [show startsWith ['/'] [] = false from rfl, Bool.false_eq_true, if_false, walk_empty, exists_eq_left]
    · obtain ⟨c, rfl⟩ := List.getLast?_eq_some_iff.mp ha
      have e1 : c ++ ['/'] ++ b = c ++ '/' :: b := by simp
      have e2 : startsWith ['/'] (c ++ '/' :: b) = startsWith ['/'] (c ++ ['/']) := by
        cases c <;> simp [startsWith, List.isPrefixOf]
      simp only [leadsTo_iff, e1, splitOn_slash, e2, hb', Bool.false_eq_true, if_false, walk_append]
      have : splitOn (· == '/') ([] : List Char) = [[]] := rfl
      simp only [this, walk_empty, exists_eq_right_right, exists_and_right, exists_eq_right']
  · rw [h]
    have hb' : startsWith ['/'] b = false := by
      cases h : startsWith ['/'] b with
      | false => rfl
      | true => exact absurd (head_slash.mpr h) hb
    have e2 : startsWith ['/'] (a ++ '/' :: b) = startsWith ['/'] a := by
      cases a with
      | nil => exact absurd rfl ha
      | cons => simp [startsWith, List.isPrefixOf]
    simp only [leadsTo_iff, splitOn_slash, e2, hb', Bool.false_eq_true, if_false, walk_append]

theorem two_join {a b : List Char} (ha : startsWith ['/'] a = true) (hb : b.head? ≠ some '/') : TwoSlashes (pathJoin a b) ↔ TwoSlashes a := by
  obtain ⟨r, rfl⟩ := startsWith_slash_iff.mp ha
  rcases (C98_join ('/' :: r) b _).mp rfl with ⟨h, -⟩ | ⟨-, h, e⟩ | ⟨-, -, h, e⟩
  · exact absurd h hb
  · rw [e]
    unfold TwoSlashes
    match r with
    | [] =>
      cases b with
      | nil => simp
      | cons c b => simp_all
    | [x] =>
      cases b with
      | nil => simp
      | cons c b => simp_all
    | x :: y :: r =>
      constructor
      · rintro ⟨z, hz, hn⟩
        simp only [List.cons_append, List.cons.injEq, true_and] at hz
        obtain ⟨rfl, rfl⟩ := hz
        exact ⟨_, rfl, by simpa using hn⟩
      · rintro ⟨z, hz, hn⟩
        simp only [List.cons.injEq, true_and] at hz
        obtain ⟨rfl, rfl⟩ := hz
        exact ⟨_, rfl, by simpa using hn⟩
  · rw [e]
    unfold TwoSlashes
    match r with
    | [] => simp at h
    | [x] => simp at h; simp [h]
    | x :: y :: r =>
      constructor
      · rintro ⟨z, hz, hn⟩
        simp only [List.cons_append, List.cons.injEq, true_and] at hz
        obtain ⟨rfl, rfl⟩ := hz
        exact ⟨_, rfl, by simpa using hn⟩
      · rintro ⟨z, hz, hn⟩
        simp only [List.cons.injEq, true_and] at hz
        obtain ⟨rfl, rfl⟩ := hz
        exact ⟨_, rfl, by simpa using hn⟩

/-- **C98.** `os.path.abspath`: the plain way to write the place the path leads to from the working directory. -/
theorem C98_absolute {cwd : List Char} (hc : cwd.head? = some '/') (p q : List Char) :
    abspath cwd p = q ↔ ∃ s t, LeadsTo [] cwd s ∧ LeadsTo s p t ∧
      Plainly ((p.head? = some '/' ∧ TwoSlashes p) ∨ (p.head? ≠ some '/' ∧ TwoSlashes cwd)) t q := by
  have key : ∀ {a : List Char}, startsWith ['/'] a = true → (normpath a = q ↔ ∃ t, LeadsTo [] a t ∧ Plainly (TwoSlashes a) t q) := by
    intro a ha
    have hw : ∀ t, LeadsTo [] a t ↔ (splitOn (· == '/') a).foldl (normStep true) [] = t := by
      intro t
      rw [leadsTo_iff, if_pos ha]
      exact walk_fold (fun _ h => absurd h List.not_mem_nil) (fun w hw => pieces_free hw) t
    simp only [hw, exists_eq_left']
    rw [normpath_abs ha]
    unfold Plainly
    simp only [← C95_join, exists_eq_left']
    rcases leadSlashes_two ha (join ['/'] ((splitOn (· == '/') a).foldl (normStep true) [])) with ⟨h2, h⟩ | ⟨h2, h⟩
    · rw [h]; simp [h2, eq_comm]
    · rw [h]; simp [h2, eq_comm]
  have hc' := head_slash.mp hc
  unfold abspath
  by_cases hp : p.head? = some '/'
  · have hp' := head_slash.mp hp
    rw [if_pos hp', key hp']
    have e : ((p.head? = some '/' ∧ TwoSlashes p) ∨ (p.head? ≠ some '/' ∧ TwoSlashes cwd)) = TwoSlashes p := by simp [hp]
    rw [e]
    constructor
    · rintro ⟨t, h1, h2⟩
      obtain ⟨s, hs⟩ := leadsTo_total [] cwd
      refine ⟨s, t, hs, ?_, h2⟩
      rw [leadsTo_iff, if_pos hp'] at h1 ⊢
      exact h1
    · rintro ⟨s, t, -, h1, h2⟩
      refine ⟨t, ?_, h2⟩
      rw [leadsTo_iff, if_pos hp'] at h1 ⊢
      exact h1
  · have hp' : ¬ startsWith ['/'] p = true := fun h => hp (head_slash.mpr h)
    have ha : startsWith ['/'] (pathJoin cwd p) = true := by
      obtain ⟨r, rfl⟩ := startsWith_slash_iff.mp hc'
      rw [startsWith_slash_iff]
      rcases (C98_join ('/' :: r) p _).mp rfl with ⟨h, -⟩ | ⟨-, -, e⟩ | ⟨-, -, -, e⟩
      · exact absurd h hp
      · rw [e]; exact ⟨_, rfl⟩
      · rw [e]; exact ⟨_, rfl⟩
    rw [if_neg hp', key ha]
    have e : ((p.head? = some '/' ∧ TwoSlashes p) ∨ (p.head? ≠ some '/' ∧ TwoSlashes cwd)) = TwoSlashes cwd := by simp [hp]
    rw [e]
    have e' : TwoSlashes (pathJoin cwd p) = TwoSlashes cwd := propext (two_join hc' hp)
    simp only [C98_joined, e']
    exact ⟨fun ⟨t, ⟨m, h1, h2⟩, h3⟩ => ⟨m, t, h1, h2, h3⟩, fun ⟨m, t, h1, h2, h3⟩ => ⟨t, ⟨m, h1, h2⟩, h3⟩⟩

/-- C98: `os.path.basename`. -/
theorem C98_base (p b : List Char) : baseName p = b ↔ LastPart p b := by
  constructor
  · rintro rfl
    obtain ⟨dir, hd, hp, hb⟩ := baseName_split p
    refine ⟨hb, ?_⟩
    rcases hd with rfl | ⟨d, rfl⟩
    · exact .inl (by simpa using hp)
    · exact .inr ⟨d, by simpa using hp⟩
  · rintro ⟨hb, rfl | ⟨d, rfl⟩⟩
    · exact baseName_eq (dir := []) (.inl rfl) hb
    · have := baseName_eq (dir := d ++ ['/']) (.inr ⟨d, rfl⟩) hb
      simpa using this

/-- C98: `os.path.splitext`: the extension with its dot, or nothing. -/
theorem C98_extension (p : List Char) :
    (∀ e, extOf p = '.' :: e ↔ ∃ b, LastPart p b ∧ Extension b e) ∧ (extOf p = [] ∨ ∃ e, extOf p = '.' :: e) := by
  have key : ∀ e, HasExt p e ↔ ∃ b, LastPart p b ∧ Extension b e := by
    intro e
    constructor
    · rintro ⟨dir, stem, rfl, hd, hs, he, hdot, hc⟩
      refine ⟨stem ++ '.' :: e, ⟨by simp [hs, he], ?_⟩, stem, rfl, hdot, hc⟩
      rcases hd with rfl | ⟨d, rfl⟩
      · exact .inl rfl
      · exact .inr ⟨d, by simp⟩
    · rintro ⟨b, ⟨hb, hp⟩, stem, rfl, hdot, hc⟩
      simp only [List.mem_append, List.mem_cons, not_or] at hb
      rcases hp with rfl | ⟨d, rfl⟩
      · exact ⟨[], stem, rfl, .inl rfl, hb.1, hb.2.2, hdot, hc⟩
      · exact ⟨d ++ ['/'], stem, by simp, .inr ⟨d, rfl⟩, hb.1, hb.2.2, hdot, hc⟩
  refine ⟨fun e => ?_, ?_⟩
  · rw [← key]
    refine ⟨fun h => ?_, extOf_of_hasExt⟩
    obtain ⟨e', h1, h2⟩ := hasExt_of_extOf (p := p) (by rw [h]; exact nofun)
    rw [h] at h2
    injection h2 with _ h2
    rw [h2]; exact h1
  · by_cases h : extOf p = []
    · exact .inl h
    · obtain ⟨e, -, h⟩ := hasExt_of_extOf h
      exact .inr ⟨e, h⟩

/-- C98: which files are taken for the code of a package. -/
theorem C98_init (env : Env) : env.isInitFile = true ↔ LastPart env.path.toList "__init__.py".toList := by
  rw [← C98_base]
  unfold Env.isInitFile baseName
  rw [decide_eq_true_iff]

/-- Some paths. -/
theorem C98_witness : abspath "/home/me".toList "../you//./src/".toList = "/home/you/src".toList ∧
    abspath "/home".toList "/a/../../b".toList = "/b".toList ∧ abspath "//net".toList "x".toList = "//net/x".toList ∧
    LeadsTo [] "/home/me".toList ["home".toList, "me".toList] ∧
    LeadsTo ["home".toList, "me".toList] "../you//./src/".toList ["home".toList, "you".toList, "src".toList] ∧
    LastPart "/pkg/__init__.py".toList "__init__.py".toList ∧ Extension "a.tar.gz".toList "gz".toList := by
  refine ⟨by decide +kernel, by decide +kernel, by decide +kernel, ?_, ?_, ?_, ?_⟩
  · rw [leadsTo_iff]
    exact (walk_fold (fun _ h => absurd h List.not_mem_nil) (by decide +kernel) _).mpr (by decide +kernel)
  · rw [leadsTo_iff]
    refine (walk_fold (List.forall_mem_cons.mpr ⟨⟨by decide, by decide, by decide, by decide⟩,
      List.forall_mem_cons.mpr ⟨⟨by decide, by decide, by decide, by decide⟩, fun _ h => absurd h List.not_mem_nil⟩⟩) (by decide +kernel) _).mpr (by decide +kernel)
  · exact ⟨by decide, .inr ⟨"/pkg".toList, rfl⟩⟩
  · exact ⟨"a.tar".toList, rfl, by decide, 'a', by decide, by decide⟩

end Vermin.Props
