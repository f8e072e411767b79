import Verif.Model.Parser
import Verif.Lemmas.Paths
/-
Parsing: comments (C22) and syntax errors (C23).
-/
namespace Vermin.Props
open Vermin Vermin.Py

/-! ### C22: comments -/

/-- Some `#` of the comment is followed, after white space, by `novm` or `novermin`. -/
def Marks (comment : List Char) : Prop :=
  ∃ a ws w b, comment = a ++ '#' :: (ws ++ w ++ b) ∧ (∀ c ∈ ws, isSpace c = true) ∧ (w = "novm".toList ∨ w = "novermin".toList)

/-- The text begins with a mark, after white space. -/
def HeadMark (s : List Char) : Prop :=
  ∃ ws w b, s = ws ++ w ++ b ∧ (∀ c ∈ ws, isSpace c = true) ∧ (w = "novm".toList ∨ w = "novermin".toList)

theorem isMark_iff (s : List Char) : isMark s = true ↔ ∃ w b, s = w ++ b ∧ (w = "novm".toList ∨ w = "novermin".toList) := by
  simp only [isMark, Bool.or_eq_true, startsWith, List.isPrefixOf_iff_prefix]
  constructor
  · rintro (⟨b, h⟩ | ⟨b, h⟩)
    · exact ⟨_, b, h.symm, .inr rfl⟩
    · exact ⟨_, b, h.symm, .inl rfl⟩
  · rintro ⟨w, b, h, rfl | rfl⟩
    · exact .inr ⟨b, h.symm⟩
    · exact .inl ⟨b, h.symm⟩

theorem dropWhile_space_append {ws s : List Char} (h : ∀ c ∈ ws, isSpace c = true) :
    (ws ++ s).dropWhile isSpace = s.dropWhile isSpace := by
  induction ws with
  | nil => rfl
  | cons c ws ih =>
    simp only [List.cons_append, List.dropWhile_cons, h c (by simp), if_true]
    exact ih fun c hc => h c (by simp [hc])

theorem mem_takeWhile_imp' {p : Char → Bool} {s : List Char} {c : Char} (h : c ∈ s.takeWhile p) : p c = true :=
  of_mem_takeWhile h

theorem headMark_iff (s : List Char) : HeadMark s ↔ isMark (lstrip s) = true := by
  rw [isMark_iff]
  constructor
  · rintro ⟨ws, w, b, rfl, hws, hw⟩
    refine ⟨w, b, ?_, hw⟩
    rw [lstrip, List.append_assoc, dropWhile_space_append hws]
    rcases hw with rfl | rfl
    · rw [show "novm".toList = ['n', 'o', 'v', 'm'] from rfl, List.cons_append, List.dropWhile_cons, if_neg (by decide)]
    · rw [show "novermin".toList = ['n', 'o', 'v', 'e', 'r', 'm', 'i', 'n'] from rfl, List.cons_append, List.dropWhile_cons,
        if_neg (by decide)]
  · rintro ⟨w, b, h, hw⟩
    refine ⟨s.takeWhile isSpace, w, b, ?_, fun c hc => mem_takeWhile_imp' hc, hw⟩
    rw [List.append_assoc, ← h, lstrip, List.takeWhile_append_dropWhile]

theorem prefix_takeWhile {p : Char → Bool} {w : List Char} (hw : ∀ c ∈ w, p c = true) : ∀ (s : List Char),
    w <+: s.takeWhile p ↔ w <+: s := by
  induction w with
  | nil => intro s; simp
  | cons c w ih =>
    intro s
    cases s with
    | nil => simp
    | cons d s =>
      rw [List.takeWhile_cons]
      by_cases hd : p d = true
      · rw [if_pos hd, List.cons_prefix_cons, List.cons_prefix_cons, ih (fun c hc => hw c (by simp [hc]))]
      · rw [if_neg hd]
        constructor
        · intro h; simp at h
        · intro h
          obtain ⟨rfl, _⟩ := List.cons_prefix_cons.mp h
          exact absurd (hw c (by simp)) hd

theorem prefix_snoc_space {w s : List Char} {c : Char} (hc : isSpace c = true) (hw : ∀ x ∈ w, isSpace x = false) :
    w <+: s ++ [c] ↔ w <+: s := by
  rw [List.prefix_concat_iff]
  constructor
  · rintro (h | h)
    · have := hw c (by simp [h])
      rw [hc] at this; cases this
    · exact h
  · exact .inr

theorem prefix_append_spaces {w s ws : List Char} (hs : ∀ x ∈ ws, isSpace x = true) (hw : ∀ x ∈ w, isSpace x = false) :
    w <+: s ++ ws ↔ w <+: s := by
  induction ws generalizing s with
  | nil => simp
  | cons c ws ih =>
    rw [show s ++ c :: ws = (s ++ [c]) ++ ws by simp, ih (fun x hx => hs x (by simp [hx])),
      prefix_snoc_space (hs c (by simp)) hw]

theorem rstrip_split (s : List Char) : ∃ ws, s = rstrip s ++ ws ∧ ∀ c ∈ ws, isSpace c = true := by
  refine ⟨(s.reverse.takeWhile isSpace).reverse, ?_, fun c hc => mem_takeWhile_imp' (by simpa using hc)⟩
  have h := congrArg List.reverse (List.takeWhile_append_dropWhile (p := isSpace) (l := s.reverse))
  rw [List.reverse_append, List.reverse_reverse] at h
  exact h.symm

theorem prefix_rstrip {w s : List Char} (hw : ∀ x ∈ w, isSpace x = false) : w <+: rstrip s ↔ w <+: s := by
  obtain ⟨ws, h, hws⟩ := rstrip_split s
  conv => rhs; rw [h]
  exact (prefix_append_spaces hws hw).symm

theorem novm_no_space : ∀ x ∈ "novm".toList, isSpace x = false := by decide
theorem novermin_no_space : ∀ x ∈ "novermin".toList, isSpace x = false := by decide

theorem isMark_rstrip (s : List Char) : isMark (rstrip s) = isMark s := by
  rw [Bool.eq_iff_iff]
  simp only [isMark, Bool.or_eq_true, startsWith, List.isPrefixOf_iff_prefix]
  rw [prefix_rstrip novm_no_space, prefix_rstrip novermin_no_space]

theorem lstrip_takeWhile_hash (s : List Char) :
    lstrip (s.takeWhile (· != '#')) = (lstrip s).takeWhile (· != '#') := by
  unfold lstrip
  induction s with
  | nil => rfl
  | cons c s ih =>
    rw [List.takeWhile_cons]
    by_cases hc : c = '#'
    · subst hc
      rw [if_neg (by decide), List.dropWhile_cons, if_neg (by decide), List.takeWhile_cons, if_neg (by decide)]
      rfl
    · rw [if_pos (by simpa using hc), List.dropWhile_cons, List.dropWhile_cons]
      by_cases hs : isSpace c = true
      · rw [if_pos hs, if_pos hs, ih]
      · rw [if_neg hs, if_neg hs, List.takeWhile_cons, if_pos (by simpa using hc)]

/-- A segment up to the next `#` is a mark iff the text begins with one. -/
theorem segment_mark (s : List Char) : isMark (strip (s.takeWhile (· != '#'))) = true ↔ HeadMark s := by
  rw [headMark_iff, strip, isMark_rstrip, lstrip_takeWhile_hash]
  simp only [isMark, Bool.or_eq_true, startsWith, List.isPrefixOf_iff_prefix]
  rw [prefix_takeWhile (by decide), prefix_takeWhile (by decide)]

theorem splitOn_head (s : List Char) : ∃ ws, splitOn (· == '#') s = s.takeWhile (· != '#') :: ws := by
  induction s with
  | nil => exact ⟨[], rfl⟩
  | cons c s ih =>
    obtain ⟨ws, h⟩ := ih
    rw [splitOn, h, List.takeWhile_cons]
    by_cases hc : c = '#'
    · subst hc; exact ⟨_, rfl⟩
    · refine ⟨ws, ?_⟩
      rw [if_neg (by simpa using hc), if_pos (by simpa using hc)]

/-- Some segment of the text is a mark. -/
def SomeMark (s : List Char) : Prop := HeadMark s ∨ ∃ a b, s = a ++ '#' :: b ∧ HeadMark b

theorem any_segments (s : List Char) :
    ((splitOn (· == '#') s).any fun seg => isMark (strip seg)) = true ↔ SomeMark s := by
  induction s with
  | nil =>
    constructor
    · intro h; exact absurd h (by decide)
    · rintro (⟨ws, w, b, h, _, hw⟩ | ⟨a, b, h, _⟩)
      · rcases hw with rfl | rfl <;> simp at h
      · simp at h
  | cons c s ih =>
    by_cases hc : c = '#'
    · subst hc
      rw [splitOn, if_pos (by decide), List.any_cons, show isMark (strip []) = false by decide, Bool.false_or, ih]
      constructor
      · rintro (h | ⟨a, b, rfl, hh⟩)
        · exact .inr ⟨[], s, rfl, h⟩
        · exact .inr ⟨'#' :: a, b, rfl, hh⟩
      · rintro (h | ⟨a, b, h, hb⟩)
        · rw [headMark_iff, lstrip, List.dropWhile_cons, if_neg (by decide)] at h
          simp [isMark, startsWith] at h
        · cases a with
          | nil => cases h; exact .inl hb
          | cons x a =>
            simp only [List.cons_append, List.cons.injEq] at h
            exact .inr ⟨a, b, h.2, hb⟩
    · obtain ⟨ws, h⟩ := splitOn_head s
      have ih' := ih
      rw [h, List.any_cons, Bool.or_eq_true, segment_mark] at ih'
      rw [splitOn, if_neg (by simpa using hc), h]
      have e : c :: List.takeWhile (fun x => x != '#') s = (c :: s).takeWhile (· != '#') := by
        rw [List.takeWhile_cons, if_pos (by simpa using hc)]
      show (List.any ((c :: List.takeWhile (fun x => x != '#') s) :: ws) _) = true ↔ _
      rw [e, List.any_cons, Bool.or_eq_true, segment_mark]
      have key : (HeadMark s ∨ (ws.any fun seg => isMark (strip seg)) = true) ↔
          (HeadMark s ∨ ∃ a b, s = a ++ '#' :: b ∧ HeadMark b) := ih'
      have tail : (ws.any fun seg => isMark (strip seg)) = true ↔ ∃ a b, s = a ++ '#' :: b ∧ HeadMark b := by
        clear ih ih' key e
        induction s generalizing ws with
        | nil =>
          have : ws = [] := by simpa [splitOn] using h.symm
          subst this; simp
        | cons d s ih2 =>
          obtain ⟨ws', h'⟩ := splitOn_head s
          by_cases hd : d = '#'
          · subst hd
            rw [splitOn, if_pos (by decide), h', List.takeWhile_cons, if_neg (by decide)] at h
            have hws : ws = List.takeWhile (fun x => x != '#') s :: ws' := by simpa using h.symm
            rw [hws, List.any_cons, Bool.or_eq_true, segment_mark, ih2 ws' h']
            constructor
            · rintro (h | ⟨a, b, rfl, hh⟩)
              · exact ⟨[], s, rfl, h⟩
              · exact ⟨'#' :: a, b, rfl, hh⟩
            · rintro ⟨a, b, h, hb⟩
              cases a with
              | nil => cases h; exact .inl hb
              | cons x a =>
                simp only [List.cons_append, List.cons.injEq] at h
                exact .inr ⟨a, b, h.2, hb⟩
          · rw [splitOn, if_neg (by simpa using hd), h', List.takeWhile_cons, if_pos (by simpa using hd)] at h
            have hws : ws = ws' := by simpa using h.symm
            rw [hws, ih2 ws' h']
            constructor
            · rintro ⟨a, b, rfl, hh⟩
              exact ⟨d :: a, b, rfl, hh⟩
            · rintro ⟨a, b, h, hb⟩
              cases a with
              | nil => exact absurd (by simpa using congrArg List.head? h) hd
              | cons x a =>
                simp only [List.cons_append, List.cons.injEq] at h
                exact ⟨a, b, h.2, hb⟩
      rw [tail]
      constructor
      · rintro (h | ⟨a, b, rfl, hh⟩)
        · exact .inl h
        · exact .inr ⟨c :: a, b, rfl, hh⟩
      · rintro (h | ⟨a, b, h, hb⟩)
        · exact .inl h
        · cases a with
          | nil => exact absurd (by simpa using congrArg List.head? h) hc
          | cons x a =>
            simp only [List.cons_append, List.cons.injEq] at h
            exact .inr ⟨a, b, h.2, hb⟩

theorem headMark_snoc {s ws : List Char} (hs : ∀ c ∈ ws, isSpace c = true) : HeadMark (s ++ ws) ↔ HeadMark s := by
  constructor
  · rintro ⟨l, w, b, h, hl, hw⟩
    have hp : w <+: lstrip s := by
      have h1 : isMark (lstrip (s ++ ws)) = true := (headMark_iff _).mp ⟨l, w, b, h, hl, hw⟩
      have h2 : w <+: lstrip (s ++ ws) := by
        rw [h, lstrip, List.append_assoc, dropWhile_space_append hl]
        rcases hw with rfl | rfl
        · rw [show "novm".toList = ['n', 'o', 'v', 'm'] from rfl, List.cons_append, List.dropWhile_cons, if_neg (by decide)]
          exact ⟨b, rfl⟩
        · rw [show "novermin".toList = ['n', 'o', 'v', 'e', 'r', 'm', 'i', 'n'] from rfl, List.cons_append,
            List.dropWhile_cons, if_neg (by decide)]
          exact ⟨b, rfl⟩
      have hsp : ∀ x ∈ w, isSpace x = false := by
        rcases hw with rfl | rfl
        · exact novm_no_space
        · exact novermin_no_space
      clear h1 h
      unfold lstrip at *
      induction s with
      | nil =>
        rw [List.nil_append] at h2
        have : ws.dropWhile isSpace = [] := by
          have := dropWhile_space_append (s := []) hs
          simpa using this
        rw [this] at h2
        simpa using h2
      | cons c s ih =>
        rw [List.cons_append, List.dropWhile_cons] at h2
        rw [List.dropWhile_cons]
        by_cases hc : isSpace c = true
        · rw [if_pos hc] at h2 ⊢; exact ih h2
        · rw [if_neg hc] at h2 ⊢
          exact (prefix_append_spaces (s := c :: s) hs hsp).mp h2
    obtain ⟨r, hr⟩ := hp
    exact (headMark_iff _).mpr ((isMark_iff _).mpr ⟨w, r, hr.symm, hw⟩)
  · rintro ⟨l, w, b, rfl, hl, hw⟩
    exact ⟨l, w, b ++ ws, by simp, hl, hw⟩

theorem headMark_cons {s : List Char} {c : Char} (hc : isSpace c = true) : HeadMark (c :: s) ↔ HeadMark s := by
  rw [headMark_iff, headMark_iff, lstrip, List.dropWhile_cons, if_pos hc]; rfl

theorem someMark_lstrip (s : List Char) : SomeMark (lstrip s) ↔ SomeMark s := by
  unfold lstrip
  induction s with
  | nil => rfl
  | cons c s ih =>
    rw [List.dropWhile_cons]
    by_cases hc : isSpace c = true
    · rw [if_pos hc, ih, SomeMark, SomeMark, headMark_cons hc]
      refine or_congr Iff.rfl ⟨?_, ?_⟩
      · rintro ⟨a, b, rfl, h⟩; exact ⟨c :: a, b, rfl, h⟩
      · rintro ⟨a, b, h, hb⟩
        cases a with
        | nil =>
          have : c = '#' := by simpa using congrArg List.head? h
          subst this; exact absurd hc (by decide)
        | cons x a =>
          simp only [List.cons_append, List.cons.injEq] at h
          exact ⟨a, b, h.2, hb⟩
    · rw [if_neg hc]

theorem someMark_spaces {s ws : List Char} (hs : ∀ c ∈ ws, isSpace c = true) : SomeMark (s ++ ws) ↔ SomeMark s := by
  rw [SomeMark, SomeMark, headMark_snoc hs]
  refine or_congr Iff.rfl ⟨?_, ?_⟩
  · rintro ⟨a, b, h, hb⟩
    rcases List.append_eq_append_iff.mp h with ⟨t, h1, h2⟩ | ⟨t, h1, h2⟩
    · have : '#' ∈ ws := by rw [h2]; simp
      exact absurd (hs _ this) (by decide)
    · cases t with
      | nil =>
        rw [List.nil_append] at h2
        have : '#' ∈ ws := by rw [← h2]; simp
        exact absurd (hs _ this) (by decide)
      | cons x t =>
        simp only [List.cons_append, List.cons.injEq] at h2
        obtain ⟨rfl, rfl⟩ := h2
        exact ⟨a, t, h1, (headMark_snoc hs).mp hb⟩
  · rintro ⟨a, b, rfl, hb⟩
    exact ⟨a, b ++ ws, by simp, (headMark_snoc hs).mpr hb⟩

/-- The test of the program on a comment is the specified one. -/
theorem hasMark_iff {comment : List Char} (h : comment.head? = some '#') : hasMark comment = true ↔ Marks comment := by
  cases comment with
  | nil => simp at h
  | cons c r =>
    have : c = '#' := by simpa using h
    subst this
    rw [hasMark, any_segments, List.drop_succ_cons, List.drop_zero, strip]
    obtain ⟨ws, e, hws⟩ := rstrip_split (lstrip r)
    rw [← someMark_spaces hws, ← e, someMark_lstrip]
    constructor
    · rintro (⟨ws, w, b, rfl, h1, h2⟩ | ⟨a, b, rfl, ws, w, b', rfl, h1, h2⟩)
      · exact ⟨[], ws, w, b, rfl, h1, h2⟩
      · exact ⟨'#' :: a, ws, w, b', by simp, h1, h2⟩
    · rintro ⟨a, ws, w, b, h, h1, h2⟩
      cases a with
      | nil =>
        simp only [List.nil_append, List.cons.injEq, true_and] at h
        exact .inl ⟨ws, w, b, h, h1, h2⟩
      | cons x a =>
        simp only [List.cons_append, List.cons.injEq] at h
        exact .inr ⟨a, _, h.2, ws, w, b, rfl, h1, h2⟩

/-- A string token that begins and ends with three quotes (of one kind), white space aside. -/
def IsTriple (t : Tok) : Prop :=
  t.type = .string ∧ ∃ q, (q = '"' ∨ q = '\'') ∧ [q, q, q] <+: strip t.text ∧ [q, q, q] <:+ strip t.text

theorem isTripleQuoted_iff (s : List Char) :
    isTripleQuoted s = true ↔ ∃ q, (q = '"' ∨ q = '\'') ∧ [q, q, q] <+: strip s ∧ [q, q, q] <:+ strip s := by
  simp only [isTripleQuoted, startsWith, endsWith, Bool.or_eq_true, Bool.and_eq_true, List.isPrefixOf_iff_prefix,
    List.isSuffixOf_iff_suffix]
  constructor
  · rintro (h | h)
    · exact ⟨'"', .inl rfl, h⟩
    · exact ⟨'\'', .inr rfl, h⟩
  · rintro ⟨q, rfl | rfl, h⟩
    · exact .inl h
    · exact .inr h

/-- The comment `t`, preceded by the tokens `pre`, stands alone: in the first column, or right after the end of a line. -/
def Alone (pre : List Tok) (t : Tok) : Prop :=
  t.col = 0 ∨ ∃ p u, pre = p ++ [u] ∧ (u.type = .newline ∨ u.type = .nl)

/-- `s` is the last triple-quoted string before the comment `t` with no other comment in between, and it ends on the
line of the comment. -/
def Trails (pre : List Tok) (t s : Tok) : Prop :=
  ∃ p q, pre = p ++ s :: q ∧ IsTriple s ∧ s.endLine = t.line ∧ ∀ u ∈ q, u.type ≠ .comment ∧ ¬ IsTriple u

/-- The line a comment is about: the first line of the triple-quoted string it trails, else its own. -/
def About (pre : List Tok) (t : Tok) (l : Nat) : Prop :=
  (∃ s, Trails pre t s ∧ l = s.line) ∨ ((∀ s, ¬ Trails pre t s) ∧ l = t.line)

/-- What `multiline` is after the tokens `pre`. -/
def MultilineOf (pre : List Tok) : Option (Nat × Nat) → Prop
  | some (a, b) => ∃ p s q, pre = p ++ s :: q ∧ IsTriple s ∧ a = s.line ∧ b = s.endLine ∧ ∀ u ∈ q, u.type ≠ .comment ∧ ¬ IsTriple u
  | none => ∀ p s q, pre = p ++ s :: q → IsTriple s → ∃ u ∈ q, u.type = .comment ∨ IsTriple u

/-- `n` is marked by one of the comments in `toks` that follow `pre`. -/
def MarkedBy (toks : List Tok) (n : Nat) : Prop :=
  ∃ pre t post, toks = pre ++ t :: post ∧ t.type = .comment ∧ Marks t.text ∧
    ∃ l, About pre t l ∧ ((Alone pre t ∧ n = l + 1) ∨ (¬ Alone pre t ∧ n = l))

theorem multiline_cons_other {pre : List Tok} {t : Tok} {m : Option (Nat × Nat)} (h : MultilineOf pre m) (h1 : t.type ≠ .comment)
    (h2 : ¬ IsTriple t) : MultilineOf (pre ++ [t]) m := by
  cases m with
  | none =>
    intro p s q e hs
    rcases List.append_eq_append_iff.mp e with ⟨a, e1, e2⟩ | ⟨a, e1, e2⟩
    · cases a with
      | nil =>
        simp only [List.nil_append] at e2
        have : t = s := by simpa using congrArg List.head? e2
        subst this; exact absurd hs h2
      | cons x a => simp at e2
    · cases a with
      | nil =>
        simp only [List.nil_append] at e2
        have : s = t := by simpa using congrArg List.head? e2
        subst this; exact absurd hs h2
      | cons x a =>
        simp only [List.cons_append, List.cons.injEq] at e2
        obtain ⟨rfl, rfl⟩ := e2
        obtain ⟨u, hu, h⟩ := h p s a e1 hs
        exact ⟨u, by simp [hu], h⟩
  | some ab =>
    obtain ⟨a, b⟩ := ab
    obtain ⟨p, s, q, rfl, hs, ha, hb, hq⟩ := h
    refine ⟨p, s, q ++ [t], by simp, hs, ha, hb, ?_⟩
    intro u hu
    rcases List.mem_append.mp hu with hu | hu
    · exact hq u hu
    · have : u = t := by simpa using hu
      subst this; exact ⟨h1, h2⟩

theorem multiline_comment {pre : List Tok} {t : Tok} (h : t.type = .comment) : MultilineOf (pre ++ [t]) none := by
  intro p s q e hs
  rcases List.append_eq_append_iff.mp e with ⟨a, e1, e2⟩ | ⟨a, e1, e2⟩
  · cases a with
    | nil =>
      simp only [List.nil_append] at e2
      have : t = s := by simpa using congrArg List.head? e2
      subst this; rw [hs.1] at h; cases h
    | cons x a => simp at e2
  · cases a with
    | nil =>
      simp only [List.nil_append] at e2
      have : s = t := by simpa using congrArg List.head? e2
      subst this; rw [hs.1] at h; cases h
    | cons x a =>
      simp only [List.cons_append, List.cons.injEq] at e2
      obtain ⟨rfl, rfl⟩ := e2
      exact ⟨t, by simp, .inl h⟩

/-- At most one string is trailed. -/
theorem last_triple_unique {pre p q p' q' : List Tok} {s s' : Tok} (e : pre = p ++ s :: q) (e' : pre = p' ++ s' :: q')
    (hs : IsTriple s) (hs' : IsTriple s') (hq : ∀ u ∈ q, u.type ≠ .comment ∧ ¬ IsTriple u)
    (hq' : ∀ u ∈ q', u.type ≠ .comment ∧ ¬ IsTriple u) : s = s' := by
  rw [e] at e'
  rcases List.append_eq_append_iff.mp e' with ⟨a, e1, e2⟩ | ⟨a, e1, e2⟩
  · cases a with
    | nil => simp only [List.nil_append, List.cons.injEq] at e2; exact e2.1
    | cons x a =>
      simp only [List.cons_append, List.cons.injEq] at e2
      exact absurd hs' (hq s' (by rw [e2.2]; simp)).2
  · cases a with
    | nil => simp only [List.nil_append, List.cons.injEq] at e2; exact e2.1.symm
    | cons x a =>
      simp only [List.cons_append, List.cons.injEq] at e2
      exact absurd hs (hq' s (by rw [e2.2]; simp)).2

theorem commentLine_about {pre : List Tok} {t : Tok} {m : Option (Nat × Nat)} (h : MultilineOf pre m) (l : Nat) :
    About pre t l ↔ l = commentLine m t.line := by
  cases m with
  | none =>
    have hno : ∀ s, ¬ Trails pre t s := by
      rintro s ⟨p, q, e, hs, _, hq⟩
      obtain ⟨u, hu, hu'⟩ := h p s q e hs
      rcases hu' with hu' | hu'
      · exact (hq u hu).1 hu'
      · exact (hq u hu).2 hu'
    simp only [About, commentLine]
    constructor
    · rintro (⟨s, hs, _⟩ | ⟨_, h⟩)
      · exact absurd hs (hno s)
      · exact h
    · intro h; exact .inr ⟨hno, h⟩
  | some ab =>
    obtain ⟨a, b⟩ := ab
    obtain ⟨p, s, q, e, hs, rfl, rfl, hq⟩ := h
    simp only [About, commentLine]
    by_cases hb : s.endLine = t.line
    · rw [if_pos hb]
      have ht : Trails pre t s := ⟨p, q, e, hs, hb, hq⟩
      constructor
      · rintro (⟨s', ⟨p', q', e', hs', _, hq'⟩, rfl⟩ | ⟨h, _⟩)
        · rw [last_triple_unique e e' hs hs' hq hq']
        · exact absurd ht (h s)
      · rintro rfl; exact .inl ⟨s, ht, rfl⟩
    · rw [if_neg hb]
      have hno : ∀ s, ¬ Trails pre t s := by
        rintro s' ⟨p', q', e', hs', hb', hq'⟩
        rw [← last_triple_unique e e' hs hs' hq hq'] at hb'
        exact hb hb'
      constructor
      · rintro (⟨s, hs, _⟩ | ⟨_, h⟩)
        · exact absurd hs (hno s)
        · exact h
      · intro h; exact .inr ⟨hno, h⟩

theorem mem_addLine {l : List Nat} {a n : Nat} : n ∈ addLine l a ↔ n ∈ l ∨ n = a := by
  unfold addLine
  split
  · rename_i h
    constructor
    · exact .inl
    · rintro (h' | rfl)
      · exact h'
      · simpa using h
  · simp

/-- The invariant of the loop. -/
structure CommentInv (pre : List Tok) (st : CommentState) : Prop where
  newline : st.prevNewline = true ↔ ∃ p u, pre = p ++ [u] ∧ (u.type = .newline ∨ u.type = .nl)
  multiline : MultilineOf pre st.multiline

theorem alone_iff {pre : List Tok} {st : CommentState} (h : CommentInv pre st) (t : Tok) :
    Alone pre t ↔ (st.prevNewline || decide (t.col = 0)) = true := by
  rw [Alone, ← h.newline]; simp [or_comm]

theorem snoc_newline {pre : List Tok} {t : Tok} :
    (decide (t.type = .newline) || decide (t.type = .nl)) = true ↔
      ∃ p u, pre ++ [t] = p ++ [u] ∧ (u.type = .newline ∨ u.type = .nl) := by
  simp only [Bool.or_eq_true, decide_eq_true_eq]
  constructor
  · intro h; exact ⟨pre, t, rfl, h⟩
  · rintro ⟨p, u, e, h⟩
    have : t = u := by simpa using congrArg List.getLast? e
    rw [this]; exact h

theorem commentStep_inv {pre : List Tok} {st : CommentState} (h : CommentInv pre st) (t : Tok) :
    CommentInv (pre ++ [t]) (commentStep st t) := by
  unfold commentStep
  split
  · rename_i ht
    refine ⟨snoc_newline, ?_⟩
    show MultilineOf _ (if isTripleQuoted t.text then some (t.line, t.endLine) else st.multiline)
    split
    · rename_i hq
      exact ⟨pre, t, [], rfl, ⟨ht, (isTripleQuoted_iff _).mp hq⟩, rfl, rfl, by simp⟩
    · rename_i hq
      exact multiline_cons_other h.multiline (by rw [ht]; decide) (fun h => hq ((isTripleQuoted_iff _).mpr h.2))
  · rename_i ht
    exact ⟨snoc_newline, multiline_comment ht⟩
  · rename_i h1 h2
    exact ⟨snoc_newline, multiline_cons_other h.multiline h2 (fun h => h1 h.1)⟩

theorem fold_marked : ∀ (toks pre : List Tok) (st : CommentState), CommentInv pre st →
    (∀ t ∈ toks, t.type = .comment → t.text.head? = some '#') → ∀ n,
    (n ∈ (toks.foldl commentStep st).marked ↔ n ∈ st.marked ∨
      ∃ p t q, toks = p ++ t :: q ∧ t.type = .comment ∧ Marks t.text ∧
        ∃ l, About (pre ++ p) t l ∧ ((Alone (pre ++ p) t ∧ n = l + 1) ∨ (¬ Alone (pre ++ p) t ∧ n = l)))
  | [], pre, st, h, _, n => by simp
  | t :: toks, pre, st, h, hc, n => by
    rw [List.foldl_cons, fold_marked toks (pre ++ [t]) _ (commentStep_inv h t) (fun u hu => hc u (by simp [hu]))]
    have hstep : n ∈ (commentStep st t).marked ↔ n ∈ st.marked ∨ (t.type = .comment ∧ Marks t.text ∧
        ∃ l, About pre t l ∧ ((Alone pre t ∧ n = l + 1) ∨ (¬ Alone pre t ∧ n = l))) := by
      unfold commentStep
      split
      · rename_i ht; simp [ht]
      · rename_i ht
        simp only [ht, true_and]
        by_cases hm : hasMark t.text = true
        · rw [if_pos hm, mem_addLine]
          have hM := (hasMark_iff (hc t (by simp) ht)).mp hm
          refine or_congr Iff.rfl ?_
          constructor
          · intro hn
            refine ⟨hM, _, (commentLine_about h.multiline _).mpr rfl, ?_⟩
            rw [alone_iff h]
            split at hn
            · rename_i ha; exact .inl ⟨ha, hn⟩
            · rename_i ha; exact .inr ⟨ha, hn⟩
          · rintro ⟨_, l, hl, hn⟩
            rw [(commentLine_about h.multiline _).mp hl, alone_iff h] at hn
            rcases hn with ⟨ha, hn⟩ | ⟨ha, hn⟩
            · rw [if_pos ha]; exact hn
            · rw [if_neg ha]; exact hn
        · rw [if_neg hm]
          constructor
          · exact .inl
          · rintro (h' | ⟨hM, _⟩)
            · exact h'
            · exact absurd ((hasMark_iff (hc t (by simp) ht)).mpr hM) hm
      · rename_i h1 h2
        constructor
        · exact .inl
        · rintro (h' | ⟨ht, _⟩)
          · exact h'
          · exact absurd ht h2
    rw [hstep]
    constructor
    · rintro ((h' | ⟨h1, h2, h3⟩) | ⟨p, u, q, rfl, h1, h2, h3⟩)
      · exact .inl h'
      · exact .inr ⟨[], t, toks, rfl, h1, h2, by simpa using h3⟩
      · exact .inr ⟨t :: p, u, q, rfl, h1, h2, by simpa using h3⟩
    · rintro (h' | ⟨p, u, q, e, h1, h2, h3⟩)
      · exact .inl (.inl h')
      · cases p with
        | nil =>
          simp only [List.nil_append, List.cons.injEq] at e
          obtain ⟨rfl, rfl⟩ := e
          exact .inl (.inr ⟨h1, h2, by simpa using h3⟩)
        | cons x p =>
          simp only [List.cons_append, List.cons.injEq] at e
          obtain ⟨rfl, rfl⟩ := e
          exact .inr ⟨p, u, q, rfl, h1, h2, by simpa using h3⟩

/-- C22: a line is marked iff some comment with a mark is about it: trailing on it (or on the end of a triple-quoted string
that begins on it), or alone on the line before it.  Comment tokens begin with `#`. -/
theorem C22_comments (toks : List Tok) (h : ∀ t ∈ toks, t.type = .comment → t.text.head? = some '#') (n : Nat) :
    n ∈ comments toks ↔ MarkedBy toks n := by
  have hinv : CommentInv [] ⟨false, none, []⟩ := by
    refine ⟨?_, ?_⟩
    · simp
    · intro p s q e; simp at e
  rw [comments, fold_marked toks [] _ hinv h n]
  simp [MarkedBy]

/-- Example tokens: a comment after a triple-quoted string of lines 3 to 5, and a comment alone on line 8. -/
def exampleToks : List Tok :=
  [⟨.other, "x".toList, 3, 0, 3⟩, ⟨.string, "\"\"\"a\nb\n\"\"\"".toList, 3, 4, 5⟩, ⟨.comment, "# pylint: x # novm".toList, 5, 5, 5⟩,
   ⟨.newline, "\n".toList, 5, 20, 5⟩, ⟨.comment, "# novermin".toList, 8, 4, 8⟩, ⟨.nl, "\n".toList, 8, 20, 8⟩,
   ⟨.other, "y".toList, 9, 0, 9⟩, ⟨.comment, "# nov m".toList, 9, 5, 9⟩]

theorem C22_witness : comments exampleToks = [3, 9] ∧ ∀ t ∈ exampleToks, t.type = .comment → t.text.head? = some '#' := by
  decide

/-! ### C23: syntax errors -/

/-- A non-empty text of white space. -/
def Spaces (s : List Char) : Prop := s ≠ [] ∧ ∀ c ∈ s, isSpace c = true

/-- A text that begins like a type alias statement: `type NAME = X` or `type NAME [PARAMS] = X`. -/
def AliasText (s : List Char) : Prop :=
  ∃ s1 name s2 params s3 c rest, s = "type".toList ++ s1 ++ name ++ s2 ++ params ++ '=' :: s3 ++ c :: rest ∧
    Spaces s1 ∧ (name ≠ [] ∧ ∀ c ∈ name, isWord c = true) ∧ Spaces s2 ∧ Spaces s3 ∧ c ≠ '\n' ∧
    (params = [] ∨ ∃ inner s4, params = '[' :: (inner ++ ']' :: s4) ∧ inner ≠ [] ∧ '\n' ∉ inner ∧ Spaces s4)

theorem spaceThenAny_iff (s : List Char) : spaceThenAny s = true ↔ ∃ ws c rest, s = ws ++ c :: rest ∧ (∀ c ∈ ws, isSpace c = true) ∧ c ≠ '\n' := by
  induction s with
  | nil => simp [spaceThenAny]
  | cons d s ih =>
    simp only [spaceThenAny, Bool.or_eq_true, Bool.and_eq_true, bne_iff_ne, ih]
    constructor
    · rintro (h | ⟨h, ws, c, rest, rfl, h1, h2⟩)
      · exact ⟨[], d, s, rfl, by simp, h⟩
      · refine ⟨d :: ws, c, rest, rfl, ?_, h2⟩
        intro x hx
        rcases List.mem_cons.mp hx with rfl | hx
        · exact h
        · exact h1 x hx
    · rintro ⟨ws, c, rest, e, h1, h2⟩
      cases ws with
      | nil =>
        simp only [List.nil_append, List.cons.injEq] at e
        rw [e.1]; exact .inl h2
      | cons x ws =>
        simp only [List.cons_append, List.cons.injEq] at e
        obtain ⟨rfl, rfl⟩ := e
        exact .inr ⟨h1 _ (by simp), ws, c, rest, rfl, fun y hy => h1 y (by simp [hy]), h2⟩

/-- `=\s+.+` -/
def AliasTail (s : List Char) : Prop := ∃ s3 c rest, s = '=' :: s3 ++ c :: rest ∧ Spaces s3 ∧ c ≠ '\n'

theorem aliasTail_iff (s : List Char) : aliasTail s = true ↔ AliasTail s := by
  unfold aliasTail
  split
  · rename_i c cs
    rw [Bool.and_eq_true, spaceThenAny_iff]
    constructor
    · rintro ⟨hc, ws, d, rest, rfl, h1, h2⟩
      refine ⟨c :: ws, d, rest, by simp, ⟨by simp, ?_⟩, h2⟩
      intro x hx
      rcases List.mem_cons.mp hx with rfl | hx
      · exact hc
      · exact h1 x hx
    · rintro ⟨s3, d, rest, e, ⟨hne, hs⟩, hd⟩
      cases s3 with
      | nil => exact absurd rfl hne
      | cons x s3 =>
        simp only [List.cons_append, List.cons.injEq, true_and] at e
        obtain ⟨rfl, rfl⟩ := e
        exact ⟨hs c (by simp), s3, d, rest, rfl, fun y hy => hs y (by simp [hy]), hd⟩
  · rename_i hno
    constructor
    · intro h; cases h
    · rintro ⟨s3, d, rest, e, ⟨hne, hs⟩, hd⟩
      cases s3 with
      | nil => exact absurd rfl hne
      | cons x s3 => exact absurd e (hno x (s3 ++ d :: rest))

theorem dropWhile_stop {p : Char → Bool} {ws s : List Char} (hws : ∀ c ∈ ws, p c = true) (hs : ∀ c, s.head? = some c → p c = false) :
    (ws ++ s).dropWhile p = s := by
  induction ws with
  | nil =>
    cases s with
    | nil => rfl
    | cons c s => rw [List.nil_append, List.dropWhile_cons, if_neg (by rw [hs c rfl]; decide)]
  | cons c ws ih =>
    rw [List.cons_append, List.dropWhile_cons, if_pos (hws c (by simp))]
    exact ih fun c hc => hws c (by simp [hc])

/-- A run of characters before something that starts differently. -/
theorem dropWhile_run {p : Char → Bool} {P : List Char → Prop} (hP : ∀ s c, P s → s.head? = some c → p c = false) (s : List Char) :
    P (s.dropWhile p) ↔ ∃ ws r, s = ws ++ r ∧ (∀ c ∈ ws, p c = true) ∧ P r := by
  constructor
  · intro h
    exact ⟨s.takeWhile p, s.dropWhile p, by rw [List.takeWhile_append_dropWhile], fun c hc => mem_takeWhile_imp' hc, h⟩
  · rintro ⟨ws, r, rfl, hws, hr⟩
    rwa [dropWhile_stop hws fun c hc => hP r c hr hc]

theorem aliasTail_head {s : List Char} {c : Char} (h : AliasTail s) (hc : s.head? = some c) : isSpace c = false := by
  obtain ⟨s3, d, rest, rfl, _⟩ := h
  have : c = '=' := by simpa using hc.symm
  subst this; decide

theorem aliasSpaceTail_iff (s : List Char) : aliasSpaceTail s = true ↔ ∃ s4 r, s = s4 ++ r ∧ Spaces s4 ∧ AliasTail r := by
  cases s with
  | nil =>
    constructor
    · intro h; cases h
    · rintro ⟨s4, r, e, h, _⟩
      have := (List.append_eq_nil_iff.mp e.symm).1
      exact absurd this h.1
  | cons c cs =>
    rw [aliasSpaceTail, Bool.and_eq_true, aliasTail_iff, dropWhile_run (P := AliasTail) (fun s c h hc => aliasTail_head h hc)]
    constructor
    · rintro ⟨hc, ws, r, rfl, h1, h2⟩
      refine ⟨c :: ws, r, rfl, ⟨by simp, ?_⟩, h2⟩
      intro x hx
      rcases List.mem_cons.mp hx with rfl | hx
      · exact hc
      · exact h1 x hx
    · rintro ⟨s4, r, e, ⟨hne, hs⟩, hr⟩
      cases s4 with
      | nil => exact absurd rfl hne
      | cons x s4 =>
        simp only [List.cons_append, List.cons.injEq] at e
        obtain ⟨rfl, rfl⟩ := e
        exact ⟨hs c (by simp), s4, r, rfl, fun y hy => hs y (by simp [hy]), hr⟩

theorem aliasParams_iff (s : List Char) : aliasParams s = true ↔
    ∃ inner s4 r, s = inner ++ ']' :: (s4 ++ r) ∧ '\n' ∉ inner ∧ Spaces s4 ∧ AliasTail r := by
  induction s with
  | nil => simp [aliasParams]
  | cons c s ih =>
    simp only [aliasParams, Bool.or_eq_true, Bool.and_eq_true, beq_iff_eq, bne_iff_ne, ih, aliasSpaceTail_iff]
    constructor
    · rintro (⟨rfl, s4, r, rfl, h1, h2⟩ | ⟨hc, inner, s4, r, rfl, h0, h1, h2⟩)
      · exact ⟨[], s4, r, rfl, by simp, h1, h2⟩
      · exact ⟨c :: inner, s4, r, rfl, by simp [h0, Ne.symm hc], h1, h2⟩
    · rintro ⟨inner, s4, r, e, h0, h1, h2⟩
      cases inner with
      | nil =>
        simp only [List.nil_append, List.cons.injEq] at e
        obtain ⟨rfl, rfl⟩ := e
        exact .inl ⟨rfl, s4, r, rfl, h1, h2⟩
      | cons x inner =>
        simp only [List.cons_append, List.cons.injEq] at e
        obtain ⟨rfl, rfl⟩ := e
        simp only [List.mem_cons, not_or] at h0
        exact .inr ⟨fun h => h0.1 h.symm, inner, s4, r, rfl, h0.2, h1, h2⟩

/-- What follows the name and white space. -/
def AliasRest (s : List Char) : Prop :=
  AliasTail s ∨ ∃ inner s4 r, s = '[' :: (inner ++ ']' :: (s4 ++ r)) ∧ inner ≠ [] ∧ '\n' ∉ inner ∧ Spaces s4 ∧ AliasTail r

theorem aliasRest_iff (s : List Char) : aliasRest s = true ↔ AliasRest s := by
  unfold aliasRest
  split
  · rename_i c cs
    rw [Bool.and_eq_true, bne_iff_ne, aliasParams_iff]
    constructor
    · rintro ⟨hc, inner, s4, r, rfl, h0, h1, h2⟩
      exact .inr ⟨c :: inner, s4, r, rfl, by simp, by simp [h0, Ne.symm hc], h1, h2⟩
    · rintro (⟨s3, d, rest, e, _⟩ | ⟨inner, s4, r, e, hne, h0, h1, h2⟩)
      · simp at e
      · cases inner with
        | nil => exact absurd rfl hne
        | cons x inner =>
          simp only [List.cons_append, List.cons.injEq, true_and] at e
          obtain ⟨rfl, rfl⟩ := e
          simp only [List.mem_cons, not_or] at h0
          exact ⟨fun h => h0.1 h.symm, inner, s4, r, rfl, h0.2, h1, h2⟩
  · rename_i hno
    rw [aliasTail_iff]
    constructor
    · exact .inl
    · rintro (h | ⟨inner, s4, r, e, hne, _⟩)
      · exact h
      · cases inner with
        | nil => exact absurd rfl hne
        | cons x inner => exact absurd e (hno x _)

theorem word_not_space {c : Char} (h : isWord c = true) : isSpace c = false := by
  simp only [isWord, isDigit, isSpace, Bool.or_eq_true, Bool.and_eq_true, decide_eq_true_eq, beq_iff_eq] at *
  have key : (48 ≤ c.toNat ∧ c.toNat ≤ 57) ∨ (65 ≤ c.toNat ∧ c.toNat ≤ 90) ∨ (97 ≤ c.toNat ∧ c.toNat ≤ 122) ∨ c.toNat = 95 := by
    rcases h with ((h | h) | h) | h
    · exact .inl h
    · exact .inr (.inl h)
    · exact .inr (.inr (.inl h))
    · subst h; exact .inr (.inr (.inr rfl))
  generalize c.toNat = n at key
  simp only [Bool.or_eq_false_iff, Bool.and_eq_false_iff, decide_eq_false_iff_not, beq_eq_false_iff_ne]
  omega

theorem space_not_word {c : Char} (h : isSpace c = true) : isWord c = false := by
  cases hw : isWord c with
  | false => rfl
  | true => rw [word_not_space hw] at h; cases h

theorem aliasRest_head {s : List Char} {c : Char} (h : AliasRest s) (hc : s.head? = some c) : isSpace c = false := by
  rcases h with h | ⟨inner, s4, r, rfl, _⟩
  · exact aliasTail_head h hc
  · have : c = '[' := by simpa using hc.symm
    subst this; decide

/-- The recogniser of the program is the specified one. -/
theorem isTypeAliasText_iff (s : List Char) : isTypeAliasText s = true ↔ AliasText s := by
  constructor
  · intro h
    simp only [isTypeAliasText, Bool.and_eq_true, startsWith, List.isPrefixOf_iff_prefix] at h
    obtain ⟨⟨r, rfl⟩, h⟩ := h
    rw [List.drop_left' (by decide)] at h
    split at h
    · rename_i c cs
      obtain ⟨hc, h⟩ := by simpa using h
      split at h
      · rename_i w ws hw
        obtain ⟨hw1, h⟩ := by simpa using h
        split at h
        · rename_i d ds hd
          obtain ⟨hd1, h⟩ := by simpa using h
          rw [aliasRest_iff] at h
          have e1 : cs = cs.takeWhile isSpace ++ w :: ws := by rw [← hw, List.takeWhile_append_dropWhile]
          have e2 : ws = ws.takeWhile isWord ++ d :: ds := by rw [← hd, List.takeWhile_append_dropWhile]
          have e3 : ds = ds.takeWhile isSpace ++ ds.dropWhile isSpace := by rw [List.takeWhile_append_dropWhile]
          have hs1 : Spaces (c :: cs.takeWhile isSpace) := ⟨by simp, by
            intro x hx
            rcases List.mem_cons.mp hx with rfl | hx
            · exact hc
            · exact mem_takeWhile_imp' hx⟩
          have hname : (w :: ws.takeWhile isWord) ≠ [] ∧ ∀ c ∈ (w :: ws.takeWhile isWord), isWord c = true := ⟨by simp, by
            intro x hx
            rcases List.mem_cons.mp hx with rfl | hx
            · exact hw1
            · exact mem_takeWhile_imp' hx⟩
          have hs2 : Spaces (d :: ds.takeWhile isSpace) := ⟨by simp, by
            intro x hx
            rcases List.mem_cons.mp hx with rfl | hx
            · exact hd1
            · exact mem_takeWhile_imp' hx⟩
          have e : c :: cs = (c :: cs.takeWhile isSpace) ++ (w :: ws.takeWhile isWord) ++ (d :: ds.takeWhile isSpace) ++
              ds.dropWhile isSpace := by
            calc c :: cs = c :: (cs.takeWhile isSpace ++ w :: ws) := by rw [← e1]
              _ = c :: (cs.takeWhile isSpace ++ w :: (ws.takeWhile isWord ++ d :: ds)) := by rw [← e2]
              _ = c :: (cs.takeWhile isSpace ++ w :: (ws.takeWhile isWord ++ d :: (ds.takeWhile isSpace ++ ds.dropWhile isSpace))) := by
                  rw [← e3]
              _ = _ := by simp
          rcases h with ⟨s3, x, rest, hx, h3, hn⟩ | ⟨inner, s4, r, hx, hi, hin, h4, s3, x, rest, rfl, h3, hn⟩
          · refine ⟨_, _, _, [], s3, x, rest, ?_, hs1, hname, hs2, h3, hn, .inl rfl⟩
            rw [e, hx]; simp
          · refine ⟨_, _, _, '[' :: (inner ++ ']' :: s4), s3, x, rest, ?_, hs1, hname, hs2, h3, hn, .inr ⟨inner, s4, rfl, hi, hin, h4⟩⟩
            rw [e, hx]; simp
        · cases h
      · cases h
    · cases h
  · rintro ⟨s1, name, s2, params, s3, c, rest, rfl, ⟨h1n, h1⟩, ⟨hnn, hn⟩, ⟨h2n, h2⟩, h3, hc, hp⟩
    have hrest : AliasRest (params ++ '=' :: s3 ++ c :: rest) := by
      rcases hp with rfl | ⟨inner, s4, rfl, hi, hin, h4⟩
      · exact .inl ⟨s3, c, rest, by simp, h3, hc⟩
      · exact .inr ⟨inner, s4, '=' :: s3 ++ c :: rest, by simp, hi, hin, h4, s3, c, rest, rfl, h3, hc⟩
    cases s1 with
    | nil => exact absurd rfl h1n
    | cons a s1 =>
    cases name with
    | nil => exact absurd rfl hnn
    | cons w name =>
    cases s2 with
    | nil => exact absurd rfl h2n
    | cons d s2 =>
    generalize hR : params ++ '=' :: s3 ++ c :: rest = R at hrest
    have e : "type".toList ++ (a :: s1) ++ (w :: name) ++ (d :: s2) ++ params ++ '=' :: s3 ++ c :: rest =
        "type".toList ++ (a :: (s1 ++ (w :: (name ++ (d :: (s2 ++ R)))))) := by rw [← hR]; simp
    rw [e, isTypeAliasText, startsWith, List.drop_left' (by decide), Bool.and_eq_true]
    refine ⟨List.isPrefixOf_iff_prefix.mpr ⟨_, rfl⟩, ?_⟩
    have hw := hn w (by simp)
    have d1 : (s1 ++ (w :: (name ++ (d :: (s2 ++ R))))).dropWhile isSpace = w :: (name ++ (d :: (s2 ++ R))) := by
      apply dropWhile_stop (fun c hc => h1 c (by simp [hc]))
      intro x hx
      have : x = w := by simpa using hx.symm
      rw [this]; exact word_not_space hw
    have d2 : (name ++ (d :: (s2 ++ R))).dropWhile isWord = d :: (s2 ++ R) := by
      apply dropWhile_stop (fun c hc => hn c (by simp [hc]))
      intro x hx
      have : x = d := by simpa using hx.symm
      rw [this]; exact space_not_word (h2 d (by simp))
    have d3 : (s2 ++ R).dropWhile isSpace = R :=
      dropWhile_stop (fun c hc => h2 c (by simp [hc])) (fun x hx => aliasRest_head hrest hx)
    simp only [d1, d2, d3, h1 a (by simp), hw, h2 d (by simp), Bool.true_and]
    exact (aliasRest_iff R).mpr hrest

/-- The message of a print statement under Python 3. -/
def PrintMessage (e : SynErr) : Prop := "missing parentheses in call to 'print'".toList <:+: lower e.msg.toList

theorem isSub_iff_infix (a s : List Char) : isSub a s = true ↔ a <:+: s := by
  induction s with
  | nil => simp [isSub]
  | cons c s ih => rw [isSub, Bool.or_eq_true, ih, List.isPrefixOf_iff_prefix, List.infix_cons_iff]

/-- The message and text of a type alias statement under Python 3.11 and older. -/
def AliasMessage (cfg : Config) (e : SynErr) : Prop := lower e.msg.toList = "invalid syntax".toList ∧ AliasText (synText cfg e)

/-- C23: what is concluded from a syntax error. -/
theorem C23_syntax_error (cfg : Config) (major : Nat) (e : SynErr) :
    (PrintMessage e → (detectSyntaxError cfg major e).2 = ⟨some ⟨2, 0⟩, none⟩) ∧
    (¬ PrintMessage e → AliasMessage cfg e → (detectSyntaxError cfg major e).2 = ⟨none, some ⟨3, 12⟩⟩) ∧
    (¬ PrintMessage e → ¬ AliasMessage cfg e →
      (cfg.pessimistic = false → (detectSyntaxError cfg major e).2 = ⟨some ⟨0, 0⟩, some ⟨0, 0⟩⟩) ∧
      (cfg.pessimistic = true → major = 2 → (detectSyntaxError cfg major e).2 = ⟨none, some ⟨0, 0⟩⟩) ∧
      (cfg.pessimistic = true → major = 3 → (detectSyntaxError cfg major e).2 = ⟨some ⟨0, 0⟩, none⟩)) := by
  have hp : isSub "missing parentheses in call to 'print'".toList (lower e.msg.toList) = true ↔ PrintMessage e := isSub_iff_infix _ _
  have ha : (lower e.msg.toList = "invalid syntax".toList ∧ isTypeAliasText (synText cfg e) = true) ↔ AliasMessage cfg e := by
    rw [isTypeAliasText_iff]; rfl
  simp only [detectSyntaxError]
  refine ⟨fun h => ?_, fun h h' => ?_, fun h h' => ?_⟩
  · rw [if_pos (hp.mpr h)]
  · rw [if_neg (fun x => h (hp.mp x)), if_pos (ha.mpr h')]
  · rw [if_neg (fun x => h (hp.mp x)), if_neg (fun x => h' (ha.mp x))]
    refine ⟨fun hq => ?_, fun hq hm => ?_, fun hq hm => ?_⟩
    · simp [synMins, hq]; rfl
    · simp [synMins, hq, hm]; rfl
    · simp [synMins, hq, hm]; rfl

/-- Whatever the error, nothing else is concluded. -/
theorem C23_only (cfg : Config) (major : Nat) (e : SynErr) :
    (detectSyntaxError cfg major e).2 ∈ [⟨some ⟨2, 0⟩, none⟩, ⟨none, some ⟨3, 12⟩⟩, synMins cfg major] := by
  simp only [detectSyntaxError]
  split
  · simp
  · split <;> simp

/-- Examples of each kind of error. -/
theorem C23_witness :
    PrintMessage ⟨some "print 1", "Missing parentheses in call to 'print'. Did you mean print(...)?", "f.py:1:1"⟩ ∧
    AliasMessage (Config.init 1) ⟨some "type X [T] = list[T]", "invalid syntax", "f.py:1:1"⟩ ∧
    ¬ PrintMessage ⟨some "a b", "invalid syntax", "f.py:1:1"⟩ ∧
    ¬ AliasMessage (Config.init 1) ⟨some "a b", "invalid syntax", "f.py:1:1"⟩ := by
  refine ⟨?_, ⟨by decide +kernel, ?_⟩, ?_, ?_⟩
  · exact (isSub_iff_infix _ _).mp (by decide +kernel)
  · exact (isTypeAliasText_iff _).mp (by decide +kernel)
  · rw [PrintMessage, ← isSub_iff_infix]; decide +kernel
  · rintro ⟨_, h⟩
    rw [← isTypeAliasText_iff] at h
    revert h; decide +kernel

end Vermin.Props
