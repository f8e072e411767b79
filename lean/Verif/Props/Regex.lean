import Verif.Lemmas.Regex
import Verif.Lemmas.Int
import Verif.Model.Names
import Verif.Model.Parser
import Verif.Spec.Regex
/-
The matchers of the models do what the regular expressions of the source say (C76).
-/
namespace Vermin.Props
open Vermin Vermin.Py Vermin.Spec

/-- A character. -/
abbrev reChar (c : Char) : Re := .one (.of [.char c])
abbrev reDigit : ReClass := .of [.digit]
abbrev reSpace : ReClass := .of [.space]
abbrev reWord : ReClass := .of [.word]

theorem has_char (c x : Char) : (ReClass.of [.char c]).has x = (x == c) := by simp [ReClass.has, ReItem.has]
theorem has_digit : reDigit.has = isDigit := by funext x; simp [ReClass.has, ReItem.has]
theorem has_space : reSpace.has = isSpace := by funext x; simp [ReClass.has, ReItem.has]
theorem has_word : reWord.has = isWord := by funext x; simp [ReClass.has, ReItem.has]

/-- What is of interest of a match: its groups. -/
def ofGroups {α : Type} (f : List (Nat × List Char) → α) (q : RePos) : Option α := some (f q.groups)

/-- `match?`, and what is made of the groups. -/
theorem match_map {α : Type} (f : List (Nat × List Char) → α) (r : Re) (s : List Char) :
    (r.match? s).map (fun m => f m.groups) = r.run (ofGroups f) ⟨none, s, []⟩ := by
  unfold Re.match? Re.at?
  rw [Re.run_map]
  rfl

/-- A character, and what follows. -/
theorem run_char {α : Type} (c : Char) (k : RePos → Option α) (p : RePos) : (reChar c).run k p =
    match p.rest with
    | x :: xs => if x = c then k { p with prev := some x, rest := xs } else none
    | [] => none := by
  rw [Re.run_one]
  match p.rest with
  | x :: xs => simp [has_char]
  | [] => rfl

/-- `:(.*)`, and the end -/
theorem run_tail {α : Type} (f : List (Nat × List Char) → α) (n : Nat) (p : RePos) :
    (Re.seq (reChar ':') (.seq (.group n (.seq (.star true (.one .any)) .empty)) .empty)).run (ofGroups f) p =
    match p.rest with
    | ':' :: t => some (f ((n, untilNewline t) :: p.groups))
    | _ => none := by
  rw [show (Re.seq (reChar ':') (.seq (.group n (.seq (.star true (.one .any)) .empty)) .empty)).run (ofGroups f) p =
    (reChar ':').run (fun p => (Re.star true (.one .any)).run (fun q => some (f ((n, p.rest.take (p.rest.length - q.rest.length)) :: q.groups))) p) p from rfl]
  rw [run_char]
  match p.rest with
  | [] => rfl
  | x :: t =>
    dsimp only
    by_cases hx : x = ':'
    · subst hx
      rw [if_pos rfl, Re.run_star _ _ _ (fun q _ _ => .inr rfl)]
      simp only [RePos.skip_rest, RePos.skip_groups]
      rw [take_dropWhile]
      rfl
    · rw [if_neg hx]
      split
      · rename_i h; simp at h; exact absurd h.1 hx
      · rfl

/-- `(c+)` and what follows, if that does not begin with a character of the class. -/
theorem run_groupPlus {α : Type} (n : Nat) (c : ReClass) (k : RePos → Option α) (hk : ∀ q : RePos, (∃ x xs, q.rest = x :: xs ∧ c.has x = true) → k q = none) (p : RePos) :
    (Re.group n (.seq (.plus true (.one c)) .empty)).run k p =
      if p.rest.takeWhile c.has = [] then none
      else k { p.skip c.has with groups := (n, p.rest.takeWhile c.has) :: p.groups } := by
  rw [show (Re.group n (.seq (.plus true (.one c)) .empty)).run k p =
    (Re.plus true (.one c)).run (fun q => k { q with groups := (n, p.rest.take (p.rest.length - q.rest.length)) :: q.groups }) p from rfl]
  rw [Re.run_plus _ _ _ (fun q _ h => by exact .inl (hk _ h))]
  simp only [RePos.skip_rest, RePos.skip_groups]
  rw [take_dropWhile]
  match p.rest with
  | [] => rfl
  | x :: xs => cases h : c.has x <;> simp [h]

/-- `(\d+)` and what follows, if that does not begin with a digit. -/
theorem run_digits {α : Type} (n : Nat) (k : RePos → Option α) (hk : ∀ q : RePos, (∃ x xs, q.rest = x :: xs ∧ isDigit x = true) → k q = none) (p : RePos) :
    (Re.group n (.seq (.plus true (.one reDigit)) .empty)).run k p =
      if p.rest.takeWhile isDigit = [] then none
      else k { p.skip isDigit with groups := (n, p.rest.takeWhile isDigit) :: p.groups } := by
  rw [run_groupPlus n reDigit k (by rw [has_digit]; exact hk), has_digit]

/-- `LINE_COL_REGEX` (utility.py:115) -/
def lineColRe : Re := .seq (reChar 'L') (.seq (.group 1 (.seq (.plus true (.one reDigit)) .empty))
  (.seq (.opt (.seq (.star true (.one reSpace)) (.seq (reChar 'C') (.seq (.group 2 (.seq (.plus true (.one reDigit)) .empty)) .empty))))
    (.seq (reChar ':') (.seq (.group 3 (.seq (.star true (.one .any)) .empty)) .empty))))

theorem lineColRe_compile : reCompile "L(\\d+)(?:\\s*C(\\d+))?:(.*)" = some lineColRe := by decide +kernel

/-- The groups of a match of `LINE_COL_REGEX` as they are used (utility.py:126-128). -/
def lineColOf (g : List (Nat × List Char)) : Nat × Option Nat × List Char :=
  (natOf ((Dict.get? g 1).getD []), (Dict.get? g 2).map natOf, (Dict.get? g 3).getD [])

/-- `:(.*)` -/
abbrev reTail (n : Nat) : Re := .seq (reChar ':') (.seq (.group n (.seq (.star true (.one .any)) .empty)) .empty)

theorem tail_none {α : Type} (f : List (Nat × List Char) → α) (n : Nat) {q : RePos} (h : ∀ t, q.rest ≠ ':' :: t) : (reTail n).run (ofGroups f) q = none := by
  rw [run_tail]
  split
  · rename_i e; exact absurd e (h _)
  · rfl

theorem digit_not {x c : Char} {xs t s : List Char} (e : s = x :: xs) (h : isDigit x = true) (hc : isDigit c = false) : s ≠ c :: t := by
  rintro rfl
  cases e
  rw [h] at hc
  cases hc

/-- `C(\d+):(.*)` -/
theorem run_C {α : Type} (f : List (Nat × List Char) → α) (p : RePos) :
    (reChar 'C').run ((Re.group 2 (.seq (.plus true (.one reDigit)) .empty)).run ((reTail 3).run (ofGroups f))) p =
    match p.rest with
    | 'C' :: s =>
      if s.takeWhile isDigit = [] then none
      else match s.dropWhile isDigit with
        | ':' :: t => some (f ((3, untilNewline t) :: (2, s.takeWhile isDigit) :: p.groups))
        | _ => none
    | _ => none := by
  rw [run_char]
  match p.rest with
  | [] => rfl
  | x :: s =>
    dsimp only
    by_cases hx : x = 'C'
    · subst hx
      rw [if_pos rfl, run_digits 2 _ (fun q ⟨x, xs, e, h⟩ => tail_none f 3 fun t => digit_not e h (by decide))]
      simp only [run_tail, RePos.skip_rest]
    · rw [if_neg hx]
      split
      · rename_i h; simp at h; exact absurd h.1 hx
      · rfl

theorem run_column {α : Type} (f : List (Nat × List Char) → α) (p : RePos) :
    (Re.opt (.seq (.star true (.one reSpace)) (.seq (reChar 'C') (.seq (.group 2 (.seq (.plus true (.one reDigit)) .empty)) .empty)))).run
      ((reTail 3).run (ofGroups f)) p =
    match p.rest with
    | ':' :: t => some (f ((3, untilNewline t) :: p.groups))
    | s =>
      match s.dropWhile isSpace with
      | 'C' :: s =>
        if s.takeWhile isDigit = [] then none
        else match s.dropWhile isDigit with
          | ':' :: t => some (f ((3, untilNewline t) :: (2, s.takeWhile isDigit) :: p.groups))
          | _ => none
      | _ => none := by
  rw [show (Re.opt (.seq (.star true (.one reSpace)) (.seq (reChar 'C') (.seq (.group 2 (.seq (.plus true (.one reDigit)) .empty)) .empty)))).run
      ((reTail 3).run (ofGroups f)) p =
    ((Re.star true (.one reSpace)).run ((reChar 'C').run ((Re.group 2 (.seq (.plus true (.one reDigit)) .empty)).run ((reTail 3).run (ofGroups f)))) p).or
      ((reTail 3).run (ofGroups f) p) from rfl]
  rw [Re.run_star _ _ _ (by
    rintro q - ⟨x, xs, e, h⟩
    refine .inl ?_
    rw [run_C]
    split
    · rename_i e'
      rw [e'] at e
      cases e
      rw [has_space] at h
      cases h
    · rfl)]
  rw [run_C, run_tail, has_space]
  simp only [RePos.skip_rest, RePos.skip_groups]
  match p.rest with
  | [] => rfl
  | x :: t =>
    by_cases hx : x = ':'
    · subst hx
      simp [show isSpace ':' = false by decide]
    · have e : ∀ {β : Type} (a : List Char → β) (b : β), (match x :: t with | ':' :: t => a t | _ => b) = b := by
        intro β a b
        split
        · rename_i h; simp at h; exact absurd h.1 hx
        · rfl
      simp only [e, Option.or_none]
      symm
      split
      · rename_i h; simp at h; exact absurd h.1 hx
      · rfl

/-- **C76**: the model of `LINE_COL_REGEX.match` -/
theorem C76_lineCol (s : List Char) : (lineColRe.match? s).map (fun m => lineColOf m.groups) = matchLineCol s := by
  rw [match_map, show lineColRe.run (ofGroups lineColOf) ⟨none, s, []⟩ = (reChar 'L').run ((Re.group 1 (.seq (.plus true (.one reDigit)) .empty)).run
    ((Re.opt (.seq (.star true (.one reSpace)) (.seq (reChar 'C') (.seq (.group 2 (.seq (.plus true (.one reDigit)) .empty)) .empty)))).run
      ((reTail 3).run (ofGroups lineColOf)))) ⟨none, s, []⟩ from rfl, run_char]
  unfold matchLineCol
  match s with
  | [] => rfl
  | x :: s =>
    dsimp only
    by_cases hx : x = 'L'
    · subst hx
      rw [if_pos rfl, run_digits 1 _ (by
        rintro q ⟨x, xs, e, h⟩
        rw [run_column, e]
        split
        · rename_i e; cases e; cases h
        · rename_i e
          rw [List.dropWhile_cons, isDigit_not_space h]
          split
          · rename_i e; cases e; cases h
          · rfl)]
      simp only [run_column, RePos.skip_rest, takeDigits, List.isEmpty_iff]
      split
      · rfl
      · match s.dropWhile isDigit with
        | [] => rfl
        | y :: t =>
          by_cases hy : y = ':'
          · subst hy; rfl
          · have e : ∀ {β : Type} (a : List Char → β) (b : List Char → β), (match y :: t with | ':' :: t => a t | s => b s) = b (y :: t) := by
              intro β a b
              split
              · rename_i h; simp at h; exact absurd h.1 hy
              · rfl
            rw [e]
            symm
            split
            · rename_i h; simp at h; exact absurd h.1 hy
            match List.dropWhile isSpace (y :: t) with
            | [] => rfl
            | z :: u =>
              by_cases hz : z = 'C'
              · subst hz
                show (if _ then _ else _) = (if _ then _ else _)
                split
                · rfl
                · match u.dropWhile isDigit with
                  | [] => rfl
                  | v :: w =>
                    by_cases hv : v = ':'
                    · subst hv; rfl
                    · simp [hv]
              · simp [hz]
    · rw [if_neg hx]
      split
      · rename_i h; simp at h; exact absurd h.1 hx
      · rfl

/-! ### `LINE_COL_PARSABLE_REGEX` -/

/-- `LINE_COL_PARSABLE_REGEX` (utility.py:133) -/
def parsableRe : Re := .seq (.seq (.star false (.one .any)) .empty) (.seq (reChar ':') (.seq (.group 1 (.seq (.plus true (.one reDigit)) .empty))
  (.seq (reChar ':') (.seq (.group 2 (.seq (.star true (.one reDigit)) .empty)) (reTail 3)))))

theorem parsableRe_compile : reCompile "(?:.*?):(\\d+):(\\d*):(.*)" = some parsableRe := by decide +kernel

/-- The groups of a match of `LINE_COL_PARSABLE_REGEX` as they are used (utility.py:139-143): no column is column 0. -/
def parsableOf (g : List (Nat × List Char)) : Nat × Nat × List Char :=
  (natOf ((Dict.get? g 1).getD []), natOf ((Dict.get? g 2).getD []), (Dict.get? g 3).getD [])

/-- `:` and what follows -/
theorem run_colon {α : Type} (k : RePos → Option α) (p : RePos) : (reChar ':').run k p =
    match p.rest with
    | ':' :: xs => k { p with prev := some ':', rest := xs }
    | _ => none := by
  rw [run_char]
  match p.rest with
  | [] => rfl
  | x :: xs =>
    by_cases hx : x = ':'
    · subst hx; rfl
    · simp [hx]

/-- `(\d*)` and what follows, if that does not begin with a digit. -/
theorem run_digits0 {α : Type} (n : Nat) (k : RePos → Option α) (hk : ∀ q : RePos, (∃ x xs, q.rest = x :: xs ∧ isDigit x = true) → k q = none) (p : RePos) :
    (Re.group n (.seq (.star true (.one reDigit)) .empty)).run k p = k { p.skip isDigit with groups := (n, p.rest.takeWhile isDigit) :: p.groups } := by
  rw [show (Re.group n (.seq (.star true (.one reDigit)) .empty)).run k p =
    (Re.star true (.one reDigit)).run (fun q => k { q with groups := (n, p.rest.take (p.rest.length - q.rest.length)) :: q.groups }) p from rfl]
  rw [Re.run_star _ _ _ (fun q _ h => .inl (hk _ (by rw [has_digit] at h; exact h)))]
  rw [has_digit]
  simp only [RePos.skip_rest, RePos.skip_groups]
  rw [take_dropWhile]

theorem colon_none {α : Type} (k : RePos → Option α) (q : RePos) (h : ∃ x xs, q.rest = x :: xs ∧ isDigit x = true) : (reChar ':').run k q = none := by
  obtain ⟨x, xs, e, h⟩ := h
  rw [run_char, e]
  have : x ≠ ':' := by rintro rfl; cases h
  simp [this]

/-- `:(\d+):(\d*):(.*)` -/
abbrev parsableTailRe : Re := .seq (reChar ':') (.seq (.group 1 (.seq (.plus true (.one reDigit)) .empty))
  (.seq (reChar ':') (.seq (.group 2 (.seq (.star true (.one reDigit)) .empty)) (reTail 3))))

theorem run_parsableTail (p : RePos) (hg : p.groups = []) : parsableTailRe.run (ofGroups parsableOf) p = matchParsableTail p.rest := by
  rw [show parsableTailRe.run (ofGroups parsableOf) p = (reChar ':').run ((Re.group 1 (.seq (.plus true (.one reDigit)) .empty)).run
    ((reChar ':').run ((Re.group 2 (.seq (.star true (.one reDigit)) .empty)).run ((reTail 3).run (ofGroups parsableOf))))) p from rfl, run_colon]
  unfold matchParsableTail
  match p.rest with
  | [] => rfl
  | x :: s =>
    by_cases hx : x = ':'
    · subst hx
      show (Re.group 1 (.seq (.plus true (.one reDigit)) .empty)).run _ _ = (if _ then _ else _)
      rw [run_digits 1 _ (colon_none _)]
      simp only [takeDigits, List.isEmpty_iff]
      split
      · rfl
      · rw [run_colon]
        simp only [RePos.skip_rest]
        match s.dropWhile isDigit with
        | [] => rfl
        | y :: t =>
          by_cases hy : y = ':'
          · subst hy
            show (Re.group 2 (.seq (.star true (.one reDigit)) .empty)).run _ _ = _
            rw [run_digits0 2 _ (fun q ⟨x, xs, e, h⟩ => tail_none _ 3 fun t => digit_not e h (by decide)), run_tail]
            simp only [RePos.skip_rest, hg]
            match t.dropWhile isDigit with
            | [] => rfl
            | z :: u =>
              by_cases hz : z = ':'
              · subst hz; rfl
              · simp [hz]
          · simp [hy]
    · simp [hx]

/-- **C76**: the model of `LINE_COL_PARSABLE_REGEX.match` -/
theorem C76_parsable (s : List Char) : (parsableRe.match? s).map (fun m => parsableOf m.groups) = matchParsable s := by
  rw [match_map, show parsableRe.run (ofGroups parsableOf) ⟨none, s, []⟩ = (Re.star false (.one .any)).run (parsableTailRe.run (ofGroups parsableOf)) ⟨none, s, []⟩ from rfl]
  have key : ∀ (s : List Char) (prev : Option Char), (Re.star false (.one .any)).run (parsableTailRe.run (ofGroups parsableOf)) ⟨prev, s, []⟩ = matchParsable s := by
    intro s
    induction s with
    | nil => intro prev; rw [Re.run_lazy]; exact run_parsableTail _ rfl
    | cons x xs ih =>
      intro prev
      rw [Re.run_lazy]
      dsimp only
      rw [run_parsableTail _ rfl, ih, matchParsable, any_has]
      cases h : matchParsableTail (x :: xs) with
      | some r => rfl
      | none => by_cases hx : x = '\n' <;> simp [hx]
  exact key s none

/-! ### `VERSIONED_BACKPORT_REGEX` -/

/-- `[\w_\.]` -/
abbrev reName : ReClass := .of [.word, .char '_', .char '.']

theorem has_name : reName.has = fun c => isWord c || c == '.' := by
  funext x
  simp only [ReClass.has, ReItem.has, List.any_cons, List.any_nil, Bool.or_false]
  by_cases h : x = '_'
  · subst h; rfl
  · have : (x == '_') = false := by simpa using h
    rw [this]
    simp

/-- `VERSIONED_BACKPORT_REGEX` (backports.py:5) -/
def versionedRe : Re := .seq (.group 1 (.seq (.plus true (.one reName)) .empty)) (.seq (reChar '=') (.seq (reChar '=') (.seq (.plus true (.one .any)) .empty)))

theorem versionedRe_compile : reCompile "([\\w_\\.]+)\\=\\=.+" = some versionedRe := by decide +kernel

/-- `.+` at the end -/
theorem run_anyPlus {α : Type} (f : List (Nat × List Char) → α) (p : RePos) : (Re.plus true (.one .any)).run (ofGroups f) p =
    match p.rest with
    | c :: _ => if c = '\n' then none else some (f p.groups)
    | [] => none := by
  rw [Re.run_plus _ _ _ (fun q _ _ => .inr rfl)]
  match p.rest with
  | [] => rfl
  | c :: cs =>
    simp only [List.head?_cons, Option.any_some, any_has]
    by_cases h : c = '\n' <;> simp [h, ofGroups]

/-- **C76**: the model of `VERSIONED_BACKPORT_REGEX.match` -/
theorem C76_versioned (s : List Char) : (versionedRe.match? s).map (fun m => (Dict.get? m.groups 1).getD []) = matchVersioned s := by
  rw [match_map (fun g => (Dict.get? g 1).getD []), show versionedRe.run (ofGroups fun g => (Dict.get? g 1).getD []) ⟨none, s, []⟩ =
    (Re.group 1 (.seq (.plus true (.one reName)) .empty)).run ((reChar '=').run ((reChar '=').run
      ((Re.plus true (.one .any)).run (ofGroups fun g => (Dict.get? g 1).getD [])))) ⟨none, s, []⟩ from rfl]
  rw [run_groupPlus 1 reName _ (by
    rintro q ⟨x, xs, e, h⟩
    rw [run_char, e]
    have : x ≠ '=' := by rintro rfl; cases h
    simp [this])]
  rw [has_name, run_char]
  simp only [RePos.skip_rest]
  unfold matchVersioned
  generalize s.takeWhile (fun c => isWord c || c == '.') = g
  generalize s.dropWhile (fun c => isWord c || c == '.') = r
  match g, r with
  | [], _ => rfl
  | _ :: _, [] => rfl
  | x :: g, a :: r =>
    rw [if_neg (by simp)]
    dsimp only
    by_cases ha : a = '='
    · subst ha
      rw [if_pos rfl, run_char]
      match r with
      | [] => rfl
      | b :: r =>
        dsimp only
        by_cases hb : b = '='
        · subst hb
          rw [if_pos rfl, run_anyPlus]
          match r with
          | [] => rfl
          | c :: r => by_cases hc : c = '\n' <;> simp [hc, Dict.get?]
        · simp [hb]
    · simp [ha]

/-! ### `STRFTIME_DIRECTIVE_REGEX` -/

/-- `[-\.\d#\s\+]` -/
abbrev reMod : ReClass := .of [.char '-', .char '.', .digit, .char '#', .space, .char '+']

theorem has_mod : reMod.has = isDirectiveMod := by
  funext x
  simp [ReClass.has, ReItem.has, isDirectiveMod, Bool.or_assoc]

/-- `STRFTIME_DIRECTIVE_REGEX`, `BYTES_DIRECTIVE_REGEX` (source_visitor.py:12-13) -/
def directiveRe : Re := .seq (reChar '%') (.seq (.star true (.seq (.one reMod) .empty)) (.seq (.group 1 (.seq (.one reWord) .empty)) .empty))

theorem directiveRe_compile : reCompile "%(?:[-\\.\\d#\\s\\+])*(\\w)" = some directiveRe := by decide +kernel

/-- `(\w)` at the end -/
def wordEnd (p : RePos) : Option RePos :=
  match p.rest with
  | x :: xs => if isWord x then some ⟨some x, xs, (1, [x]) :: p.groups⟩ else none
  | [] => none

theorem run_wordEnd (p : RePos) : (Re.seq (.group 1 (.seq (.one reWord) .empty)) .empty).run some p = wordEnd p := by
  obtain ⟨prev, s, g⟩ := p
  match s with
  | [] => rfl
  | x :: xs =>
    show (if reWord.has x = true then _ else _) = (if _ then _ else _)
    rw [has_word]
    split
    · show some (RePos.mk _ _ _) = _
      simp
    · rfl

/-- Matching after `%`. -/
def afterPercent (prev : Option Char) (s : List Char) : Option RePos := reRepeat true (Re.one reMod).run s.length wordEnd ⟨prev, s, []⟩

theorem afterPercent_cons (prev : Option Char) (x : Char) (xs : List Char) : afterPercent prev (x :: xs) =
    (if isDirectiveMod x then afterPercent (some x) xs else none).or (wordEnd ⟨prev, x :: xs, []⟩) := by
  rw [← has_mod]
  rfl

theorem directive_at (prev : Option Char) (c : Char) (cs : List Char) : directiveRe.at? prev (c :: cs) = if c = '%' then afterPercent (some c) cs else none := by
  unfold Re.at?
  rw [show directiveRe.run some ⟨prev, c :: cs, []⟩ =
    (reChar '%').run (fun p => reRepeat true (Re.one reMod).run p.rest.length ((Re.seq (.group 1 (.seq (.one reWord) .empty)) .empty).run some) p) ⟨prev, c :: cs, []⟩ from rfl, run_char]
  rw [show (Re.seq (.group 1 (.seq (.one reWord) .empty)) .empty).run some = wordEnd from funext run_wordEnd]
  rfl

theorem space_not_word {c : Char} (h : isSpace c = true) : isWord c = false := by
  rw [Bool.eq_false_iff]
  intro hw
  simp only [isSpace, isWord, isDigit, Bool.or_eq_true, Bool.and_eq_true, decide_eq_true_eq, beq_iff_eq] at h hw
  rcases hw with ((hw | hw) | hw) | hw
  · omega
  · omega
  · omega
  · subst hw
    simp at h

theorem word_mod {c : Char} (hm : isDirectiveMod c = true) : isWord c = isDigit c := by
  simp only [isDirectiveMod, Bool.or_eq_true, beq_iff_eq] at hm
  cases hd : isDigit c
  · rcases hm with ((((rfl | rfl) | h) | rfl) | h) | rfl
    · rfl
    · rfl
    · rw [hd] at h; cases h
    · rfl
    · exact space_not_word h
    · rfl
  · simp [isWord, hd]

/-- What the machine is at, inside a directive. -/
theorem after_machine : ∀ (s : List Char) (prev : Option Char) (cand : Option Char),
    match afterPercent prev s with
    | some m => m.rest.length < s.length ∧ ∃ x, m.groups = [(1, [x])] ∧ directivesFrom (some cand) s = String.ofList [x] :: directivesFrom none m.rest
    | none => directivesFrom (some cand) s = (match cand with
      | some d => [String.ofList [d]]
      | none => []) ++ directivesFrom none s
  | [], prev, cand => by
    show directivesFrom (some cand) [] = _
    cases cand <;> rfl
  | c :: cs, prev, cand => by
    rw [afterPercent_cons]
    by_cases hm : isDirectiveMod c = true
    · rw [if_pos hm]
      have ih := after_machine cs (some c) (if isDigit c then some c else cand)
      have e1 : directivesFrom (some cand) (c :: cs) = directivesFrom (some (if isDigit c then some c else cand)) cs := by
        cases cand <;> simp [directivesFrom, hm]
      rw [e1]
      cases h : afterPercent (some c) cs with
      | some m =>
        rw [h] at ih
        exact ⟨Nat.lt_succ_of_lt ih.1, ih.2⟩
      | none =>
        rw [h] at ih
        simp only [Option.none_or, wordEnd]
        rw [word_mod hm]
        cases hd : isDigit c
        · simp only [hd, Bool.false_eq_true, if_false] at ih ⊢
          rw [ih]
          have hp : c ≠ '%' := by rintro rfl; cases hm
          simp [directivesFrom, hp]
        · simp only [hd, if_true] at ih ⊢
          exact ⟨by simp, c, rfl, ih⟩
    · rw [if_neg hm]
      simp only [Option.none_or, wordEnd]
      cases hw : isWord c
      · cases cand <;> simp [directivesFrom, hm, hw]
      · refine ⟨by simp, c, rfl, ?_⟩
        cases cand <;> simp [directivesFrom, hm, hw]

theorem scan_directives : ∀ (n : Nat) (prev : Option Char) (s : List Char), s.length ≤ n →
    (directiveRe.scan n prev s).1.map (fun m => String.ofList ((m.2.group 1).getD [])) = directivesFrom none s
  | 0, _, s, h => by
    have : s = [] := List.eq_nil_of_length_eq_zero (by omega)
    subst this
    rfl
  | n + 1, _, [], _ => rfl
  | n + 1, prev, c :: cs, h => by
    simp only [List.length_cons] at h
    have next : ((match directiveRe.scan n (some c) cs with
        | ([], left) => ([], c :: left)
        | ((b, m) :: ms, left) => ((c :: b, m) :: ms, left)) : List (List Char × RePos) × List Char).1.map (fun m => String.ofList ((m.2.group 1).getD [])) = directivesFrom none cs := by
      rw [← scan_directives n (some c) cs (by omega)]
      match directiveRe.scan n (some c) cs with
      | ([], _) => rfl
      | ((b, m) :: ms, _) => rfl
    unfold Re.scan
    rw [directive_at]
    by_cases hc : c = '%'
    · subst hc
      rw [if_pos rfl]
      have key := after_machine cs (some '%') none
      have e : directivesFrom none ('%' :: cs) = directivesFrom (some none) cs := by simp [directivesFrom]
      rw [e]
      cases hm : afterPercent (some '%') cs with
      | some m =>
        rw [hm] at key
        obtain ⟨hl, x, hx, he⟩ := key
        rw [he, ← scan_directives n m.prev m.rest (by omega)]
        simp [RePos.group, hx, Dict.get?]
      | none =>
        rw [hm] at key
        rw [key]
        exact next
    · rw [if_neg hc]
      rw [show directivesFrom none (c :: cs) = directivesFrom none cs by simp [directivesFrom, hc]]
      exact next

/-- **C76**: the model of `STRFTIME_DIRECTIVE_REGEX.findall` and `BYTES_DIRECTIVE_REGEX.findall` -/
theorem C76_directives (s : String) : (directiveRe.findall s.toList).map String.ofList = directives s := by
  unfold Re.findall Re.matches directives
  rw [← scan_directives s.toList.length none s.toList (Nat.le_refl _), List.map_map]
  rfl

/-! ### `STR_27_FORMAT_REGEX` -/

/-- `STR_27_FORMAT_REGEX` (source_visitor.py:14) -/
def format27Re : Re := .seq (.notBehind (.of [.char '{'])) (.seq (reChar '{') (.seq (reChar '}') (.seq (.notAhead (.of [.char '}'])) .empty)))

theorem format27Re_compile : reCompile "(?<!{){}(?!})" = some format27Re := by decide +kernel

theorem format27_at (prev : Option Char) (s : List Char) : (format27Re.at? prev s).isSome =
    match s with
    | '{' :: '}' :: cs => decide (prev ≠ some '{') && decide (cs.head? ≠ some '}')
    | _ => false := by
  have e : format27Re.at? prev s = if prev.any (ReClass.of [.char '{']).has then none else
      (reChar '{').run ((reChar '}').run ((Re.seq (.notAhead (.of [.char '}'])) .empty).run some)) ⟨prev, s, []⟩ := rfl
  rw [e, run_char]
  have hprev : prev.any (ReClass.of [.char '{']).has = decide (prev = some '{') := by
    cases prev with
    | none => rfl
    | some c => simp [has_char]; rfl
  rw [hprev]
  match s with
  | [] => simp
  | [c] => by_cases h : c = '{' <;> simp [h, run_char]
  | a :: b :: cs =>
    by_cases ha : a = '{'
    · subst ha
      by_cases hb : b = '}'
      · subst hb
        simp only [run_char, if_true]
        have e2 : (Re.seq (.notAhead (.of [.char '}'])) .empty).run some ⟨some '}', cs, []⟩ = if cs.head?.any (ReClass.of [.char '}']).has then none else some ⟨some '}', cs, []⟩ := rfl
        rw [e2]
        have hh : cs.head?.any (ReClass.of [.char '}']).has = decide (cs.head? = some '}') := by
          cases cs.head? with
          | none => rfl
          | some c => simp [has_char]; rfl
        rw [hh]
        by_cases h1 : prev = some '{' <;> by_cases h2 : cs.head? = some '}' <;> simp [h1, h2]
      · simp [run_char, hb]
    · simp [ha]

/-- **C76**: the model of `STR_27_FORMAT_REGEX.search` -/
theorem C76_format27 (s : List Char) : (format27Re.search? s).isSome = format27From none s := by
  have key : ∀ (s : List Char) (i : Nat) (prev : Option Char), (format27Re.searchFrom i prev s).isSome = format27From prev s := by
    intro s
    induction s with
    | nil => intro i prev; simp [Re.searchFrom, format27_at, format27From]
    | cons c cs ih =>
      intro i prev
      simp only [Re.searchFrom, Option.isSome_or, Option.isSome_map, format27_at, ih]
      match c, cs with
      | c, [] => simp [format27From]
      | a, b :: cs =>
        by_cases ha : a = '{'
        · subst ha
          by_cases hb : b = '}'
          · subst hb; simp [format27From]
          · simp [format27From, hb]
        · simp [format27From, ha]
  exact key s 0 none

/-! ### `WITH_PAREN_REGEX` -/

/-- `[\s\\]` -/
abbrev reBreak : ReClass := .of [.space, .char '\\']

theorem has_break : reBreak.has = fun c => isSpace c || c == '\\' := by
  funext x
  simp [ReClass.has, ReItem.has]

/-- `WITH_PAREN_REGEX` (source_visitor.py:15) -/
def withParenRe : Re := .seq (reChar 'w') (.seq (reChar 'i') (.seq (reChar 't') (.seq (reChar 'h') (.seq (.star true (.one reBreak)) (.seq (reChar '(') .empty)))))

theorem withParenRe_compile : reCompile "with[\\s\\\\]*\\(" = some withParenRe := by decide +kernel

theorem run_paren (p : RePos) : ((Re.star true (.one reBreak)).run ((reChar '(').run some) p).isSome = parenFollows p.rest := by
  rw [Re.run_star _ _ _ (by
    rintro q - ⟨x, xs, e, h⟩
    refine .inl ?_
    rw [run_char, e]
    have : x ≠ '(' := by rintro rfl; cases h
    simp [this]), run_char, has_break]
  simp only [RePos.skip_rest, parenFollows]
  match p.rest.dropWhile fun c => isSpace c || c == '\\' with
  | [] => rfl
  | x :: xs => by_cases h : x = '(' <;> simp [h]

theorem withParen_at (prev : Option Char) (s : List Char) : (withParenRe.at? prev s).isSome = (startsWith "with".toList s && parenFollows (s.drop 4)) := by
  have e : withParenRe.at? prev s = (reChar 'w').run ((reChar 'i').run ((reChar 't').run ((reChar 'h').run
    ((Re.star true (.one reBreak)).run ((reChar '(').run some))))) ⟨prev, s, []⟩ := rfl
  rw [e, show "with".toList = ['w', 'i', 't', 'h'] by decide]
  simp only [run_char]
  match s with
  | [] => rfl
  | a :: s =>
    by_cases ha : a = 'w'
    · subst ha
      match s with
      | [] => rfl
      | b :: s =>
        by_cases hb : b = 'i'
        · subst hb
          match s with
          | [] => rfl
          | c :: s =>
            by_cases hc : c = 't'
            · subst hc
              match s with
              | [] => rfl
              | d :: s =>
                by_cases hd : d = 'h'
                · subst hd
                  simp [startsWith, run_paren]
                · simp [startsWith, hd, Ne.symm hd]
            · simp [startsWith, hc, Ne.symm hc]
        · simp [startsWith, hb, Ne.symm hb]
    · simp [startsWith, ha, Ne.symm ha]

/-- **C76**: the model of `WITH_PAREN_REGEX.search(..).start()` -/
theorem C76_withParen (s : List Char) : (withParenRe.search? s).map (·.1) = withParenStart 0 s := by
  have key : ∀ (s : List Char) (i : Nat) (prev : Option Char), (withParenRe.searchFrom i prev s).map (·.1) = withParenStart i s := by
    intro s
    induction s with
    | nil => intro i prev; rfl
    | cons c cs ih =>
      intro i prev
      simp only [Re.searchFrom, withParenStart, ← withParen_at prev, Option.map_or, ih]
      cases withParenRe.at? prev (c :: cs) with
      | none => rfl
      | some m => rfl
  exact key s 0 none

/-! ### `TYPE_ALIAS_STMT` -/

/-- `\s+` -/
abbrev reSpaces : Re := .plus true (.one reSpace)

/-- `TYPE_ALIAS_STMT` (parser.py:11) -/
def typeAliasRe : Re :=
  .seq (reChar 't') (.seq (reChar 'y') (.seq (reChar 'p') (.seq (reChar 'e') (.seq reSpaces (.seq (.group 1 (.seq (.plus true (.one reWord)) .empty))
    (.seq reSpaces (.seq (.opt (.group 2 (.seq (reChar '[') (.seq (.plus false (.one .any)) (.seq (reChar ']') (.seq reSpaces .empty))))))
      (.seq (reChar '=') (.seq reSpaces (.seq (.group 3 (.seq (.plus true (.one .any)) .empty)) .empty))))))))))

theorem typeAliasRe_compile : reCompile "type\\s+(\\w+)\\s+(\\[.+?\\]\\s+)?=\\s+(.+)" = some typeAliasRe := by decide +kernel

/-- `(.+)` at the end -/
abbrev aliasEnd : RePos → Option RePos := (Re.group 3 (.seq (.plus true (.one .any)) .empty)).run some

theorem aliasEnd_some (p : RePos) : (aliasEnd p).isSome = match p.rest with
    | c :: _ => c != '\n'
    | [] => false := by
  rw [show aliasEnd p = (Re.plus true (.one .any)).run (fun q => some { q with groups := (3, p.rest.take (p.rest.length - q.rest.length)) :: q.groups }) p from rfl]
  rw [Re.run_plus _ _ _ (fun q _ _ => .inr rfl)]
  match p.rest with
  | [] => rfl
  | c :: cs =>
    simp only [List.head?_cons, Option.any_some, any_has]
    by_cases h : c = '\n' <;> simp [h]

/-- `\s*(.+)` at the end -/
theorem spaces_end : ∀ (s : List Char) (prev : Option Char) (g : List (Nat × List Char)),
    (reRepeat true (Re.one reSpace).run s.length aliasEnd ⟨prev, s, g⟩).isSome = spaceThenAny s
  | [], prev, g => by
    show (aliasEnd ⟨prev, [], g⟩).isSome = _
    rw [aliasEnd_some]
    rfl
  | c :: cs, prev, g => by
    have e : reRepeat true (Re.one reSpace).run (c :: cs).length aliasEnd ⟨prev, c :: cs, g⟩ =
      (if reSpace.has c then reRepeat true (Re.one reSpace).run cs.length aliasEnd ⟨some c, cs, g⟩ else none).or (aliasEnd ⟨prev, c :: cs, g⟩) := rfl
    rw [e, Option.isSome_or, aliasEnd_some, has_space, spaceThenAny]
    cases hs : isSpace c
    · simp
    · simp only [if_true, spaces_end cs, Bool.true_and]
      exact Bool.or_comm _ _

/-- `=\s+(.+)` at the end -/
abbrev aliasTailRun : RePos → Option RePos := (reChar '=').run (reSpaces.run aliasEnd)

theorem aliasTail_some (p : RePos) : (aliasTailRun p).isSome = aliasTail p.rest := by
  rw [show aliasTailRun p = (reChar '=').run (fun q => (Re.one reSpace).run (fun q => reRepeat true (Re.one reSpace).run q.rest.length aliasEnd q) q) p from rfl, run_char]
  match p.rest with
  | [] => rfl
  | [a] => by_cases h : a = '=' <;> simp [h, Re.run_one, aliasTail]
  | a :: c :: cs =>
    by_cases h : a = '='
    · subst h
      simp only [if_true, Re.run_one, has_space, aliasTail]
      cases isSpace c
      · rfl
      · simpa using spaces_end cs _ _
    · simp [h, aliasTail]

theorem isSome_none {α : Type} {x : Option α} (h : x.isSome = false) : x = none := by
  cases x with
  | none => rfl
  | some _ => cases h

theorem aliasTail_none {p : RePos} (h : aliasTail p.rest = false) : aliasTailRun p = none := isSome_none (by rw [aliasTail_some, h])

theorem aliasTail_noEq {s : List Char} (h : s.head? ≠ some '=') : aliasTail s = false := by
  unfold aliasTail
  split
  · simp at h
  · rfl

/-- `\s+=\s+(.+)` at the end, with a change of the groups -/
theorem spaceTail_some (f : RePos → RePos) (hf : ∀ q, (f q).rest = q.rest) (p : RePos) : (reSpaces.run (fun q => aliasTailRun (f q)) p).isSome = aliasSpaceTail p.rest := by
  rw [Re.run_plus _ _ _ (by
    rintro q - ⟨x, xs, e, h⟩
    refine .inl (aliasTail_none ?_)
    rw [hf, e]
    rw [has_space] at h
    refine aliasTail_noEq ?_
    rintro e
    cases e
    cases h)]
  have h2 : (RePos.skip reSpace.has p).rest = p.rest.dropWhile isSpace := by rw [has_space, RePos.skip_rest]
  have h3 : (if p.rest.head?.any reSpace.has then aliasTailRun (f (RePos.skip reSpace.has p)) else none).isSome =
      (p.rest.head?.any isSpace && aliasTail (p.rest.dropWhile isSpace)) := by
    rw [has_space] at h2 ⊢
    cases p.rest.head?.any isSpace
    · rfl
    · simp only [if_true, aliasTail_some, hf, h2, Bool.true_and]
  rw [h3]
  match p.rest with
  | [] => rfl
  | c :: cs =>
    show (isSpace c && _) = (isSpace c && _)
    cases h : isSpace c
    · rfl
    · simp [h]

/-- `.*?\]\s+=\s+(.+)` at the end -/
theorem params_some (f : RePos → RePos) (hf : ∀ q, (f q).rest = q.rest) : ∀ (s : List Char) (prev : Option Char) (g : List (Nat × List Char)),
    ((Re.star false (.one .any)).run ((reChar ']').run (reSpaces.run (fun q => aliasTailRun (f q)))) ⟨prev, s, g⟩).isSome = aliasParams s
  | [], prev, g => rfl
  | c :: cs, prev, g => by
    rw [Re.run_lazy, run_char]
    dsimp only
    rw [any_has, Option.isSome_or, aliasParams]
    congr 1
    · by_cases h : c = ']'
      · simp [h, spaceTail_some f hf]
      · simp [h]
    · by_cases h : c = '\n'
      · simp [h]
      · simp [h, params_some f hf cs]

/-- `(\[.+?\]\s+)?=\s+(.+)` at the end -/
abbrev aliasRestRun : RePos → Option RePos :=
  (Re.opt (.group 2 (.seq (reChar '[') (.seq (.plus false (.one .any)) (.seq (reChar ']') (.seq reSpaces .empty)))))).run aliasTailRun

theorem aliasRest_some (p : RePos) : (aliasRestRun p).isSome = aliasRest p.rest := by
  let f : RePos → RePos := fun q => { q with groups := (2, p.rest.take (p.rest.length - q.rest.length)) :: q.groups }
  rw [show aliasRestRun p = ((reChar '[').run ((Re.one .any).run ((Re.star false (.one .any)).run ((reChar ']').run (reSpaces.run (fun q => aliasTailRun (f q)))))) p).or
    (aliasTailRun p) from rfl]
  rw [Option.isSome_or, aliasTail_some, run_char]
  have hf : ∀ q, (f q).rest = q.rest := fun _ => rfl
  generalize f = f at *
  match p.rest with
  | [] => rfl
  | [a] => by_cases h : a = '[' <;> simp [h, Re.run_one, aliasRest, aliasTail]
  | a :: c :: cs =>
    by_cases h : a = '['
    · subst h
      have key : ((Re.one .any).run ((Re.star false (.one .any)).run ((reChar ']').run (reSpaces.run (fun q => aliasTailRun (f q))))) ⟨some '[', c :: cs, p.groups⟩).isSome =
          (c != '\n' && aliasParams cs) := by
        rw [Re.run_one]
        dsimp only
        by_cases hc : ReClass.any.has c = true
        · rw [if_pos hc, params_some f hf, ← any_has, hc, Bool.true_and]
        · rw [if_neg hc, ← any_has, Bool.eq_false_iff.2 hc]; rfl
      dsimp only
      rw [if_pos rfl, key]
      simp [aliasTail, aliasRest]
    · simp [h, aliasRest]

theorem aliasRest_none {q : RePos} {x : Char} {xs : List Char} (e : q.rest = x :: xs) (h : isSpace x = true) : aliasRestRun q = none := by
  refine isSome_none ?_
  rw [aliasRest_some, e]
  have h1 : x ≠ '[' := by rintro rfl; cases h
  have h2 : x ≠ '=' := by rintro rfl; cases h
  unfold aliasRest
  split
  · rename_i e; cases e; exact absurd rfl h1
  · exact aliasTail_noEq (by simpa using h2)

/-- `\s+(\[.+?\]\s+)?=\s+(.+)` at the end -/
theorem aliasSpaceRest (p : RePos) : reSpaces.run aliasRestRun p = if p.rest.head?.any isSpace then aliasRestRun (p.skip isSpace) else none := by
  rw [Re.run_plus _ _ _ (by
    rintro q - ⟨x, xs, e, h⟩
    rw [has_space] at h
    exact .inl (aliasRest_none e h)), has_space]

/-- **C76**: the model of `TYPE_ALIAS_STMT.match` -/
theorem C76_typeAlias (s : List Char) : (typeAliasRe.match? s).isSome = isTypeAliasText s := by
  have e : typeAliasRe.match? s = (reChar 't').run ((reChar 'y').run ((reChar 'p').run ((reChar 'e').run
    (reSpaces.run ((Re.group 1 (.seq (.plus true (.one reWord)) .empty)).run (reSpaces.run aliasRestRun)))))) ⟨none, s, []⟩ := rfl
  have k1 : ∀ q : RePos, (Re.group 1 (.seq (.plus true (.one reWord)) .empty)).run (reSpaces.run aliasRestRun) q =
      if q.rest.takeWhile isWord = [] then none
      else reSpaces.run aliasRestRun { q.skip isWord with groups := (1, q.rest.takeWhile isWord) :: q.groups } := by
    intro q
    rw [run_groupPlus 1 reWord _ (by
      rintro q ⟨x, xs, e, h⟩
      rw [aliasSpaceRest, e]
      rw [has_word] at h
      have : isSpace x = false := by
        cases hs : isSpace x
        · rfl
        · rw [space_not_word hs] at h; cases h
      simp [this]), has_word]
  have k2 : ∀ q : RePos, reSpaces.run ((Re.group 1 (.seq (.plus true (.one reWord)) .empty)).run (reSpaces.run aliasRestRun)) q =
      if q.rest.head?.any isSpace then (Re.group 1 (.seq (.plus true (.one reWord)) .empty)).run (reSpaces.run aliasRestRun) (q.skip isSpace) else none := by
    intro q
    rw [Re.run_plus _ _ _ (by
      rintro q - ⟨x, xs, e, h⟩
      refine .inl ?_
      rw [has_space] at h
      rw [k1, e]
      simp [space_not_word h]), has_space]
  have k3 : ∀ q : RePos, (reSpaces.run ((Re.group 1 (.seq (.plus true (.one reWord)) .empty)).run (reSpaces.run aliasRestRun)) q).isSome =
      (q.rest.head?.any isSpace && ((q.rest.dropWhile isSpace).head?.any isWord &&
        (((q.rest.dropWhile isSpace).dropWhile isWord).head?.any isSpace && aliasRest (((q.rest.dropWhile isSpace).dropWhile isWord).dropWhile isSpace)))) := by
    intro q
    rw [k2]
    split
    · rename_i h
      rw [h, k1, RePos.skip_rest]
      have : (q.rest.dropWhile isSpace).takeWhile isWord = [] ↔ (q.rest.dropWhile isSpace).head?.any isWord = false := by
        match q.rest.dropWhile isSpace with
        | [] => simp
        | x :: xs => cases h : isWord x <;> simp [h]
      split
      · rename_i h; rw [this.1 h]; rfl
      · rename_i h
        have h : (q.rest.dropWhile isSpace).head?.any isWord = true := by
          rw [this] at h; exact Bool.not_eq_false _ ▸ h
        rw [h, aliasSpaceRest]
        simp only [RePos.skip_rest]
        split
        · rename_i h; rw [h, aliasRest_some]; simp
        · rename_i h; rw [Bool.eq_false_iff.2 h]; rfl
    · rename_i h; rw [Bool.eq_false_iff.2 h]; rfl
  rw [e]
  unfold isTypeAliasText
  rw [show "type".toList = ['t', 'y', 'p', 'e'] by decide]
  simp only [run_char]
  match s with
  | [] => rfl
  | a :: s =>
    by_cases ha : a = 't'
    · subst ha
      match s with
      | [] => rfl
      | b :: s =>
        by_cases hb : b = 'y'
        · subst hb
          match s with
          | [] => rfl
          | c :: s =>
            by_cases hc : c = 'p'
            · subst hc
              match s with
              | [] => rfl
              | d :: s =>
                by_cases hd : d = 'e'
                · subst hd
                  simp only [if_true, k3]
                  simp only [startsWith, List.isPrefixOf, beq_self_eq_true, Bool.true_and, List.drop_succ_cons, List.drop_zero]
                  match s with
                  | [] => rfl
                  | x :: s =>
                    cases hx : isSpace x
                    · simp [hx]
                    · simp only [List.dropWhile_cons, hx, if_true, List.head?_cons, Option.any_some, Bool.true_and]
                      match s.dropWhile isSpace with
                      | [] => rfl
                      | w :: ws =>
                        cases hw : isWord w
                        · simp [hw]
                        · simp only [List.dropWhile_cons, hw, if_true, List.head?_cons, Option.any_some, Bool.true_and]
                          match ws.dropWhile isWord with
                          | [] => rfl
                          | y :: ys => cases hy : isSpace y <;> simp [hy]
                · simp [startsWith, hd, Ne.symm hd]
            · simp [startsWith, hc, Ne.symm hc]
        · simp [startsWith, hb, Ne.symm hb]
    · simp [startsWith, ha, Ne.symm ha]

/-! ### Single characters: `TARGETS_SPLIT` and `remove_whitespace` -/

theorem class_at (c : ReClass) (prev : Option Char) (x : Char) (xs : List Char) :
    (Re.seq (.one c) .empty).at? prev (x :: xs) = if c.has x then some ⟨some x, xs, []⟩ else none := rfl

theorem scan_split (c : ReClass) : ∀ (n : Nat) (prev : Option Char) (s : List Char), s.length ≤ n →
    ((Re.seq (.one c) .empty).scan n prev s).1.map (·.1) ++ [((Re.seq (.one c) .empty).scan n prev s).2] = splitOn c.has s
  | 0, _, s, h => by
    have : s = [] := List.eq_nil_of_length_eq_zero (by omega)
    subst this
    rfl
  | n + 1, _, [], _ => rfl
  | n + 1, prev, x :: xs, h => by
    simp only [List.length_cons] at h
    unfold Re.scan splitOn
    rw [class_at]
    by_cases hx : c.has x = true
    · rw [if_pos hx, if_pos hx]
      have := scan_split c n (some x) xs (by omega)
      simp only [List.map_cons, List.cons_append, this]
    · rw [if_neg hx, if_neg hx, ← scan_split c n (some x) xs (by omega)]
      match (Re.seq (.one c) .empty).scan n (some x) xs with
      | ([], left) => rfl
      | ((b, m) :: ms, left) => rfl

theorem scan_remove (c : ReClass) : ∀ (n : Nat) (prev : Option Char) (s : List Char), s.length ≤ n →
    (((Re.seq (.one c) .empty).scan n prev s).1.map (·.1)).flatten ++ ((Re.seq (.one c) .empty).scan n prev s).2 = s.filter fun x => !c.has x
  | 0, _, s, h => by
    have : s = [] := List.eq_nil_of_length_eq_zero (by omega)
    subst this
    rfl
  | n + 1, _, [], _ => rfl
  | n + 1, prev, x :: xs, h => by
    simp only [List.length_cons] at h
    unfold Re.scan
    rw [class_at, List.filter_cons]
    by_cases hx : c.has x = true
    · rw [if_pos hx, if_neg (by simp [hx])]
      have := scan_remove c n (some x) xs (by omega)
      simpa using this
    · rw [if_neg hx, if_pos (by simp [hx]), ← scan_remove c n (some x) xs (by omega)]
      match (Re.seq (.one c) .empty).scan n (some x) xs with
      | ([], left) => rfl
      | ((b, m) :: ms, left) => rfl

/-- `TARGETS_SPLIT` (utility.py:160) -/
def targetsRe : Re := .seq (.one (.of [.char '.', .char ','])) .empty

theorem targetsRe_compile : reCompile "[\\.,]" = some targetsRe := by decide +kernel

/-- **C76**: the model of `TARGETS_SPLIT.split` -/
theorem C76_targets (s : List Char) : targetsRe.split s = splitOn isTargetSep s := by
  have e : (ReClass.of [.char '.', .char ',']).has = isTargetSep := by
    funext x
    simp [ReClass.has, ReItem.has, isTargetSep]
  rw [← e]
  exact scan_split _ _ _ _ (Nat.le_refl _)

/-- The pattern of `remove_whitespace` (utility.py:106) with the extras of `trim_fstring_value` (source_visitor.py:54) -/
def trimRe : Re := .seq (.one (.of [.char ' ', .char '\t', .char '\n', .char '\r', .char '\x0c', .char '\x0b', .char '(', .char ')'])) .empty

theorem trimRe_compile : reCompile ("[ \t\n\r\x0c\x0b" ++ String.join ["\\(", "\\)"] ++ "]") = some trimRe := by decide +kernel

/-- **C76**: the model of `trim_fstring_value` -/
theorem C76_trim (s : List Char) : trimRe.remove s = trimFstring s := by
  unfold trimFstring
  have e : (fun x => !(ReClass.of [.char ' ', .char '\t', .char '\n', .char '\r', .char '\x0c', .char '\x0b', .char '(', .char ')']).has x) =
      fun c => !(" \t\n\r\x0c\x0b()".toList.contains c) := by
    funext x
    rw [show " \t\n\r\x0c\x0b()".toList = [' ', '\t', '\n', '\r', '\x0c', '\x0b', '(', ')'] by decide]
    simp [ReClass.has, ReItem.has]
    rfl
  rw [← e]
  exact scan_remove _ _ _ _ (Nat.le_refl _)

/-! ### The matching itself -/

theorem takes_suffix {r : Re} {p q : RePos} (h : Takes r p q) : ∃ text, p.rest = text ++ q.rest := by
  induction h with
  | one _ => exact ⟨[_], rfl⟩
  | seq _ _ ih1 ih2 => obtain ⟨a, ha⟩ := ih1; obtain ⟨b, hb⟩ := ih2; exact ⟨a ++ b, by rw [ha, hb, List.append_assoc]⟩
  | group _ e _ => exact ⟨_, e⟩
  | optSome _ ih => exact ih
  | starMore _ _ ih1 ih2 => obtain ⟨a, ha⟩ := ih1; obtain ⟨b, hb⟩ := ih2; exact ⟨a ++ b, by rw [ha, hb, List.append_assoc]⟩
  | _ => exact ⟨[], rfl⟩

theorem takes_eats {r : Re} (he : Eats r) : ∀ {p q : RePos}, Takes r p q → q.rest.length < p.rest.length := by
  induction he with
  | one => intro p q h; cases h; simp
  | seqLeft _ ih =>
    intro p q h
    cases h with
    | seq h1 h2 =>
      have := ih h1
      obtain ⟨t, e⟩ := takes_suffix h2
      rw [e] at this
      simp at this
      omega
  | seqRight _ ih =>
    intro p q h
    cases h with
    | seq h1 h2 =>
      have := ih h2
      obtain ⟨t, e⟩ := takes_suffix h1
      rw [e]
      simp
      omega
  | group _ ih => intro p q h; cases h with | group h _ => have := ih h; exact this

theorem or_some {α : Type} {a b : Option α} {x : α} (h : a.or b = some x) : a = some x ∨ b = some x := by
  cases a with
  | none => exact .inr h
  | some y => exact .inl h

theorem repeat_sound {α : Type} {g : Bool} {a : Re} (ha : ∀ {k : RePos → Option α} {p : RePos} {x : α}, a.run k p = some x → ∃ q, Takes a p q ∧ k q = some x) :
    ∀ (n : Nat) {k : RePos → Option α} {p : RePos} {x : α}, reRepeat g a.run n k p = some x → ∃ q, Takes (.star g a) p q ∧ k q = some x
  | 0, _, p, _, h => ⟨p, .starEnd, h⟩
  | n + 1, k, p, x, h => by
    have more : a.run (reRepeat g a.run n k) p = some x → ∃ q, Takes (.star g a) p q ∧ k q = some x := by
      intro h
      obtain ⟨q, hq, h⟩ := ha h
      obtain ⟨r, hr, h⟩ := repeat_sound ha n h
      exact ⟨r, .starMore hq hr, h⟩
    unfold reRepeat at h
    cases g
    · rcases or_some h with h | h
      · exact ⟨p, .starEnd, h⟩
      · exact more h
    · rcases or_some h with h | h
      · exact more h
      · exact ⟨p, .starEnd, h⟩

/-- **C76**: what matching finds is a match. -/
theorem C76_sound {α : Type} : ∀ {r : Re} {k : RePos → Option α} {p : RePos} {x : α}, r.run k p = some x → ∃ q, Takes r p q ∧ k q = some x
  | .empty, k, p, x, h => ⟨p, .empty, h⟩
  | .one c, k, ⟨prev, s, g⟩, x, h => by
    rw [Re.run_one] at h
    match s with
    | [] => cases h
    | y :: ys =>
      dsimp only at h
      split at h
      · rename_i hy; exact ⟨_, .one hy, h⟩
      · cases h
  | .seq a b, k, p, x, h => by
    obtain ⟨q, hq, h⟩ := C76_sound (r := a) h
    obtain ⟨r, hr, h⟩ := C76_sound (r := b) h
    exact ⟨r, .seq hq hr, h⟩
  | .group n a, k, p, x, h => by
    obtain ⟨q, hq, h⟩ := C76_sound (r := a) h
    obtain ⟨t, e⟩ := takes_suffix hq
    refine ⟨_, .group hq e, ?_⟩
    rw [e] at h
    simpa using h
  | .opt a, k, p, x, h => by
    rcases or_some h with h | h
    · obtain ⟨q, hq, h⟩ := C76_sound (r := a) h
      exact ⟨q, .optSome hq, h⟩
    · exact ⟨p, .optNone, h⟩
  | .star g a, k, p, x, h => repeat_sound (fun h => C76_sound (r := a) h) _ h
  | .notBehind c, k, p, x, h => by
    simp only [Re.run] at h
    split at h
    · cases h
    · rename_i hn
      refine ⟨p, .notBehind ?_, h⟩
      intro y hy
      rw [hy] at hn
      simpa using hn
  | .notAhead c, k, p, x, h => by
    simp only [Re.run] at h
    split at h
    · cases h
    · rename_i hn
      refine ⟨p, .notAhead ?_, h⟩
      intro y ys hy
      rw [hy] at hn
      simpa using hn

theorem repeat_complete {α : Type} {g : Bool} {a : Re} (he : Eats a)
    (ha : ∀ {k : RePos → Option α} {p q : RePos}, Takes a p q → (k q).isSome → (a.run k p).isSome) :
    ∀ (n : Nat) {k : RePos → Option α} {p q : RePos}, Takes (.star g a) p q → p.rest.length ≤ n → (k q).isSome → (reRepeat g a.run n k p).isSome
  | 0, k, p, q, h, hn, hk => by
    cases h with
    | starEnd => exact hk
    | starMore h1 h2 => have := takes_eats he h1; omega
  | n + 1, k, p, q, h, hn, hk => by
    unfold reRepeat
    cases h with
    | starEnd => cases g <;> simp [hk]
    | starMore h1 h2 =>
      have hl := takes_eats he h1
      have := ha h1 (repeat_complete he ha n h2 (by omega) hk)
      cases g <;> simp [this]

/-- **C76**: matching succeeds if there is a match. -/
theorem C76_complete {α : Type} : ∀ {r : Re}, Proper r → ∀ {p q : RePos} {k : RePos → Option α}, Takes r p q → (k q).isSome → (r.run k p).isSome
  | .empty, _, _, _, _, .empty, h => h
  | .one c, _, _, _, k, .one hx, h => by
    rw [Re.run_one]
    dsimp only
    rw [if_pos hx]
    exact h
  | .seq a b, .seq ha hb, _, _, _, .seq h1 h2, h => C76_complete ha h1 (C76_complete hb h2 h)
  | .group n a, .group ha, p, _, k, .group (q := q) (text := text) h1 e, h => by
    refine C76_complete ha h1 ?_
    rw [e]
    simpa using h
  | .opt a, _, _, _, _, .optNone, h => by simp only [Re.run, Option.isSome_or, h, Bool.or_true]
  | .opt a, .opt ha, _, _, _, .optSome h1, h => by simp only [Re.run, Option.isSome_or, C76_complete ha h1 h, Bool.true_or]
  | .star g a, .star he ha, p, q, k, h1, h => repeat_complete he (fun h1 h => C76_complete ha h1 h) _ h1 (Nat.le_refl _) h
  | .notBehind c, _, p, _, k, .notBehind hx, h => by
    simp only [Re.run]
    rw [if_neg]
    · exact h
    · match e : p.prev with
      | none => simp
      | some y => simp [hx y e]
  | .notAhead c, _, p, _, k, .notAhead hx, h => by
    simp only [Re.run]
    rw [if_neg]
    · exact h
    · match e : p.rest with
      | [] => simp
      | y :: ys => simp [hx y ys e]

/-- The patterns of the source are proper. -/
theorem C76_proper : ∀ r ∈ [lineColRe, parsableRe, versionedRe, directiveRe, format27Re, withParenRe, typeAliasRe, targetsRe, trimRe], Proper r := by
  intro r hr
  simp only [List.mem_cons, List.not_mem_nil, or_false] at hr
  rcases hr with rfl | rfl | rfl | rfl | rfl | rfl | rfl | rfl | rfl <;>
    repeat (first | exact .empty | exact .one | exact .notBehind | exact .notAhead | apply Proper.seq | apply Proper.group | apply Proper.opt | apply Proper.star | exact Eats.one | exact Eats.seqLeft .one)

/-- **C76**: the patterns of the source, as they are written there, and what the models of the functions that use them do. -/
theorem C76_patterns :
    (∃ r, reCompile "L(\\d+)(?:\\s*C(\\d+))?:(.*)" = some r ∧ ∀ s, (r.match? s).map (fun m => lineColOf m.groups) = matchLineCol s) ∧
    (∃ r, reCompile "(?:.*?):(\\d+):(\\d*):(.*)" = some r ∧ ∀ s, (r.match? s).map (fun m => parsableOf m.groups) = matchParsable s) ∧
    (∃ r, reCompile "([\\w_\\.]+)\\=\\=.+" = some r ∧ ∀ s, (r.match? s).map (fun m => (m.group 1).getD []) = matchVersioned s) ∧
    (∃ r, reCompile "%(?:[-\\.\\d#\\s\\+])*(\\w)" = some r ∧ ∀ s : String, (r.findall s.toList).map String.ofList = directives s) ∧
    (∃ r, reCompile "(?<!{){}(?!})" = some r ∧ ∀ s, (r.search? s).isSome = format27From none s) ∧
    (∃ r, reCompile "with[\\s\\\\]*\\(" = some r ∧ ∀ s, (r.search? s).map (·.1) = withParenStart 0 s) ∧
    (∃ r, reCompile "type\\s+(\\w+)\\s+(\\[.+?\\]\\s+)?=\\s+(.+)" = some r ∧ ∀ s, (r.match? s).isSome = isTypeAliasText s) ∧
    (∃ r, reCompile "[\\.,]" = some r ∧ ∀ s, r.split s = splitOn isTargetSep s) ∧
    ∃ r, reCompile ("[ \t\n\r\x0c\x0b" ++ String.join ["\\(", "\\)"] ++ "]") = some r ∧ ∀ s, r.remove s = trimFstring s :=
  ⟨⟨_, lineColRe_compile, C76_lineCol⟩, ⟨_, parsableRe_compile, C76_parsable⟩, ⟨_, versionedRe_compile, C76_versioned⟩, ⟨_, directiveRe_compile, C76_directives⟩,
    ⟨_, format27Re_compile, C76_format27⟩, ⟨_, withParenRe_compile, C76_withParen⟩, ⟨_, typeAliasRe_compile, C76_typeAlias⟩, ⟨_, targetsRe_compile, C76_targets⟩,
    _, trimRe_compile, C76_trim⟩

/-- Examples: preference of groups, backtracking, lookaround, and texts that are no patterns. -/
theorem C76_witness :
    ((reCompile "L(\\d+)(?:\\s*C(\\d+))?:(.*)").bind (·.match? "L12 C3: abc\nd".toList)).map (·.groups) =
      some [(3, " abc".toList), (2, "3".toList), (1, "12".toList)] ∧
    (reCompile "%(?:[-\\.\\d#\\s\\+])*(\\w)").map (·.findall "a %d %-10y %5! %3".toList) = some ["d".toList, "y".toList, "5".toList, "3".toList] ∧
    ((reCompile "(?<!{){}(?!})").bind (·.search? "{{}} {}".toList)).map (·.1) = some 5 ∧
    (reCompile "a)").isNone ∧ (reCompile "(a").isNone ∧ (reCompile "[a").isNone ∧ (reCompile "(a)").isSome ∧
    ∃ q, Takes directiveRe ⟨none, "%5!".toList, []⟩ q ∧ q.groups = [(1, ['5'])] := by
  refine ⟨by decide +kernel, by decide +kernel, by decide +kernel, by decide +kernel, by decide +kernel, by decide +kernel, by decide +kernel, ?_⟩
  obtain ⟨q, h1, h2⟩ := C76_sound (r := directiveRe) (k := some) (p := ⟨none, "%5!".toList, []⟩) (x := ⟨some '5', ['!'], [(1, ['5'])]⟩) (by decide +kernel)
  exact ⟨q, h1, by cases h2; rfl⟩

end Vermin.Props
