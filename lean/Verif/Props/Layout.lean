import Verif.Lemmas.Layout
import Verif.Lemmas.Settled
import Verif.Lemmas.Certain
import Verif.Props.Relaxed
import Verif.Props.Parser
import Verif.Props.File
/-
C88: what a program requires depends on its layout only through excluded lines and the tests of the source text.
-/
namespace Vermin.Props
open Vermin Vermin.Py Vermin.Spec Vermin.V

/-! ### The tests of the source text -/

theorem withParenStart_at : ∀ {i : Nat} {t : List Char} {j : Nat}, withParenStart i t = some j →
    ∃ a ws b, (∀ c ∈ ws, isSpace c = true ∨ c = '\\') ∧ t = a ++ "with".toList ++ ws ++ '(' :: b ∧ i + a.length = j
  | i, [], j, h => by cases h
  | i, c :: cs, j, h => by
    have hs := h
    unfold withParenStart at h
    split at h
    · rename_i hc
      injection h with h
      subst h
      rw [Bool.and_eq_true] at hc
      obtain ⟨r, hr⟩ := List.isPrefixOf_iff_prefix.mp hc.1
      have h2 := hc.2
      rw [← hr] at h2 ⊢
      have h4 : (("with".toList ++ r).drop 4) = r := rfl
      rw [h4] at h2
      unfold parenFollows at h2
      have hh : (r.dropWhile fun c => isSpace c || c == '\\').head? = some '(' := by simpa using h2
      cases hd : (r.dropWhile fun c => isSpace c || c == '\\') with
      | nil => rw [hd] at hh; cases hh
      | cons x b =>
        rw [hd] at hh; injection hh with hh; subst hh
        refine ⟨[], r.takeWhile fun c => isSpace c || c == '\\', b, fun c hc => ?_, ?_, rfl⟩
        · have := mem_takeWhile_holds hc
          simpa using this
        · have := List.takeWhile_append_dropWhile (p := fun c => isSpace c || c == '\\') (l := r)
          rw [hd] at this
          rw [List.nil_append, List.append_assoc, this]
    · obtain ⟨a, ws, b, hw, ht, hj⟩ := withParenStart_at h
      exact ⟨c :: a, ws, b, hw, by rw [ht]; rfl, by rw [← hj, List.length_cons]; omega⟩

theorem window_eq {all : List (List Char)} (l : Nat) : ∀ k, (List.range k).filterMap (fun i => all[l + i]?) = (all.drop l).take k
  | 0 => rfl
  | k + 1 => by
    rw [List.range_succ, List.filterMap_append, window_eq l k, List.take_succ, List.getElem?_drop]
    cases h : all[l + k]? <;> simp [h]

theorem sourceLines_window {env : Env} {t : List Char} (ht : env.source = some t) {l : Nat} (hl : 1 ≤ l) :
    sourceLines env l (l + 10) = join ['\n'] (((splitlines t).drop (l - 1)).take (l + 11)) := by
  unfold sourceLines
  rw [← window_eq]
  congr 1
  congr 1
  funext i
  unfold sourceLine
  rw [ht]
  show (if l + i = 0 then none else _) = _
  rw [if_neg (by omega), show l + i - 1 = l - 1 + i by omega]

theorem join_cons_cases (x : List Char) (xs : List (List Char)) : ∃ r, join ['\n'] (x :: xs) = x ++ r ∧ (r = [] ∧ xs = [] ∨ ∃ r', r = '\n' :: r' ∧ r' = join ['\n'] xs) := by
  cases xs with
  | nil => exact ⟨[], by simp [join], .inl ⟨rfl, rfl⟩⟩
  | cons y ys => exact ⟨'\n' :: join ['\n'] (y :: ys), by simp [join], .inr ⟨_, rfl, rfl⟩⟩

theorem prefix_same_length {α : Type} {a b a' b' : List α} (h : a ++ b = a' ++ b') (hl : a.length ≤ a'.length) : ∃ c, a' = a ++ c ∧ b = c ++ b' := by
  rcases List.append_eq_append_iff.mp h with ⟨c, h1, h2⟩ | ⟨c, h1, h2⟩
  · exact ⟨c, h1, h2⟩
  · have hc : c = [] := by
      have := congrArg List.length h1
      simp at this
      exact List.eq_nil_of_length_eq_zero (by omega)
    subst hc
    exact ⟨[], by simpa using h1.symm, by simpa using h2.symm⟩

/-- The test for parentheses after `with` is exactly that. -/
theorem isWithParen_iff (env : Env) (n : Node) (h1 : 1 ≤ n.line) : isWithParen env n = true ↔ WithParenHere env n.line := by
  cases ht : env.source with
  | none =>
    have : isWithParen env n = false := by
      have hs : sourceLines env n.line (n.line + 10) = [] := by
        have : (fun i => sourceLine env (n.line + i)) = fun _ => none := by
          funext i; unfold sourceLine; rw [ht]
        unfold sourceLines
        rw [this, show (List.range (n.line + 10 + 1)).filterMap (fun _ => (none : Option (List Char))) = [] by simp]
        rfl
      simp only [isWithParen, hs]
      rfl
    rw [this]
    refine ⟨(nomatch ·), ?_⟩
    rintro ⟨t, _, _, _, _, _, _, h, _⟩
    rw [ht] at h
    cases h
  | some t =>
    have hw := sourceLines_window ht h1
    cases hf : ((splitlines t).drop (n.line - 1)).take (n.line + 11) with
    | nil =>
      rw [hf] at hw
      have : isWithParen env n = false := by
        simp only [isWithParen, hw]
        rfl
      rw [this]
      refine ⟨(nomatch ·), ?_⟩
      rintro ⟨t', all, _, _, _, _, _, h, hls, _, hd, _⟩
      rw [ht] at h
      cases h
      obtain rfl := lines_iff.mp hls
      rw [hf] at hd
      cases hd
    | cons first rest =>
      rw [hf] at hw
      have hmem : first ∈ splitlines t := List.mem_of_mem_drop (List.mem_of_mem_take (i := n.line + 11) (hf ▸ List.mem_cons_self))
      have hnb : ∀ c ∈ first, isLineBreak c = false := splitlinesAux_breaks t [] (fun _ h => nomatch h) first hmem
      obtain ⟨r, hr, hr'⟩ := join_cons_cases first rest
      have hlen : ∀ i, withParenStart 0 (first ++ r) = some i → ∀ l ls, splitlines (first ++ r) = l :: ls → l = first := by
        intro i hi l ls hl
        by_cases he : first = [] ∧ r = []
        · rw [he.1, he.2] at hi; cases hi
        · have : (r = [] ∧ (first ≠ [] ∨ ([] : List Char) ≠ [])) ∨ (∃ r', r = '\n' :: r') := by
            rcases hr' with h | ⟨r', h, _⟩
            · exact .inl ⟨h.1, .inl fun h' => he ⟨h', h.1⟩⟩
            · exact .inr ⟨r', h⟩
          obtain ⟨ls', h⟩ := splitlinesAux_head first r [] hnb this
          have h : splitlines (first ++ r) = first :: ls' := h
          rw [hl] at h
          exact (List.cons.inj h).1
      have hne : ∀ i, withParenStart 0 (first ++ r) = some i → ∃ ls, splitlines (first ++ r) = first :: ls := by
        intro i hi
        by_cases he : first = [] ∧ r = []
        · rw [he.1, he.2] at hi; cases hi
        · have : (r = [] ∧ (first ≠ [] ∨ ([] : List Char) ≠ [])) ∨ (∃ r', r = '\n' :: r') := by
            rcases hr' with h | ⟨r', h, _⟩
            · exact .inl ⟨h.1, .inl fun h' => he ⟨h', h.1⟩⟩
            · exact .inr ⟨r', h⟩
          obtain ⟨ls', h⟩ := splitlinesAux_head first r [] hnb this
          exact ⟨ls', h⟩
      constructor
      · intro h
        simp only [isWithParen, hw, hr] at h
        cases hi : withParenStart 0 (first ++ r) with
        | none => rw [hi] at h; cases h
        | some i =>
          obtain ⟨ls, hls⟩ := hne i hi
          rw [hi, hls] at h
          obtain ⟨a, ws, b, hws, he, hj⟩ := withParenStart_at hi
          have : i < first.length := of_decide_eq_true h
          exact ⟨t, _, first, rest, a, ws, b, ht, splitlines_lines t, h1, hf, hr.trans he, fun c hc => (hws c hc).imp_left (space_iff c).mp, by omega⟩
      · rintro ⟨t', all, first', rest', a, ws, b, h, hls, _, hd, he, hws, hlt⟩
        rw [ht] at h
        cases h
        obtain rfl := lines_iff.mp hls
        rw [hf] at hd
        cases hd
        obtain ⟨i, hi, hile⟩ := withParenStart_of (b := b) (fun c hc => (hws c hc).imp_left (space_iff c).mpr) a 0
        have he' : first ++ r = a ++ ("with".toList ++ ws ++ '(' :: b) := by rw [← hr, he]; simp
        rw [← he'] at hi
        obtain ⟨ls, hls⟩ := hne i hi
        simp only [isWithParen, hw, hr, hi, hls]
        exact decide_eq_true (by omega)

theorem isExceptStar_iff (env : Env) (n : Node) : isExceptStar env n = true ↔ ExceptStarText env n.line n.col := ⟨isExceptStar_text, isExceptStar_of⟩

/-! ### The theorem -/

theorem agrees_of {env : Env} {e : Site} {g : Layout} {k : Node} (h : SameSource env (env.on e) k (k.moved g)) : Agrees env e g k where
  noLine := by
    rw [Bool.eq_iff_iff]
    unfold Env.isNoLine
    rw [List.contains_iff_mem, List.contains_iff_mem]
    exact h.excluded
  star := fun hk => by rw [Bool.eq_iff_iff, isExceptStar_iff, isExceptStar_iff]; exact h.star hk
  paren := fun hk hl => by
    obtain ⟨h1, h2, h3⟩ := h.paren hk hl
    rw [Bool.eq_iff_iff, isWithParen_iff _ _ h1, isWithParen_iff _ _ h2]
    exact h3

/-- The visit of the same program on another site. -/
def siteOf (c : Config) (h : Host) (path : String) (toks : List Tok) : Site :=
  ⟨path, h.source, if c.parseComments then comments toks else [], h.dump⟩
theorem make_on (c : Config) (h h' : Host) (path path' : String) (toks toks' : List Tok) (ho : h'.order = h.order) :
    Env.make c h' path' toks' = (Env.make c h path toks).on (siteOf c h' path' toks') := by
  unfold Env.make Env.on siteOf
  rw [ho]

/-- Visits that do the same up to positions. -/
theorem follows_init {g : Layout} {v v' : V} (key : Follows g v v') :
    (∀ x, v' S.init = .error x ↔ v S.init = .error x) ∧ ∀ s, v S.init = .ok s → ∃ (l : Nat × Option String) (lc : _) (o : _),
      v' S.init = .ok { s with line := l.1, functionName := l.2, lineCol := lc, out := o, ellipsisInSlices := s.ellipsisInSlices.map g.uid } := by
  have key := key.run S.init (1, none) [] []
  rw [show S.init.placed g (1, none) [] [] = S.init from rfl] at key
  revert key
  cases v S.init with
  | error x =>
    cases v' S.init with
    | error x' => rintro rfl; exact ⟨fun _ => Iff.rfl, fun s hs => nomatch hs⟩
    | ok t' => exact False.elim
  | ok t =>
    cases v' S.init with
    | error x' => exact False.elim
    | ok t' =>
      rintro ⟨l, lc, o, rfl⟩
      exact ⟨fun x => ⟨(nomatch ·), (nomatch ·)⟩, fun s hs => by cases hs; exact ⟨l, lc, o, rfl⟩⟩

/-- **C88 (findings).** If the nodes of a program are moved to other positions and its text changes, such that the same lines are
excluded by comments and the source says the same about `except*` and parentheses after `with`, then the same is found: the visits
raise the same error or end in states that differ in positions, output, the identities of nodes and the name of the last function called (`function_name`, which
is only written) only. -/
theorem C88_findings (c : Config) (h h' : Host) (path : String) (toks toks' : List Tok) (n : Node) (g : Layout)
    (ho : h'.order = h.order) (hu : ∀ u v, g.uid u = g.uid v → u = v)
    (hs : ∀ k, In k n → SameSource (Env.make c h path toks) (Env.make c h' path toks') k (k.moved g)) :
    (∀ x, tour (Env.make c h' path toks') (n.moved g) S.init = .error x ↔ tour (Env.make c h path toks) n S.init = .error x) ∧
    (∀ s, tour (Env.make c h path toks) n S.init = .ok s → ∃ (l : Nat × Option String) (lc : _) (o : _),
      tour (Env.make c h' path toks') (n.moved g) S.init =
        .ok { s with line := l.1, functionName := l.2, lineCol := lc, out := o, ellipsisInSlices := s.ellipsisInSlices.map g.uid }) := by
  rw [make_on c h h' path path toks toks' ho] at hs ⊢
  exact follows_init (tour_follows (env := Env.make c h path toks) (e := siteOf c h' path toks') (g := g) rfl hu n (fun k hk => agrees_of (hs k hk)))

/-- The same findings, up to positions, give the same minimum versions. -/
theorem detect_placed {c : Config} {h h' : Host} {path path' : String} {toks toks' : List Tok} {n m' : Node} {g : Layout} (ho : h'.order = h.order) (hb : badPath c path' = badPath c path)
    (h1 : ∀ x, tour (Env.make c h' path' toks') m' S.init = .error x ↔ tour (Env.make c h path toks) n S.init = .error x)
    (h2 : ∀ s, tour (Env.make c h path toks) n S.init = .ok s → ∃ (l : Nat × Option String) (lc : _) (o : _),
      tour (Env.make c h' path' toks') m' S.init = .ok { s with line := l.1, functionName := l.2, lineCol := lc, out := o, ellipsisInSlices := s.ellipsisInSlices.map g.uid }) :
    detectSource c h' path' m' toks' = detectSource c h path n toks := by
  unfold detectSource visitSource
  rw [hb]
  cases badPath c path with
  | true => rfl
  | false =>
    simp only [Bool.false_eq_true, if_false]
    cases ht : tour (Env.make c h path toks) n S.init with
    | error x => rw [(h1 x).mpr ht]
    | ok s =>
      obtain ⟨l, lc, o, h3⟩ := h2 s ht
      rw [h3]
      dsimp only
      have hm : ∀ s l lc o, AlignedM g (minimumVersions (Env.make c h path toks) s) (minimumVersions (Env.make c h' path' toks') (s.placed g l lc o)) := by
        rw [make_on c h h' path path' toks toks' ho]
        exact minimumVersions_follows
      have k := hm s l lc o
      rw [show s.placed g l lc o = { s with line := l.1, functionName := l.2, lineCol := lc, out := o, ellipsisInSlices := s.ellipsisInSlices.map g.uid } from rfl] at k
      revert k
      cases minimumVersions (Env.make c h path toks) s with
      | error x =>
        cases minimumVersions (Env.make c h' path' toks') _ with
        | error x' => rintro rfl; rfl
        | ok t' => exact False.elim
      | ok t =>
        cases minimumVersions (Env.make c h' path' toks') _ with
        | error x' => exact False.elim
        | ok t' =>
          obtain ⟨t, m⟩ := t
          obtain ⟨t', m'⟩ := t'
          rintro ⟨_, l, lc, o, rfl⟩
          have k := hm t l lc o
          dsimp only
          revert k
          cases minimumVersions (Env.make c h path toks) t with
          | error x =>
            cases minimumVersions (Env.make c h' path' toks') _ with
            | error x' => rintro rfl; rfl
            | ok t' => exact False.elim
          | ok t =>
            cases minimumVersions (Env.make c h' path' toks') _ with
            | error x' => exact False.elim
            | ok t' =>
              obtain ⟨t, m⟩ := t
              obtain ⟨t', m'⟩ := t'
              rintro ⟨rfl, _⟩
              rfl

/-- **C88.** Under the same conditions what is detected is the same: the same minimum versions, or the same error. -/
theorem C88_layout (c : Config) (h h' : Host) (path : String) (toks toks' : List Tok) (n : Node) (g : Layout)
    (ho : h'.order = h.order) (hu : ∀ u v, g.uid u = g.uid v → u = v)
    (hs : ∀ k, In k n → SameSource (Env.make c h path toks) (Env.make c h' path toks') k (k.moved g)) :
    detectSource c h' path (n.moved g) toks' = detectSource c h path n toks := by
  obtain ⟨h1, h2⟩ := C88_findings c h h' path toks toks' n g ho hu hs
  exact detect_placed ho rfl h1 h2

/-! ### Lines inserted at the top -/

theorem window_longer {first rest more a ws b : List Char} {x : Char} (hx : x ∈ rest) (hb : ¬ (Space x ∨ x = '\\'))
    (he : first ++ '\n' :: rest ++ more = a ++ "with".toList ++ ws ++ '(' :: b) (hws : ∀ c ∈ ws, Space c ∨ c = '\\') (ha : a.length < first.length) :
    ∃ b', first ++ '\n' :: rest = a ++ "with".toList ++ ws ++ '(' :: b' := by
  obtain ⟨p, q, rfl⟩ := List.append_of_mem hx
  have h1 : (a ++ "with".toList ++ ws ++ '(' :: b)[first.length]? = some '\n' := by rw [← he]; simp
  have h2 : (a ++ "with".toList ++ ws ++ '(' :: b)[first.length + 1 + p.length]? = some x := by
    rw [← he, show first ++ '\n' :: (p ++ x :: q) ++ more = (first ++ '\n' :: p) ++ (x :: (q ++ more)) by simp,
      List.getElem?_append_right (by simp; omega), show first.length + 1 + p.length - (first ++ '\n' :: p).length = 0 by simp; omega]
    rfl
  have hlen : (a ++ "with".toList ++ ws).length ≤ first.length + 1 + p.length := by
    refine Nat.le_of_not_lt fun hlt => ?_
    rw [List.getElem?_append_left hlt] at h2
    by_cases hj : first.length + 1 + p.length < (a ++ "with".toList).length
    · rw [List.append_assoc, List.append_assoc, List.getElem?_append_right (by omega), List.getElem?_append_left (by
        simp at hj ⊢; omega)] at h1
      have := List.mem_of_getElem? h1
      revert this
      decide
    · rw [List.getElem?_append_right (by omega)] at h2
      exact hb (hws x (List.mem_of_getElem? h2))
  obtain ⟨d, h3, h4⟩ := prefix_same_length he.symm (by simp at hlen ⊢; omega)
  cases d with
  | nil =>
    have := congrArg List.length h3
    simp at this hlen
    omega
  | cons y d =>
    cases h4
    exact ⟨d, h3⟩

theorem join_prefix : ∀ (xs ys : List (List Char)), ∃ r, join ['\n'] (xs ++ ys) = join ['\n'] xs ++ r
  | [], ys => ⟨_, rfl⟩
  | [x], ys => by
    obtain ⟨r, hr, _⟩ := join_cons_cases x ys
    exact ⟨r, hr⟩
  | x :: y :: xs, ys => by
    obtain ⟨r, hr⟩ := join_prefix (y :: xs) ys
    refine ⟨r, ?_⟩
    show x ++ ['\n'] ++ join ['\n'] (y :: xs ++ ys) = x ++ ['\n'] ++ join ['\n'] (y :: xs) ++ r
    rw [hr]
    simp

theorem mem_join {x : Char} {l : List Char} (hx : x ∈ l) : ∀ {ls : List (List Char)}, l ∈ ls → x ∈ join ['\n'] ls
  | [y], h => by
    cases h with
    | head => exact hx
    | tail _ h => cases h
  | y :: z :: ls, h => by
    show x ∈ y ++ ['\n'] ++ join ['\n'] (z :: ls)
    cases h with
    | head => simp [hx]
    | tail _ h => exact List.mem_append.mpr (.inr (mem_join hx h))

/-- Whether a `with` statement is found to have parentheses does not change if `d` lines are inserted at the top, unless there is
nothing but white space and backslashes in the lines that are considered after the first. -/
theorem withParen_down {env env' : Env} {t t' : List Char} {all pre : List (List Char)} (ht : env.source = some t) (ht' : env'.source = some t')
    (hl : Lines t all) (hl' : Lines t' (pre ++ all)) {l : Nat} (h1 : 1 ≤ l)
    (hw : all.length ≤ 2 * l + 10 ∨ ∃ i x, l < i ∧ i ≤ 2 * l + 10 ∧ SourceLine env i x ∧ ∃ c ∈ x, ¬ Space c ∧ c ≠ '\\') :
    WithParenHere env' (l + pre.length) ↔ WithParenHere env l := by
  have hd : (pre ++ all).drop (l + pre.length - 1) = all.drop (l - 1) := by
    rw [show l + pre.length - 1 = pre.length + (l - 1) by omega, List.drop_append]
    simp
  constructor
  · rintro ⟨t0, all0, first, rest, a, ws, b, h0, hls, _, hf, he, hws, hlt⟩
    rw [ht'] at h0
    cases h0
    obtain rfl := (lines_iff.mp hls).trans (lines_iff.mp hl').symm
    rw [hd] at hf
    have hsplit : (all.drop (l - 1)).take (l + pre.length + 11) = (all.drop (l - 1)).take (l + 11) ++ ((all.drop (l - 1)).drop (l + 11)).take pre.length := by
      rw [show l + pre.length + 11 = l + 11 + pre.length by omega, List.take_add]
    cases hA : all.drop (l - 1) with
    | nil => rw [hA] at hf; simp at hf
    | cons y ys =>
      have hy : y = first := by rw [hA] at hf; simp at hf; exact hf.1
      subst hy
      have hw0 : (all.drop (l - 1)).take (l + 11) = y :: ys.take (l + 10) := by rw [hA]; rfl
      rcases hw with hw | ⟨i, z, hi, hi', hz, ch, hc, hs, hbs⟩
      · have : (all.drop (l - 1)).take (l + pre.length + 11) = (all.drop (l - 1)).take (l + 11) := by
          rw [List.take_of_length_le (by simp; omega), List.take_of_length_le (by simp; omega)]
        rw [this, hw0] at hf
        cases hf
        exact ⟨t, all, y, _, a, ws, b, ht, hl, h1, hw0, he, hws, hlt⟩
      · obtain ⟨t0, ls0, h0, hls0, _, hz⟩ := hz
        rw [ht] at h0
        cases h0
        obtain rfl := (lines_iff.mp hl).trans (lines_iff.mp hls0).symm
        have hz' : z ∈ ys.take (l + 10) := by
          have : ys[i - l - 1]? = some z := by
            have : (y :: ys)[i - l]? = some z := by
              rw [← hA, List.getElem?_drop, show l - 1 + (i - l) = i - 1 by omega]
              exact hz
            rw [show i - l = i - l - 1 + 1 by omega] at this
            simpa using this
          apply List.mem_of_getElem? (i := i - l - 1)
          rw [List.getElem?_take, if_pos (by omega)]
          exact this
        rw [← hf, hsplit, hw0] at he
        obtain ⟨r, hr⟩ := join_prefix (y :: ys.take (l + 10)) (((all.drop (l - 1)).drop (l + 11)).take pre.length)
        obtain ⟨r0, hr0, h00⟩ := join_cons_cases y (ys.take (l + 10))
        rcases h00 with ⟨_, h00⟩ | ⟨r1, rfl, rfl⟩
        · rw [h00] at hz'; cases hz'
        · rw [hr, hr0] at he
          obtain ⟨b', hb'⟩ := window_longer (mem_join hc hz') (by simp [hs, hbs]) he hws hlt
          exact ⟨t, all, y, _, a, ws, b', ht, hl, h1, hw0, hr0.trans hb', hws, hlt⟩
  · rintro ⟨t0, all0, first, rest, a, ws, b, h0, hls, _, hf, he, hws, hlt⟩
    rw [ht] at h0
    cases h0
    obtain rfl := (lines_iff.mp hl).trans (lines_iff.mp hls).symm
    obtain ⟨r, hr⟩ := join_prefix (first :: rest) (((all.drop (l - 1)).drop (l + 11)).take pre.length)
    refine ⟨t', _, first, rest ++ ((all.drop (l - 1)).drop (l + 11)).take pre.length, a, ws, b ++ r, ht', hl', by omega, ?_, ?_, hws, hlt⟩
    · rw [hd, show l + pre.length + 11 = l + 11 + pre.length by omega, List.take_add, hf]
      rfl
    · show join ['\n'] ((first :: rest) ++ _) = _
      rw [hr, he]
      simp

/-- Every node `d` lines further down. -/
def down (d : Nat) : Layout := ⟨fun i => i.line.map (· + d), fun i => i.col, id⟩

theorem exceptStar_down {env env' : Env} {t t' : List Char} {all pre : List (List Char)} (ht : env.source = some t) (ht' : env'.source = some t')
    (hl : Lines t all) (hl' : Lines t' (pre ++ all)) {l col : Nat} (h1 : 1 ≤ l) :
    ExceptStarText env' (l + pre.length) col ↔ ExceptStarText env l col := by
  have hs : ∀ x, SourceLine env' (l + pre.length) x ↔ SourceLine env l x := by
    intro x
    constructor
    · rintro ⟨t0, ls, h0, hls, _, hx⟩
      rw [ht'] at h0
      cases h0
      obtain rfl := (lines_iff.mp hls).trans (lines_iff.mp hl').symm
      rw [List.getElem?_append_right (by omega), show l + pre.length - 1 - pre.length = l - 1 by omega] at hx
      exact ⟨t, all, ht, hl, h1, hx⟩
    · rintro ⟨t0, ls, h0, hls, _, hx⟩
      rw [ht] at h0
      cases h0
      obtain rfl := (lines_iff.mp hl).trans (lines_iff.mp hls).symm
      refine ⟨t', _, ht', hl', by omega, ?_⟩
      rw [List.getElem?_append_right (by omega), show l + pre.length - 1 - pre.length = l - 1 by omega]
      exact hx
  simp only [ExceptStarText, hs]

/-- **C88 (inserted lines).** Lines inserted at the top of a file (such that everything, comments that exclude lines included, is
that many lines further down) do not change what is detected; if a `with` statement of several items has something else
than white space and backslashes in the lines that are considered after its first one. -/
theorem C88_inserted (c : Config) (h h' : Host) (path : String) (toks toks' : List Tok) (n : Node)
    (ho : h'.order = h.order) {t t' : List Char} {all pre : List (List Char)} (ht : h.source = some t) (ht' : h'.source = some t')
    (hl : Lines t all) (hl' : Lines t' (pre ++ all))
    (hc : ∀ l, l ∈ comments toks' ↔ ∃ k ∈ comments toks, l = k + pre.length) (hc0 : 0 ∉ comments toks) (hp : pre ≠ [])
    (hpos : ∀ k, In k n → (∃ x, k.kind = .exceptHandler x) ∨ k.kind = .with ∨ k.kind = .asyncWith → ∃ l, k.info.line = some l ∧ 1 ≤ l)
    (hw : ∀ k, In k n → k.kind = .with ∨ k.kind = .asyncWith → 2 ≤ (k.fields .items).length → all.length ≤ 2 * k.line + 10 ∨
      ∃ i x, k.line < i ∧ i ≤ 2 * k.line + 10 ∧ SourceLine (Env.make c h path toks) i x ∧ ∃ c ∈ x, ¬ Space c ∧ c ≠ '\\') :
    detectSource c h' path (n.moved (down pre.length)) toks' = detectSource c h path n toks := by
  refine C88_layout c h h' path toks toks' n _ ho (fun _ _ h => h) fun k hk => ?_
  have hline : (k.moved (down pre.length)).info.line = k.info.line.map (· + pre.length) := by cases k; rfl
  have hcol : (k.moved (down pre.length)).col = k.col := by cases k; rfl
  have hsome : ∀ l, k.info.line = some l → (k.moved (down pre.length)).line = l + pre.length ∧ k.line = l := by
    intro l hl
    unfold Node.line
    rw [hline, hl]
    exact ⟨rfl, rfl⟩
  constructor
  · show _ ∈ (if c.parseComments then comments toks' else []) ↔ _ ∈ (if c.parseComments then comments toks else [])
    cases c.parseComments with
    | false => simp
    | true =>
      simp only [if_true]
      cases hl : k.info.line with
      | none =>
        have h1 : k.line = 0 := by unfold Node.line; rw [hl]; rfl
        have h2 : (k.moved (down pre.length)).line = 0 := by unfold Node.line; rw [hline, hl]; rfl
        rw [h1, h2, hc]
        refine ⟨fun ⟨j, _, hj⟩ => ?_, fun h => (hc0 h).elim⟩
        have : pre.length ≠ 0 := by simpa using hp
        omega
      | some l =>
        rw [(hsome l hl).1, (hsome l hl).2, hc]
        exact ⟨fun ⟨j, hj, he⟩ => by rwa [show l = j by omega], fun h => ⟨l, h, rfl⟩⟩
  · intro hx
    obtain ⟨l, h1, h2⟩ := hpos k hk (.inl hx)
    rw [(hsome l h1).1, (hsome l h1).2, hcol]
    exact exceptStar_down ht ht' hl hl' h2
  · intro hx h2
    obtain ⟨l, h3, h4⟩ := hpos k hk (.inr hx)
    have := hw k hk hx h2
    rw [(hsome l h3).2] at this
    rw [(hsome l h3).1, (hsome l h3).2]
    exact ⟨h4, by omega, withParen_down ht ht' hl hl' h4 this⟩

/-! ### Comments and empty lines inserted at the top -/

/-- The token `d` lines further down. -/
def _root_.Vermin.Tok.down (d : Nat) (t : Tok) : Tok := { t with line := t.line + d, endLine := t.endLine + d }

def downState (d : Nat) (s : CommentState) : CommentState :=
  ⟨s.prevNewline, s.multiline.map fun m => (m.1 + d, m.2 + d), s.marked.map (· + d)⟩

theorem commentLine_down (d : Nat) (m : Option (Nat × Nat)) (l : Nat) :
    commentLine (m.map fun m => (m.1 + d, m.2 + d)) (l + d) = commentLine m l + d := by
  cases m with
  | none => rfl
  | some m =>
    obtain ⟨a, b⟩ := m
    simp only [commentLine, Option.map_some]
    by_cases h : b = l
    · rw [if_pos h, if_pos (by omega)]
    · rw [if_neg h, if_neg (by omega)]

theorem addLine_down (d : Nat) (l : List Nat) (n : Nat) : addLine (l.map (· + d)) (n + d) = (addLine l n).map (· + d) := by
  unfold addLine
  by_cases h : n ∈ l
  · rw [if_pos (by simpa using h), if_pos (by simpa using h)]
  · rw [if_neg (by simpa using h), if_neg (by simpa using h)]
    simp

theorem commentStep_down (d : Nat) (s : CommentState) (t : Tok) : commentStep (downState d s) (t.down d) = downState d (commentStep s t) := by
  obtain ⟨ty, tx, l, c, e⟩ := t
  cases ty with
  | string =>
    simp only [commentStep, Tok.down, downState]
    by_cases h : isTripleQuoted tx = true <;> simp [h]
  | comment =>
    simp only [commentStep, Tok.down, downState]
    rw [commentLine_down]
    by_cases h : hasMark tx = true
    · simp only [h, if_true, Option.map_none]
      rw [← addLine_down]
      congr 2
      show (if (s.prevNewline || decide (c = 0)) = true then commentLine s.multiline l + d + 1 else commentLine s.multiline l + d) =
        (if (s.prevNewline || decide (c = 0)) = true then commentLine s.multiline l + 1 else commentLine s.multiline l) + d
      by_cases ha : (s.prevNewline || decide (c = 0)) = true
      · rw [if_pos ha, if_pos ha]; omega
      · rw [if_neg ha, if_neg ha]
    · simp [h]
  | newline => rfl
  | nl => rfl
  | other => rfl

theorem foldl_down (d : Nat) : ∀ (toks : List Tok) (s : CommentState),
    (toks.map (Tok.down d)).foldl commentStep (downState d s) = downState d (toks.foldl commentStep s)
  | [], _ => rfl
  | t :: ts, s => by rw [List.map_cons, List.foldl_cons, List.foldl_cons, commentStep_down, foldl_down d ts]

/-- Unless the first token is an indented comment, it does not matter whether the token before it was the end of a line. -/
theorem foldl_start : ∀ (toks : List Tok) (b : Bool), (∀ t, toks.head? = some t → t.type = .comment → t.col = 0) →
    (toks.foldl commentStep ⟨b, none, []⟩).marked = (toks.foldl commentStep ⟨false, none, []⟩).marked
  | [], _, _ => rfl
  | t :: ts, b, h => by
    rw [List.foldl_cons, List.foldl_cons]
    have : commentStep ⟨b, none, []⟩ t = commentStep ⟨false, none, []⟩ t := by
      have := h t rfl
      obtain ⟨ty, tx, l, c, e⟩ := t
      cases ty with
      | comment =>
        have hc : c = 0 := this rfl
        subst hc
        simp [commentStep]
      | _ => rfl
    rw [this]

theorem foldl_front : ∀ (front : List Tok) (b : Bool), (∀ t ∈ front, t.type = .nl ∨ t.type = .comment ∧ t.text.head? = some '#' ∧ ¬ Marks t.text) →
    ∃ b', front.foldl commentStep ⟨b, none, []⟩ = ⟨b', none, []⟩
  | [], b, _ => ⟨b, rfl⟩
  | t :: ts, b, h => by
    have : ∃ b', commentStep ⟨b, none, []⟩ t = ⟨b', none, []⟩ := by
      rcases h t (.head _) with h | ⟨h, hh, hm⟩
      · unfold commentStep; rw [h]; exact ⟨_, rfl⟩
      · unfold commentStep
        rw [h]
        have : hasMark t.text = false := by
          cases hx : hasMark t.text with
          | false => rfl
          | true => exact absurd ((hasMark_iff hh).mp hx) hm
        simp [this]
    obtain ⟨b', hb'⟩ := this
    rw [List.foldl_cons, hb']
    exact foldl_front ts b' fun t ht => h t (.tail _ ht)

/-- **C88 (comments).** If empty lines and comments without a mark are inserted at the top of a file, which does not begin with an
indented comment, then the lines excluded by comments are the same ones, further down. -/
theorem C88_comments (d : Nat) (front toks : List Tok)
    (hf : ∀ t ∈ front, t.type = .nl ∨ t.type = .comment ∧ t.text.head? = some '#' ∧ ¬ Marks t.text)
    (hi : ∀ t, toks.head? = some t → t.type = .comment → t.col = 0) :
    comments (front ++ toks.map (Tok.down d)) = (comments toks).map (· + d) := by
  obtain ⟨b, hb⟩ := foldl_front front false hf
  unfold comments
  rw [List.foldl_append, hb, foldl_start _ b, show (⟨false, none, []⟩ : CommentState) = downState d ⟨false, none, []⟩ from rfl, foldl_down]
  · rfl
  · intro t ht hc
    rw [List.head?_map] at ht
    cases h : toks.head? with
    | none => rw [h] at ht; cases ht
    | some t0 =>
      rw [h] at ht
      cases ht
      exact hi t0 h hc

theorem comments_pos {toks : List Tok} (h : ∀ t ∈ toks, 1 ≤ t.line) : 0 ∉ comments toks := by
  suffices ∀ (toks : List Tok) (s : CommentState), (∀ t ∈ toks, 1 ≤ t.line) → (∀ m, s.multiline = some m → 1 ≤ m.1) → 0 ∉ s.marked →
      0 ∉ (toks.foldl commentStep s).marked from this toks _ h nofun nofun
  intro toks
  induction toks with
  | nil => exact fun _ _ _ h => h
  | cons t ts ih =>
    intro s ht hm h0
    have h1 := ht t (.head _)
    refine ih _ (fun t h => ht t (.tail _ h)) ?_ ?_
    · obtain ⟨ty, tx, l, c, e⟩ := t
      cases ty with
      | string =>
        intro m hm'
        simp only [commentStep] at hm'
        split at hm'
        · cases hm'; exact h1
        · exact hm m hm'
      | comment => exact nofun
      | _ => exact hm
    · obtain ⟨ty, tx, l, c, e⟩ := t
      cases ty with
      | comment =>
        have hl : 1 ≤ commentLine s.multiline l := by
          cases hs : s.multiline with
          | none => exact h1
          | some m =>
            obtain ⟨a, b⟩ := m
            have := hm _ hs
            simp only [commentLine]
            split
            · exact this
            · exact h1
        have ha : ∀ n, 1 ≤ n → 0 ∉ addLine s.marked n := by
          intro n hn
          unfold addLine
          split
          · exact h0
          · simp [h0]; omega
        simp only [commentStep]
        split
        · apply ha; split <;> omega
        · exact h0
      | _ => exact h0

/-- **C88 (insertion).** Empty lines and comments without a mark can be inserted at the top of a file without a change of what is detected, if
the file does not begin with an indented comment and every `with` statement of several items has something else
than white space and backslashes in the lines that are considered after its first one. -/
theorem C88_insertion (c : Config) (h : Host) (path : String) (front toks : List Tok) (n : Node)
    {t t' : List Char} {all pre : List (List Char)} (ht : h.source = some t) (hl : Lines t all) (hl' : Lines t' (pre ++ all))
    (hf : ∀ t ∈ front, t.type = .nl ∨ t.type = .comment ∧ t.text.head? = some '#' ∧ ¬ Marks t.text)
    (hi : ∀ t, toks.head? = some t → t.type = .comment → t.col = 0) (h1 : ∀ t ∈ toks, 1 ≤ t.line) (hp : pre ≠ [])
    (hpos : ∀ k, In k n → (∃ x, k.kind = .exceptHandler x) ∨ k.kind = .with ∨ k.kind = .asyncWith → ∃ l, k.info.line = some l ∧ 1 ≤ l)
    (hw : ∀ k, In k n → k.kind = .with ∨ k.kind = .asyncWith → 2 ≤ (k.fields .items).length → all.length ≤ 2 * k.line + 10 ∨
      ∃ i x, k.line < i ∧ i ≤ 2 * k.line + 10 ∧ SourceLine (Env.make c h path toks) i x ∧ ∃ c ∈ x, ¬ Space c ∧ c ≠ '\\') :
    detectSource c { h with source := some t' } path (n.moved (down pre.length)) (front ++ toks.map (Tok.down pre.length)) = detectSource c h path n toks := by
  refine C88_inserted c h { h with source := some t' } path toks _ n rfl ht rfl hl hl' (fun l => ?_) (comments_pos h1) hp hpos hw
  rw [C88_comments _ _ _ hf hi]
  simp [eq_comm]

/-! ### Examples -/

/-- A host with the text. -/
def hostOf (t : String) : Host := { exampleHost with source := some t.toList }

/-- `with … a, b: pass` -/
def withProg : Node := prog [nd .body .with 1 [nd .items .withItem 1 [nm .contextExpr "a"], nd .items .withItem 1 [nm .contextExpr "b"], nd .body .pass 1 []]]

/-- A `with` statement with parentheses requires 3.9, and so it does after a comment. -/
theorem C88_witness : detectSource (Config.init 1) (hostOf "with (a, b):\n  pass") "a.py" withProg [] = .ok ⟨none, some ⟨3, 9⟩⟩ ∧
    detectSource (Config.init 1) (hostOf "# x\n\nwith (a, b):\n  pass") "a.py" (withProg.moved (down 2))
      [⟨.comment, "# x".toList, 1, 0, 1⟩, ⟨.nl, ['\n'], 1, 3, 1⟩, ⟨.nl, ['\n'], 2, 0, 2⟩] = .ok ⟨none, some ⟨3, 9⟩⟩ := by
  decide +kernel

/-- `with`, a backslash, eleven lines of a backslash and `(a, b): pass`. -/
def longWith : String := "with \\\n" ++ String.join (List.replicate 11 "\\\n") ++ "(a, b): pass"

/-- The lines considered after that of a `with` statement are as many as its line number and ten more: a parenthesis can be too far away at the
top of a file and near enough one line further down. -/
theorem C88_false_with : detectSource (Config.init 1) (hostOf longWith) "a.py" withProg [] = .ok ⟨some ⟨2, 7⟩, some ⟨3, 1⟩⟩ ∧
    detectSource (Config.init 1) (hostOf ("\n" ++ longWith)) "a.py" (withProg.moved (down 1)) [⟨.nl, ['\n'], 1, 0, 1⟩] = .ok ⟨none, some ⟨3, 9⟩⟩ := by
  decide +kernel

/-- An indented comment in the first line of a file excludes that line; one line further down it excludes the line after it. -/
theorem C88_false_comment : comments [⟨.comment, "# novm".toList, 1, 2, 1⟩] = [1] ∧
    comments ([⟨.nl, ['\n'], 1, 0, 1⟩] ++ [⟨.comment, "# novm".toList, 1, 2, 1⟩].map (Tok.down 1)) = [3] := by decide +kernel

end Vermin.Props
