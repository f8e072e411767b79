import Verif.Model.Detection
import Verif.Lemmas.Text
/-
Lemmas on paths.
-/
namespace Vermin
open Py

theorem of_mem_takeWhile {p : Char → Bool} {l : List Char} {c : Char} (h : c ∈ l.takeWhile p) : p c = true := by
  induction l with
  | nil => cases h
  | cons x l ih =>
    rw [List.takeWhile_cons] at h
    split at h
    · rename_i hx
      rcases List.mem_cons.mp h with rfl | h
      · exact hx
      · exact ih h
    · cases h

/-- A list is split at the last place where a character occurs. -/
theorem split_last {x : Char} {l : List Char} (h : x ∈ l) : ∃ a b, l = a ++ x :: b ∧ x ∉ b := by
  induction l with
  | nil => cases h
  | cons c l ih =>
    by_cases hl : x ∈ l
    · obtain ⟨a, b, rfl, hb⟩ := ih hl
      exact ⟨c :: a, b, rfl, hb⟩
    · rcases List.mem_cons.mp h with rfl | h
      · exact ⟨[], l, rfl, hl⟩
      · exact absurd h hl

theorem takeWhile_append_stop {p : Char → Bool} {a b : List Char} (ha : ∀ c ∈ a, p c = true)
    (hb : b = [] ∨ ∃ c r, b = c :: r ∧ p c = false) : (a ++ b).takeWhile p = a := by
  induction a with
  | nil =>
    rcases hb with rfl | ⟨c, r, rfl, hc⟩
    · rfl
    · simp [hc]
  | cons x a ih =>
    rw [List.cons_append, List.takeWhile_cons, ha x List.mem_cons_self, ih fun c hc => ha c (List.mem_cons_of_mem _ hc)]
    rfl

/-- A path is its folder part (empty or ending in a slash) and its base name. -/
theorem baseName_eq {dir b : List Char} (hd : dir = [] ∨ ∃ d, dir = d ++ ['/']) (hb : '/' ∉ b) : baseName (dir ++ b) = b := by
  unfold baseName
  rw [List.reverse_append, takeWhile_append_stop, List.reverse_reverse]
  · intro c hc
    rw [List.mem_reverse] at hc
    simp only [bne_iff_ne, ne_eq]
    rintro rfl; exact hb hc
  · rcases hd with rfl | ⟨d, rfl⟩
    · exact .inl rfl
    · refine .inr ⟨'/', d.reverse, by simp, by decide⟩

theorem baseName_split (p : List Char) : ∃ dir, (dir = [] ∨ ∃ d, dir = d ++ ['/']) ∧ p = dir ++ baseName p ∧
    '/' ∉ baseName p := by
  have h1 : '/' ∉ baseName p := by
    unfold baseName
    rw [List.mem_reverse]
    intro h
    have := of_mem_takeWhile h
    revert this; decide
  have h2 := List.takeWhile_append_dropWhile (p := fun c => c != '/') (l := p.reverse)
  refine ⟨(p.reverse.dropWhile fun c => c != '/').reverse, ?_, ?_, h1⟩
  · cases hd : p.reverse.dropWhile fun c => c != '/' with
    | nil => exact .inl rfl
    | cons c r =>
      have hc : (c != '/') = false := by
        have := List.head?_dropWhile_not (fun c => c != '/') p.reverse
        rw [hd] at this
        simpa using this
      simp only [bne_eq_false_iff_eq] at hc
      refine .inr ⟨r.reverse, by simp [hc]⟩
  · unfold baseName
    rw [← List.reverse_append, h2, List.reverse_reverse]

/-- `e` is the extension of the path: what follows the last dot of the base name, which has something other than dots
before it. -/
def HasExt (p e : List Char) : Prop :=
  ∃ dir stem, p = dir ++ (stem ++ '.' :: e) ∧ (dir = [] ∨ ∃ d, dir = d ++ ['/']) ∧ '/' ∉ stem ∧ '/' ∉ e ∧ '.' ∉ e ∧
    ∃ c ∈ stem, c ≠ '.'

theorem extOf_of_hasExt {p e : List Char} (h : HasExt p e) : extOf p = '.' :: e := by
  obtain ⟨dir, stem, rfl, hd, hs, he, hdot, c, hc, hne⟩ := h
  unfold extOf
  have hb : baseName (dir ++ (stem ++ '.' :: e)) = stem ++ '.' :: e := baseName_eq hd (by
    simp only [List.mem_append, List.mem_cons, not_or]
    exact ⟨hs, by decide, he⟩)
  simp only [hb]
  have hext : ((stem ++ '.' :: e).reverse.takeWhile fun c => c != '.').reverse = e := by
    rw [List.reverse_append, List.reverse_cons, List.append_assoc, takeWhile_append_stop, List.reverse_reverse]
    · intro c hc
      rw [List.mem_reverse] at hc
      simp only [bne_iff_ne, ne_eq]
      rintro rfl; exact hdot hc
    · exact .inr ⟨'.', stem.reverse, rfl, by decide⟩
  rw [hext]
  have hroot : (stem ++ '.' :: e).take ((stem ++ '.' :: e).length - e.length - 1) = stem := by
    have : (stem ++ '.' :: e).length - e.length - 1 = stem.length := by simp only [List.length_append, List.length_cons]; omega
    rw [this, List.take_left]
  rw [hroot, if_pos]
  simp only [List.contains_eq_mem, List.mem_append, List.mem_cons, true_or, or_true, decide_true, Bool.true_and,
    List.any_eq_true]
  exact ⟨c, hc, by simpa using hne⟩

theorem hasExt_of_extOf {p : List Char} (h : extOf p ≠ []) : ∃ e, HasExt p e ∧ extOf p = '.' :: e := by
  obtain ⟨dir, hd, hp, hb⟩ := baseName_split p
  by_cases hdot : '.' ∈ baseName p
  · obtain ⟨stem, e, hs, he⟩ := split_last hdot
    have hext : ((stem ++ '.' :: e).reverse.takeWhile fun c => c != '.').reverse = e := by
      rw [List.reverse_append, List.reverse_cons, List.append_assoc, takeWhile_append_stop, List.reverse_reverse]
      · intro c hc
        rw [List.mem_reverse] at hc
        simp only [bne_iff_ne, ne_eq]
        rintro rfl; exact he hc
      · exact .inr ⟨'.', stem.reverse, rfl, by decide⟩
    have hroot : (stem ++ '.' :: e).take ((stem ++ '.' :: e).length - e.length - 1) = stem := by
      have : (stem ++ '.' :: e).length - e.length - 1 = stem.length := by
        simp only [List.length_append, List.length_cons]; omega
      rw [this, List.take_left]
    unfold extOf at h
    simp only [hs, hext, hroot] at h
    split at h
    · rename_i hc
      rw [Bool.and_eq_true, List.any_eq_true] at hc
      obtain ⟨c, hc, hne⟩ := hc.2
      rw [hs] at hb hp
      simp only [List.mem_append, List.mem_cons, not_or] at hb
      have : HasExt p e := ⟨dir, stem, hp, hd, hb.1, hb.2.2, he, c, hc, by simpa using hne⟩
      exact ⟨e, this, extOf_of_hasExt this⟩
    · exact absurd rfl h
  · unfold extOf at h
    simp only at h
    rw [if_neg] at h
    · exact absurd rfl h
    · simp [hdot]

/-! ### abspath -/

theorem splitOn_ne (p : Char → Bool) (s : List Char) : splitOn p s ≠ [] := by
  induction s with
  | nil => simp [splitOn]
  | cons c s ih =>
    rw [splitOn]
    split
    · simp
    · split <;> simp

theorem splitOn_snoc {p : Char → Bool} {a n : List Char} {c : Char} (hc : p c = true) (hn : ∀ x ∈ n, p x = false) :
    splitOn p (a ++ c :: n) = splitOn p a ++ [n] := by
  induction a with
  | nil =>
    have e : splitOn p ([] ++ c :: n) = [] :: splitOn p n := by rw [List.nil_append, splitOn, if_pos hc]
    rw [e]
    clear e
    have : splitOn p n = [n] := by
      induction n with
      | nil => rfl
      | cons x n ih =>
        rw [splitOn, if_neg (by rw [hn x List.mem_cons_self]; decide), ih fun y hy => hn y (List.mem_cons_of_mem _ hy)]
    rw [this]; rfl
  | cons x a ih =>
    rw [List.cons_append, splitOn, splitOn, ih]
    split
    · rfl
    · cases hs : splitOn p a with
      | nil => exact absurd hs (splitOn_ne p a)
      | cons w ws => rfl

theorem splitOn_free {p : Char → Bool} {s w : List Char} (h : w ∈ splitOn p s) : ∀ c ∈ w, p c = false := by
  induction s generalizing w with
  | nil =>
    simp only [splitOn, List.mem_singleton] at h
    subst h; intro c hc; cases hc
  | cons x s ih =>
    rw [splitOn] at h
    split at h
    · rcases List.mem_cons.mp h with rfl | h
      · intro c hc; cases hc
      · exact ih h
    · rename_i hx
      split at h
      · rename_i hs; exact absurd hs (splitOn_ne p s)
      · rename_i w' ws hs
        rcases List.mem_cons.mp h with rfl | h
        · intro c hc
          rcases List.mem_cons.mp hc with rfl | hc
          · simpa using hx
          · exact ih (by rw [hs]; exact List.mem_cons_self) c hc
        · exact ih (by rw [hs]; exact List.mem_cons_of_mem _ h)

/-- A file or folder name as `listdir` returns it. -/
structure PlainName (n : List Char) : Prop where
  ne : n ≠ []
  noSlash : '/' ∉ n
  notDot : n ≠ ['.']
  notDotDot : n ≠ ['.', '.']

theorem PlainName.head {n : List Char} (h : PlainName n) : startsWith ['/'] n = false := by
  cases n with
  | nil => rfl
  | cons c n =>
    have : c ≠ '/' := by rintro rfl; exact h.noSlash List.mem_cons_self
    simp [startsWith, List.isPrefixOf, this.symm]

theorem endsWith_slash {a : List Char} : endsWith ['/'] a = true ↔ ∃ b, a = b ++ ['/'] := by
  unfold endsWith; rw [List.isSuffixOf_iff_suffix]
  exact ⟨fun ⟨t, h⟩ => ⟨t, h.symm⟩, fun ⟨t, h⟩ => ⟨t, h.symm⟩⟩

theorem splitOn_join_name {a n : List Char} (ha : a ≠ []) (hn : PlainName n) (abs : Bool) :
    (splitOn (· == '/') (pathJoin a n)).foldl (normStep abs) [] =
      normStep abs ((splitOn (· == '/') a).foldl (normStep abs) []) n := by
  have hfree : ∀ x ∈ n, (x == '/') = false := by
    intro x hx
    simp only [beq_eq_false_iff_ne, ne_eq]
    rintro rfl; exact hn.noSlash hx
  unfold pathJoin
  rw [hn.head]
  simp only [Bool.false_eq_true, if_false]
  split
  · rename_i h
    rw [Bool.or_eq_true] at h
    rcases h with h | h
    · exact absurd (List.isEmpty_iff.mp h) ha
    · obtain ⟨b, rfl⟩ := endsWith_slash.mp h
      rw [List.append_assoc, List.singleton_append, splitOn_snoc (by decide) hfree, splitOn_snoc (by decide) (by simp)]
      simp only [List.foldl_append, List.foldl_cons, List.foldl_nil]
      congr 1
  · rw [splitOn_snoc (by decide) hfree]
    simp [List.foldl_append]

theorem normStep_plain {n : List Char} (hn : PlainName n) (abs : Bool) (acc : List (List Char)) :
    normStep abs acc n = acc ++ [n] := by
  unfold normStep
  rw [if_neg (by simp [hn.ne, hn.notDot]), if_pos (.inl hn.notDotDot)]

theorem normStep_mem {abs : Bool} {acc : List (List Char)} {comp w : List Char} (h : w ∈ normStep abs acc comp) :
    w ∈ acc ∨ (w = comp ∧ comp ≠ []) := by
  unfold normStep at h
  split at h
  · exact .inl h
  · rename_i hc
    split at h
    · rcases List.mem_append.mp h with h | h
      · exact .inl h
      · rw [List.mem_singleton] at h
        exact .inr ⟨h, fun h' => hc (.inl h')⟩
    · exact .inl ((List.dropLast_sublist _).subset h)

theorem norm_comps {abs : Bool} : ∀ {l acc : List (List Char)} {w : List Char}, w ∈ l.foldl (normStep abs) acc →
    w ∈ acc ∨ (w ∈ l ∧ w ≠ [])
  | [], acc, w, h => .inl h
  | x :: l, acc, w, h => by
    rcases norm_comps (l := l) h with h | ⟨h, h'⟩
    · rcases normStep_mem h with h | ⟨rfl, h'⟩
      · exact .inl h
      · exact .inr ⟨List.mem_cons_self, h'⟩
    · exact .inr ⟨List.mem_cons_of_mem _ h, h'⟩

theorem join_snoc {sep n : List Char} : ∀ {l : List (List Char)}, l ≠ [] → join sep (l ++ [n]) = join sep l ++ sep ++ n
  | [], h => absurd rfl h
  | [w], _ => by simp [join]
  | w :: v :: l, _ => by
    have ih := join_snoc (sep := sep) (n := n) (l := v :: l) (by simp)
    have e1 : join sep (w :: v :: l ++ [n]) = w ++ sep ++ join sep (v :: l ++ [n]) := by
      rw [List.cons_append, List.cons_append, join]
      simp
    have e2 : join sep (w :: v :: l) = w ++ sep ++ join sep (v :: l) := by rw [join]; simp
    rw [e1, ih, e2]; simp only [List.append_assoc]

theorem join_last {sep : List Char} {l : List (List Char)} (hl : l ≠ []) (hw : ∀ w ∈ l, w ≠ [] ∧ '/' ∉ w) :
    ∃ s c, join sep l = s ++ [c] ∧ c ≠ '/' := by
  obtain ⟨l', n, rfl⟩ : ∃ l' n, l = l' ++ [n] := ⟨l.dropLast, l.getLast hl, (List.dropLast_concat_getLast hl).symm⟩
  have hn := hw n (by simp)
  obtain ⟨n', c, rfl⟩ : ∃ n' c, n = n' ++ [c] := ⟨n.dropLast, n.getLast hn.1, (List.dropLast_concat_getLast hn.1).symm⟩
  have hc : c ≠ '/' := by rintro rfl; exact hn.2 (by simp)
  by_cases h : l' = []
  · subst h; exact ⟨n', c, rfl, hc⟩
  · exact ⟨join sep l' ++ sep ++ n', c, by rw [join_snoc h]; simp, hc⟩

/-- The slashes at the beginning of a normalised path. -/
def leadSlashes (p : List Char) : List Char :=
  if startsWith ['/'] p then (if startsWith ['/', '/'] p && !startsWith ['/', '/', '/'] p then ['/', '/'] else ['/']) else []

theorem leadSlashes_join {a n : List Char} (ha : startsWith ['/'] a = true) (hn : PlainName n) :
    leadSlashes (pathJoin a n) = leadSlashes a := by
  obtain ⟨x, n', rfl⟩ : ∃ x n', n = x :: n' := by
    cases n with
    | nil => exact absurd rfl hn.ne
    | cons x n' => exact ⟨x, n', rfl⟩
  have hx : ('/' == x) = false := by
    simp only [beq_eq_false_iff_ne, ne_eq]; rintro rfl; exact hn.noSlash List.mem_cons_self
  unfold pathJoin
  rw [hn.head]
  simp only [Bool.false_eq_true, if_false]
  match a, ha with
  | ['/'], _ => simp [leadSlashes, startsWith, List.isPrefixOf, endsWith, List.isSuffixOf, hx]
  | ['/', b], _ =>
    by_cases hb : b = '/'
    · subst hb; simp [leadSlashes, startsWith, List.isPrefixOf, endsWith, List.isSuffixOf, hx]
    · have hb' : ('/' == b) = false := by simp only [beq_eq_false_iff_ne, ne_eq]; exact fun h => hb h.symm
      split <;> simp [leadSlashes, startsWith, List.isPrefixOf, hb']
  | '/' :: b :: c :: r, _ => split <;> simp [leadSlashes, startsWith, List.isPrefixOf]
  | [], h => cases h
  | b :: r, h =>
    simp only [startsWith, List.isPrefixOf, Bool.and_eq_true, beq_iff_eq] at h
    obtain ⟨rfl, -⟩ := h
    match r with
    | [] => simp [leadSlashes, startsWith, List.isPrefixOf, endsWith, List.isSuffixOf, hx]
    | [b] =>
      by_cases hb : b = '/'
      · subst hb; simp [leadSlashes, startsWith, List.isPrefixOf, endsWith, List.isSuffixOf, hx]
      · have hb' : ('/' == b) = false := by simp only [beq_eq_false_iff_ne, ne_eq]; exact fun h => hb h.symm
        split <;> simp [leadSlashes, startsWith, List.isPrefixOf, hb']
    | b :: c :: r => split <;> simp [leadSlashes, startsWith, List.isPrefixOf]

theorem leadSlashes_abs {a : List Char} (ha : startsWith ['/'] a = true) :
    leadSlashes a = ['/'] ∨ leadSlashes a = ['/', '/'] := by
  unfold leadSlashes
  rw [if_pos ha]
  split
  · exact .inr rfl
  · exact .inl rfl

theorem normpath_abs {a : List Char} (ha : startsWith ['/'] a = true) :
    normpath a = leadSlashes a ++ join ['/'] ((splitOn (· == '/') a).foldl (normStep true) []) := by
  have hne : a.isEmpty = false := by
    cases a with
    | nil => cases ha
    | cons => rfl
  have e : normpath a = (if (leadSlashes a ++ join ['/'] ((splitOn (· == '/') a).foldl (normStep (!(leadSlashes a).isEmpty)) [])).isEmpty
      then ['.'] else leadSlashes a ++ join ['/'] ((splitOn (· == '/') a).foldl (normStep (!(leadSlashes a).isEmpty)) [])) := by
    unfold normpath
    rw [hne]
    rfl
  rw [e]
  rcases leadSlashes_abs ha with h | h <;> rw [h] <;> rfl

/-- Normalising an absolute path commutes with appending a name. -/
theorem normpath_join {a n : List Char} (ha : startsWith ['/'] a = true) (hn : PlainName n) :
    normpath (pathJoin a n) = pathJoin (normpath a) n := by
  have hane : a ≠ [] := by rintro rfl; cases ha
  have hj : startsWith ['/'] (pathJoin a n) = true := by
    have := leadSlashes_join ha hn
    cases hs : startsWith ['/'] (pathJoin a n) with
    | true => rfl
    | false =>
      rw [show leadSlashes (pathJoin a n) = [] by unfold leadSlashes; rw [hs]; rfl] at this
      rcases leadSlashes_abs ha with h | h <;> rw [h] at this <;> cases this
  rw [normpath_abs hj, normpath_abs ha, leadSlashes_join ha hn, splitOn_join_name hane hn, normStep_plain hn]
  have hcomp : ∀ w ∈ (splitOn (· == '/') a).foldl (normStep true) [], w ≠ [] ∧ '/' ∉ w := by
    intro w hw
    rcases norm_comps hw with h | ⟨h, h'⟩
    · cases h
    · refine ⟨h', fun hs => ?_⟩
      have := splitOn_free h '/' hs
      revert this; decide
  generalize (splitOn (· == '/') a).foldl (normStep true) [] = comps at hcomp
  by_cases hc : comps = []
  · subst hc
    have e1 : join ['/'] ([] ++ [n]) = n := rfl
    have e2 : join ['/'] ([] : List (List Char)) = [] := rfl
    rw [e1, e2, List.append_nil]
    unfold pathJoin
    rw [hn.head]
    rcases leadSlashes_abs ha with h | h <;> rw [h] <;> rfl
  · rw [join_snoc hc]
    obtain ⟨s, c, hs, hcs⟩ := join_last (sep := ['/']) hc hcomp
    rw [hs]
    unfold pathJoin
    rw [hn.head]
    simp only [Bool.false_eq_true, if_false]
    rw [if_neg]
    · simp
    · rw [Bool.or_eq_true, not_or]
      refine ⟨by simp, ?_⟩
      intro h
      obtain ⟨b, hb⟩ := endsWith_slash.mp h
      rw [← List.append_assoc] at hb
      have := List.append_inj_right' hb rfl
      simp only [List.cons.injEq, and_true] at this
      exact hcs this

theorem startsWith_slash_iff {a : List Char} : startsWith ['/'] a = true ↔ ∃ r, a = '/' :: r := by
  cases a with
  | nil => simp [startsWith]
  | cons c r =>
    simp only [startsWith, List.isPrefixOf, Bool.and_true, beq_iff_eq, List.cons.injEq]
    exact ⟨fun h => ⟨r, h.symm, rfl⟩, fun ⟨_, h, _⟩ => h.symm⟩

theorem pathJoin_assoc {a p n : List Char} (hp : p ≠ []) (hn : PlainName n) :
    (if startsWith ['/'] (pathJoin p n) then pathJoin p n else pathJoin a (pathJoin p n)) =
      pathJoin (if startsWith ['/'] p then p else pathJoin a p) n := by
  obtain ⟨c, r, rfl⟩ : ∃ c r, p = c :: r := by
    cases p with
    | nil => exact absurd rfl hp
    | cons c r => exact ⟨c, r, rfl⟩
  have e : ∃ t, pathJoin (c :: r) n = c :: t := by
    unfold pathJoin
    rw [hn.head]
    simp only [Bool.false_eq_true, if_false]
    split
    · exact ⟨r ++ n, rfl⟩
    · exact ⟨r ++ '/' :: n, rfl⟩
  have hs : startsWith ['/'] (pathJoin (c :: r) n) = startsWith ['/'] (c :: r) := by
    obtain ⟨t, ht⟩ := e
    rw [ht]
    simp [startsWith, List.isPrefixOf]
  rw [hs]
  split
  · rfl
  · rename_i h0
    have h0' : startsWith ['/'] (c :: r) = false := by simpa using h0
    have h1 : startsWith ['/'] (pathJoin (c :: r) n) = false := by rw [hs]; exact h0'
    -- the end of a joined path is the end of its second part
    have hend : ∀ x : List Char, endsWith ['/'] (x ++ c :: r) = endsWith ['/'] (c :: r) := by
      intro x
      rw [Bool.eq_iff_iff, endsWith_slash, endsWith_slash]
      constructor
      · rintro ⟨b, hb⟩
        have hl : (c :: r) = (c :: r).dropLast ++ [(c :: r).getLast (by simp)] :=
          (List.dropLast_concat_getLast (by simp)).symm
        rw [hl, ← List.append_assoc] at hb
        have := List.append_inj_right' hb rfl
        rw [this] at hl
        exact ⟨_, hl⟩
      · rintro ⟨b, hb⟩; exact ⟨x ++ b, by rw [hb]; simp⟩
    have key : ∀ x, (x = a ∨ x = a ++ ['/']) → pathJoin (x ++ c :: r) n = x ++ pathJoin (c :: r) n := by
      intro x _
      unfold pathJoin
      rw [hn.head, hend x]
      simp only [Bool.false_eq_true, if_false, List.isEmpty_cons, Bool.false_or]
      have : (x ++ c :: r).isEmpty = false := by cases x <;> rfl
      rw [this, Bool.false_or]
      split <;> simp
    have hj : ∀ q : List Char, startsWith ['/'] q = false →
        pathJoin a q = (if a.isEmpty || endsWith ['/'] a then a else a ++ ['/']) ++ q := by
      intro q hq
      unfold pathJoin
      rw [hq]
      simp only [Bool.false_eq_true, if_false]
      split <;> simp
    rw [hj _ h1, hj _ h0']
    split
    · exact (key a (.inl rfl)).symm
    · exact (key _ (.inr rfl)).symm

/-- The absolute path of a folder's entry is the entry of the absolute path. -/
theorem abspath_join {cwd p n : List Char} (hc : startsWith ['/'] cwd = true) (hp : p ≠ []) (hn : PlainName n) :
    abspath cwd (pathJoin p n) = pathJoin (abspath cwd p) n := by
  unfold abspath
  have hs : startsWith ['/'] (if startsWith ['/'] p then p else pathJoin cwd p) = true := by
    split
    · assumption
    · rename_i h
      obtain ⟨r, rfl⟩ := startsWith_slash_iff.mp hc
      have h' : startsWith ['/'] p = false := by simpa using h
      unfold pathJoin
      rw [h']
      simp only [Bool.false_eq_true, if_false]
      split <;> rfl
  rw [← normpath_join hs hn, ← pathJoin_assoc hp hn]

theorem normpath_ne_nil (p : List Char) : normpath p ≠ [] := by
  unfold normpath
  simp only
  repeat' split
  all_goals first | (intro h; cases h; done) | skip
  all_goals (rename_i h; intro h'; rw [h'] at h; exact h rfl)

theorem mem_join {sep : List Char} {c : Char} : ∀ {l : List (List Char)}, c ∈ join sep l → c ∈ sep ∨ ∃ w ∈ l, c ∈ w
  | [], h => by cases h
  | [w], h => .inr ⟨w, List.mem_singleton_self _, h⟩
  | w :: v :: l, h => by
    have e : join sep (w :: v :: l) = w ++ sep ++ join sep (v :: l) := by rw [join]; simp
    rw [e, List.mem_append, List.mem_append] at h
    rcases h with (h | h) | h
    · exact .inr ⟨w, List.mem_cons_self, h⟩
    · exact .inl h
    · rcases mem_join h with h | ⟨u, hu, h⟩
      · exact .inl h
      · exact .inr ⟨u, List.mem_cons_of_mem _ hu, h⟩

theorem mem_of_splitOn {p : Char → Bool} {c : Char} : ∀ {s w : List Char}, w ∈ splitOn p s → c ∈ w → c ∈ s
  | [], w, h, hc => by
    simp only [splitOn, List.mem_singleton] at h
    subst h; cases hc
  | x :: s, w, h, hc => by
    rw [splitOn] at h
    split at h
    · rcases List.mem_cons.mp h with rfl | h
      · cases hc
      · exact List.mem_cons_of_mem _ (mem_of_splitOn h hc)
    · split at h
      · rename_i hs; exact absurd hs (splitOn_ne p s)
      · rename_i w' ws hs
        rcases List.mem_cons.mp h with rfl | h
        · rcases List.mem_cons.mp hc with rfl | hc
          · exact List.mem_cons_self
          · exact List.mem_cons_of_mem _ (mem_of_splitOn (by rw [hs]; exact List.mem_cons_self) hc)
        · exact List.mem_cons_of_mem _ (mem_of_splitOn (by rw [hs]; exact List.mem_cons_of_mem _ h) hc)

theorem leadSlashes_mem {a : List Char} {c : Char} (h : c ∈ leadSlashes a) : c = '/' := by
  unfold leadSlashes at h
  repeat' split at h
  all_goals simp_all

/-- Normalising an absolute path adds no characters other than slashes. -/
theorem mem_normpath {a : List Char} {c : Char} (ha : startsWith ['/'] a = true) (h : c ∈ normpath a) : c = '/' ∨ c ∈ a := by
  rw [normpath_abs ha, List.mem_append] at h
  rcases h with h | h
  · exact .inl (leadSlashes_mem h)
  · rcases mem_join h with h | ⟨w, hw, h⟩
    · exact .inl (by simpa using h)
    · rcases norm_comps hw with h' | ⟨h', -⟩
      · cases h'
      · exact .inr (mem_of_splitOn h' h)

/-- The components of a normalised absolute path are names. -/
theorem comps_plain : ∀ {l acc : List (List Char)}, (∀ w ∈ l, '/' ∉ w) → (∀ w ∈ acc, PlainName w) →
    ∀ w ∈ l.foldl (normStep true) acc, PlainName w
  | [], acc, _, h => h
  | x :: l, acc, hl, h => by
    refine comps_plain (l := l) (fun w hw => hl w (List.mem_cons_of_mem _ hw)) ?_
    intro w hw
    unfold normStep at hw
    split at hw
    · exact h w hw
    · rename_i h1
      rw [not_or] at h1
      split at hw
      · rename_i h2
        rcases List.mem_append.mp hw with hw | hw
        · exact h w hw
        · rw [List.mem_singleton] at hw
          subst hw
          refine ⟨h1.1, hl _ List.mem_cons_self, h1.2, ?_⟩
          intro hd
          rcases h2 with h2 | ⟨h2, -⟩ | ⟨h2, h3⟩
          · exact h2 hd
          · cases h2
          · have hm := List.mem_of_getLast? h3
            exact (h _ hm).notDotDot rfl
      · exact h w ((List.dropLast_sublist _).subset hw)

theorem foldl_plain : ∀ {l acc : List (List Char)}, (∀ w ∈ l, PlainName w) → l.foldl (normStep true) acc = acc ++ l
  | [], acc, _ => by simp
  | x :: l, acc, h => by
    rw [List.foldl_cons, normStep_plain (h x List.mem_cons_self), foldl_plain fun w hw => h w (List.mem_cons_of_mem _ hw)]
    simp

theorem splitOn_single : ∀ {w : List Char}, '/' ∉ w → splitOn (· == '/') w = [w]
  | [], _ => rfl
  | c :: w, hw => by
    rw [List.mem_cons, not_or] at hw
    rw [splitOn, if_neg (by simpa using fun h => hw.1 h.symm), splitOn_single hw.2]

theorem splitOn_join : ∀ {l : List (List Char)}, l ≠ [] → (∀ w ∈ l, '/' ∉ w) → splitOn (· == '/') (join ['/'] l) = l := by
  intro l hl
  have key : ∀ (n : Nat) (l : List (List Char)), l.length = n + 1 → (∀ w ∈ l, '/' ∉ w) →
      splitOn (· == '/') (join ['/'] l) = l := by
    intro n
    induction n with
    | zero =>
      intro l hl h
      match l, hl with
      | [w], _ =>
        have hw := h w (by simp)
        show splitOn (· == '/') w = [w]
        exact splitOn_single hw
    | succ n ih =>
      intro l hl h
      have hne : l ≠ [] := by rintro rfl; cases hl
      obtain ⟨l', w, rfl⟩ : ∃ l' w, l = l' ++ [w] := ⟨l.dropLast, l.getLast hne, (List.dropLast_concat_getLast hne).symm⟩
      have hl' : l'.length = n + 1 := by simpa using hl
      have hne' : l' ≠ [] := by rintro rfl; cases hl'
      have e : join ['/'] (l' ++ [w]) = join ['/'] l' ++ '/' :: w := by rw [join_snoc hne']; simp
      rw [e, splitOn_snoc (by decide), ih l' hl' fun v hv => h v (by simp [hv])]
      intro x hx
      simp only [beq_eq_false_iff_ne, ne_eq]
      rintro rfl
      exact h w (by simp) hx
  intro h
  cases hn : l.length with
  | zero => exact absurd (List.length_eq_zero_iff.mp hn) hl
  | succ n => exact key n l hn h

theorem leadSlashes_slashes {s : List Char} (hs : s = [] ∨ ∃ c r, s = c :: r ∧ c ≠ '/') :
    leadSlashes ('/' :: s) = ['/'] ∧ leadSlashes ('/' :: '/' :: s) = ['/', '/'] := by
  rcases hs with rfl | ⟨c, r, rfl, hc⟩
  · exact ⟨rfl, rfl⟩
  · have : ('/' == c) = false := by simpa using fun h => hc h.symm
    simp [leadSlashes, startsWith, List.isPrefixOf, this]

/-- Normalising an absolute path twice is normalising it once. -/
theorem normpath_idem {a : List Char} (ha : startsWith ['/'] a = true) : normpath (normpath a) = normpath a := by
  have hplain := comps_plain (l := splitOn (· == '/') a) (acc := []) (fun w hw hs => by
    have := splitOn_free hw '/' hs
    revert this; decide) (by simp)
  rw [normpath_abs ha]
  generalize (splitOn (· == '/') a).foldl (normStep true) [] = comps at hplain
  have hj : join ['/'] comps = [] ∨ ∃ c r, join ['/'] comps = c :: r ∧ c ≠ '/' := by
    match comps with
    | [] => exact .inl rfl
    | w :: ws =>
      have hw := hplain w List.mem_cons_self
      obtain ⟨c, r, rfl⟩ : ∃ c r, w = c :: r := by
        cases w with
        | nil => exact absurd rfl hw.ne
        | cons c r => exact ⟨c, r, rfl⟩
      have hc : c ≠ '/' := by rintro rfl; exact hw.noSlash List.mem_cons_self
      match ws with
      | [] => exact .inr ⟨c, r, rfl, hc⟩
      | v :: ws =>
        refine .inr ⟨c, r ++ ['/'] ++ join ['/'] (v :: ws), ?_, hc⟩
        rw [join]
        · rfl
        · simp
  have hfold : ∀ pre : List (List Char), (∀ w ∈ pre, w = []) →
      (pre ++ splitOn (· == '/') (join ['/'] comps)).foldl (normStep true) [] = comps := by
    intro pre hpre
    rw [List.foldl_append]
    have : pre.foldl (normStep true) [] = [] := by
      induction pre with
      | nil => rfl
      | cons w pre ih =>
        rw [List.foldl_cons, hpre w List.mem_cons_self]
        exact ih fun w hw => hpre w (List.mem_cons_of_mem _ hw)
    rw [this]
    by_cases hc : comps = []
    · subst hc; rfl
    · rw [splitOn_join hc fun w hw => (hplain w hw).noSlash, foldl_plain hplain, List.nil_append]
  obtain ⟨l1, l2⟩ := leadSlashes_slashes hj
  rcases leadSlashes_abs ha with h | h
  · rw [h]
    have e : splitOn (· == '/') (['/'] ++ join ['/'] comps) = [[]] ++ splitOn (· == '/') (join ['/'] comps) := by
      rw [List.singleton_append, splitOn, if_pos (by decide)]; rfl
    rw [normpath_abs rfl, e, hfold _ (by simp), List.singleton_append, l1]; rfl
  · rw [h]
    have e : splitOn (· == '/') (['/', '/'] ++ join ['/'] comps) = [[], []] ++ splitOn (· == '/') (join ['/'] comps) := by
      have : ['/', '/'] ++ join ['/'] comps = '/' :: '/' :: join ['/'] comps := rfl
      rw [this, splitOn, if_pos (by decide), splitOn, if_pos (by decide)]; rfl
    rw [normpath_abs rfl, e, hfold _ (by simp)]
    have : ['/', '/'] ++ join ['/'] comps = '/' :: '/' :: join ['/'] comps := rfl
    rw [this, l2]; rfl

theorem abs_startsWith {cwd p : List Char} (hc : startsWith ['/'] cwd = true) :
    startsWith ['/'] (if startsWith ['/'] p then p else pathJoin cwd p) = true := by
  split
  · assumption
  · rename_i h
    obtain ⟨r, rfl⟩ := startsWith_slash_iff.mp hc
    have h' : startsWith ['/'] p = false := by simpa using h
    unfold pathJoin
    rw [h']
    simp only [Bool.false_eq_true, if_false]
    split <;> rfl

theorem normpath_starts {a : List Char} (ha : startsWith ['/'] a = true) : startsWith ['/'] (normpath a) = true := by
  rw [normpath_abs ha]
  rcases leadSlashes_abs ha with h | h <;> rw [h] <;> rfl

theorem abspath_starts {cwd p : List Char} (hc : startsWith ['/'] cwd = true) : startsWith ['/'] (abspath cwd p) = true :=
  normpath_starts (abs_startsWith hc)

theorem abspath_idem {cwd p : List Char} (hc : startsWith ['/'] cwd = true) :
    abspath cwd (abspath cwd p) = abspath cwd p := by
  have h := abspath_starts (p := p) hc
  show normpath (if startsWith ['/'] (abspath cwd p) then abspath cwd p else pathJoin cwd (abspath cwd p)) = _
  rw [if_pos h]
  exact normpath_idem (abs_startsWith hc)

theorem baseName_join {a n : List Char} (hn : PlainName n) : baseName (pathJoin a n) = n := by
  unfold pathJoin
  rw [hn.head]
  simp only [Bool.false_eq_true, if_false]
  split
  · rename_i h
    rw [Bool.or_eq_true] at h
    rcases h with h | h
    · rw [List.isEmpty_iff.mp h]; exact baseName_eq (.inl rfl) hn.noSlash
    · exact baseName_eq (.inr (endsWith_slash.mp h)) hn.noSlash
  · have : a ++ '/' :: n = (a ++ ['/']) ++ n := by simp
    rw [this]
    exact baseName_eq (.inr ⟨a, rfl⟩) hn.noSlash

end Vermin
