import Verif.Spec.Strings
import Verif.Lemmas.Int
import Verif.Lemmas.Sort
import Verif.Lemmas.Dict
/-
C95: methods of strings, lists and dictionaries.
-/
namespace Vermin.Props
open Vermin Vermin.Py Vermin.Spec

theorem dropWhile_head {α : Type} {p : α → Bool} {c : α} : ∀ {l : List α}, (l.dropWhile p).head? = some c → p c = false
  | x :: l, h => by
    rw [List.dropWhile_cons] at h
    split at h
    · exact dropWhile_head h
    · rename_i hx
      injection h with h
      subst h
      simpa using hx

/-- **C95.** `str.strip()` leaves out exactly the white space at both ends. -/
theorem C95_strip (s t : List Char) : strip s = t ↔ Stripped s t := by
  have nosp : ∀ c, isSpace c = false ↔ ¬ Space c := fun c => by rw [← space_iff]; simp
  constructor
  · rintro rfl
    obtain ⟨l, r, h1, h2, h3⟩ := strip_decomp s
    refine ⟨⟨l, r, h1, fun c hc => (space_iff c).mp (h2 c hc), fun c hc => (space_iff c).mp (h3 c hc)⟩, fun c hc => ?_, fun c hc => ?_⟩
    · refine (nosp c).mp (dropWhile_head (l := s) ?_)
      have : s.dropWhile isSpace = strip s ++ ((lstrip s).reverse.takeWhile isSpace).reverse := by
        unfold strip rstrip
        rw [← List.reverse_append, List.takeWhile_append_dropWhile, List.reverse_reverse]
        rfl
      rw [this]
      cases hs : strip s with
      | nil => rw [hs] at hc; cases hc
      | cons a as => rw [hs] at hc; exact hc
    · refine (nosp c).mp (dropWhile_head (l := (lstrip s).reverse) ?_)
      unfold strip rstrip at hc
      rw [List.getLast?_reverse] at hc
      exact hc
  · rintro ⟨⟨l, r, rfl, hl, hr⟩, hh, ht⟩
    have hl' := fun c hc => (space_iff c).mpr (hl c hc)
    have hr' := fun c hc => (space_iff c).mpr (hr c hc)
    cases t with
    | nil =>
      unfold strip lstrip
      rw [List.append_nil, dropWhile_append_of_all hl']
      have : r.dropWhile isSpace = [] := by
        have := dropWhile_append_of_all (m := []) hr'
        simpa using this
      rw [this]
      rfl
    | cons a as =>
      have hy : ∃ y, (a :: as).getLast? = some y := ⟨_, List.getLast?_eq_some_getLast (by simp)⟩
      obtain ⟨y, hy⟩ := hy
      exact strip_eq hl' hr' (x := a) rfl hy ((nosp a).mpr (hh a rfl)) ((nosp y).mpr (ht y hy))

/-- **C95.** `str.split(c)` gives the pieces in between. -/
theorem C95_split (p : Char → Bool) (s : List Char) (ws : List (List Char)) : splitOn p s = ws ↔ Pieces (fun c => p c = true) s ws := by
  have sound : ∀ s, Pieces (fun c => p c = true) s (splitOn p s) := by
    intro s
    induction s with
    | nil => exact .last nofun
    | cons c s ih =>
      unfold splitOn
      by_cases hc : p c = true
      · rw [if_pos hc]; exact .more (w := []) nofun hc ih
      · rw [if_neg hc]
        generalize splitOn p s = ws at ih
        cases ih with
        | last h => exact .last (List.forall_mem_cons.mpr ⟨hc, h⟩)
        | more h1 h2 h3 => exact .more (w := c :: _) (List.forall_mem_cons.mpr ⟨hc, h1⟩) h2 h3
  refine ⟨fun h => h ▸ sound s, fun h => ?_⟩
  induction h with
  | last h => exact splitOn_of_none fun c hc => by simpa using h c hc
  | more h1 h2 _ ih => rw [splitOn_append (fun c hc => by simpa using h1 c hc) h2, ih]

/-- **C95.** `sep.join(l)` -/
theorem C95_join (sep : List Char) (ws : List (List Char)) (s : List Char) : join sep ws = s ↔ Joined sep ws s := by
  have sound : ∀ ws, Joined sep ws (join sep ws) := by
    intro ws
    fun_induction join sep ws with
    | case1 => exact .none
    | case2 w => exact .one
    | case3 w ws hne ih =>
      cases ws with
      | nil => exact absurd rfl hne
      | cons v ws => exact .more ih
  refine ⟨fun h => h ▸ sound ws, fun h => ?_⟩
  induction h with
  | none => rfl
  | one => rfl
  | more _ ih => rw [← ih]; rfl

/-- **C95.** `str.lower()`, of the letters of ASCII -/
theorem C95_lower (c d : Char) : lowerChar c = d ↔ LowerCase c d := by
  have hall : ∀ e ∈ letters, lowerChar e.1 = e.2 ∧ ∀ f ∈ letters, e.1 = f.1 → e.2 = f.2 := by decide +kernel
  have hin : 65 ≤ c.toNat ∧ c.toNat ≤ 90 → ∃ e, (c, e) ∈ letters := by
    intro h
    have : c ∈ letters.map (·.1) := by
      rw [chars_mem]
      have e : (letters.map (·.1)).map Char.toNat = [65, 66, 67, 68, 69, 70, 71, 72, 73, 74, 75, 76, 77, 78, 79, 80, 81, 82, 83, 84, 85, 86, 87, 88, 89, 90] := by
        decide +kernel
      rw [e]
      simp only [List.mem_cons, List.not_mem_nil, or_false]
      omega
    obtain ⟨⟨a, b⟩, h1, rfl⟩ := List.mem_map.mp this
    exact ⟨b, h1⟩
  have hout : (∀ e, (c, e) ∉ letters) → lowerChar c = c := by
    intro h
    unfold lowerChar
    rw [if_neg]
    intro hc
    obtain ⟨e, he⟩ := hin hc
    exact h e he
  constructor
  · rintro rfl
    by_cases h : ∃ e, (c, e) ∈ letters
    · obtain ⟨e, he⟩ := h
      have := (hall _ he).1
      dsimp only at this
      exact .inl (this ▸ he)
    · have h : ∀ e, (c, e) ∉ letters := fun e he => h ⟨e, he⟩
      exact .inr ⟨hout h, h⟩
  · rintro (h | ⟨rfl, h⟩)
    · exact (hall _ h).1
    · exact hout h

/-- **C95.** `str.startswith`, `str.endswith` and `in` -/
theorem C95_parts (t s : List Char) :
    (startsWith t s = true ↔ ∃ r, s = t ++ r) ∧ (endsWith t s = true ↔ ∃ l, s = l ++ t) ∧ (isSub t s = true ↔ ∃ l r, s = l ++ t ++ r) := by
  refine ⟨?_, ?_, ?_⟩
  · unfold startsWith
    rw [List.isPrefixOf_iff_prefix]
    exact ⟨fun ⟨r, h⟩ => ⟨r, h.symm⟩, fun ⟨r, h⟩ => ⟨r, h.symm⟩⟩
  · unfold endsWith
    rw [List.isSuffixOf_iff_suffix]
    exact ⟨fun ⟨r, h⟩ => ⟨r, h.symm⟩, fun ⟨r, h⟩ => ⟨r, h.symm⟩⟩
  · induction s with
    | nil =>
      unfold isSub
      rw [List.isEmpty_iff]
      exact ⟨fun h => ⟨[], [], by simp [h]⟩, fun ⟨l, r, h⟩ => by simp at h; exact h.2.1⟩
    | cons c s ih =>
      unfold isSub
      rw [Bool.or_eq_true, List.isPrefixOf_iff_prefix, ih]
      constructor
      · rintro (⟨r, h⟩ | ⟨l, r, h⟩)
        · exact ⟨[], r, by simpa using h.symm⟩
        · exact ⟨c :: l, r, by rw [h]; rfl⟩
      · rintro ⟨l, r, h⟩
        cases l with
        | nil => exact .inl ⟨r, by simpa using h.symm⟩
        | cons d l =>
          injection h with _ h
          exact .inr ⟨l, r, h⟩

/-- **C95.** `str.replace` -/
theorem C95_replace (old : Char) (new s t : List Char) : replaceChar old new s = t ↔ Replaced old new s t := by
  have sound : ∀ s, Replaced old new s (replaceChar old new s) := by
    intro s
    induction s with
    | nil => exact .none
    | cons c s ih =>
      unfold replaceChar at ih ⊢
      rw [List.flatMap_cons]
      by_cases h : c = old
      · subst h
        rw [if_pos (by simp)]
        exact .new ih
      · rw [if_neg (by simpa using h)]
        exact .same h ih
  refine ⟨fun h => h ▸ sound s, fun h => ?_⟩
  induction h with
  | none => rfl
  | same hc _ ih =>
    unfold replaceChar at ih ⊢
    rw [List.flatMap_cons, if_neg (by simpa using hc), ih]
    rfl
  | new _ ih =>
    unfold replaceChar at ih ⊢
    rw [List.flatMap_cons, if_pos (by simp), ih]

/-- **C95.** `str.splitlines()` and `int(str)` -/
theorem C95_lines (t : List Char) (ls : List (List Char)) : splitlines t = ls ↔ Lines t ls := by
  rw [lines_iff]; exact eq_comm
theorem C95_int (s : List Char) (n : Int) : Py.int s = some n ↔ IntText s n := int_iff

theorem digit_char (d : Nat) (c : Char) : "0123456789".toList[d]? = some c ↔ d < 10 ∧ Nat.digitChar d = c := by
  by_cases h : d < 10
  · have : ∀ d < 10, "0123456789".toList[d]? = some (Nat.digitChar d) := by decide
    rw [this d h]
    simp [h]
  · have hl : "0123456789".toList.length = 10 := by decide
    rw [List.getElem?_eq_none (by omega)]
    simp [h]

/-- **C95.** Numbers are written in decimal, without zeros in front. -/
theorem C95_str (n : Nat) (s : List Char) : strNat n = s ↔ Decimal s n := by
  have sound : ∀ n, Decimal (strNat n) n := by
    intro n
    induction n using Nat.strongRecOn with
    | ind n ih =>
      by_cases h : n < 10
      · unfold strNat
        rw [Nat.toDigits_of_lt_base h]
        exact .digit ((digit_char _ _).mpr ⟨h, rfl⟩)
      · unfold strNat
        rw [Nat.toDigits_of_base_le (by decide) (by omega)]
        have := Decimal.more (ih (n / 10) (by omega)) (by omega) ((digit_char (n % 10) _).mpr ⟨by omega, rfl⟩)
        rwa [show 10 * (n / 10) + n % 10 = n by omega] at this
  refine ⟨fun h => h ▸ sound n, fun h => ?_⟩
  induction h with
  | digit h =>
    obtain ⟨h', rfl⟩ := (digit_char _ _).mp h
    exact Nat.toDigits_of_lt_base h'
  | @more s n c d _ hn h ih =>
    obtain ⟨h, rfl⟩ := (digit_char _ _).mp h
    rw [← ih]
    unfold strNat
    rw [Nat.toDigits_of_base_le (by decide) (by omega), show (10 * n + d) / 10 = n by omega, show (10 * n + d) % 10 = d by omega]

/-- **C95.** Strings are compared by the codes of their characters. -/
theorem C95_compare : ∀ a b : List Char, leChars a b = true ↔ Before a b
  | [], b => by simp [leChars, Before]
  | a :: as, [] => by
    simp only [leChars, Before, Bool.false_eq_true, false_iff]
    rintro (⟨r, h⟩ | ⟨p, c, d, r, s, h1, h2, _⟩)
    · cases h
    · cases p <;> cases h2
  | a :: as, b :: bs => by
    have ih := C95_compare as bs
    unfold leChars
    constructor
    · intro h
      split at h
      · rename_i hlt; exact .inr ⟨[], a, b, as, bs, rfl, rfl, hlt⟩
      · split at h
        · cases h
        · have : a = b := char_toNat_inj (by omega)
          subst this
          rcases ih.mp h with ⟨r, rfl⟩ | ⟨p, c, d, r, s, rfl, rfl, hlt⟩
          · exact .inl ⟨r, rfl⟩
          · exact .inr ⟨a :: p, c, d, r, s, rfl, rfl, hlt⟩
    · rintro (⟨r, h⟩ | ⟨p, c, d, r, s, h1, h2, hlt⟩)
      · injection h with h1 h2
        subst h1
        rw [if_neg (by omega), if_neg (by omega)]
        exact ih.mpr (.inl ⟨r, h2⟩)
      · cases p with
        | nil =>
          injection h1 with h1 _
          injection h2 with h2 _
          subst h1 h2
          rw [if_pos hlt]
        | cons x p =>
          injection h1 with h1 h3
          injection h2 with h2 h4
          subst h1
          subst h2
          rw [if_neg (by omega), if_neg (by omega)]
          exact ih.mpr (.inr ⟨p, c, d, r, s, h3, h4, hlt⟩)

theorem insertSorted_filter {α : Type} {le : α → α → Bool} (h : IsPreord le) (q : α → Bool) (hq : ∀ a b, q a = true → q b = true → le a b = true) (x : α) :
    ∀ l : List α, (insertSorted le x l).filter q = (x :: l).filter q
  | [] => rfl
  | y :: ys => by
    unfold insertSorted
    split
    · rfl
    · rename_i hxy
      rw [List.filter_cons, insertSorted_filter h q hq x ys]
      simp only [List.filter_cons]
      by_cases h1 : q x = true <;> by_cases h2 : q y = true
      · exact absurd (hq x y h1 h2) hxy
      · simp [h1, h2]
      · simp [h1, h2]
      · simp [h1, h2]

/-- **C95.** `list.sort()` is the stable sort. -/
theorem C95_sort {α : Type} (le : α → α → Bool) (h : ∀ a b, le a b = true ∨ le b a = true) (ht : ∀ a b c, le a b = true → le b c = true → le a c = true)
    (s : List α) : SortedBy (fun a b => le a b = true) s (sort le s) := by
  have hp : IsPreord le := ⟨h, ht⟩
  refine ⟨sort_perm s, sort_sorted hp s, fun a _ => ?_⟩
  induction s with
  | nil => rfl
  | cons x xs ih =>
    unfold sort
    rw [insertSorted_filter hp _ (fun b c h1 h2 => by simp at h1 h2; exact ht _ _ _ h1.2 h2.1)]
    simp only [List.filter_cons, ih]

/-- **C95.** Dictionaries have the value that a key was given last. -/
theorem C95_dict {α β : Type} [DecidableEq α] (d : Dict α β) (k j : α) (v : β) :
    Dict.get? (Dict.set d k v) k = some v ∧ (j ≠ k → Dict.get? (Dict.set d k v) j = Dict.get? d j) ∧ Dict.get? ([] : Dict α β) k = none ∧
    (Dict.has d k = true ↔ ∃ v, Dict.get? d k = some v) :=
  ⟨Dict.get?_set_self d k v, Dict.get?_set_ne d v, rfl, by unfold Dict.has; rw [Option.isSome_iff_exists]⟩

/-- The hypotheses of C95_sort are met; the cases are there. -/
example : strip "  a b\t".toList = "a b".toList ∧ Stripped "  a b\t".toList "a b".toList :=
  ⟨by decide, (C95_strip _ _).mp (by decide)⟩
example : Pieces (fun c => (c == '.') = true) "a..b".toList ["a".toList, [], "b".toList] := (C95_split _ _ _).mp (by decide)
example : Joined ", ".toList ["a".toList, "b".toList] "a, b".toList := (C95_join _ _ _).mp (by decide)
example : LowerCase 'Q' 'q' ∧ LowerCase '[' '[' := ⟨(C95_lower _ _).mp (by decide), (C95_lower _ _).mp (by decide)⟩
example : Replaced '.' "\\.".toList "a.b".toList "a\\.b".toList := (C95_replace _ _ _ _).mp (by decide)
example : Decimal "305".toList 305 := (C95_str _ _).mp (by decide)
example : Before "10".toList "9".toList ∧ ¬ Before "b".toList "ab".toList :=
  ⟨(C95_compare _ _).mp (by decide), fun h => absurd ((C95_compare _ _).mpr h) (by decide)⟩
example : SortedBy (fun a b : Nat × Nat => decide (a.1 ≤ b.1) = true) [(2, 0), (1, 1), (2, 2), (1, 3)] [(1, 1), (1, 3), (2, 0), (2, 2)] :=
  C95_sort (fun a b : Nat × Nat => decide (a.1 ≤ b.1)) (fun a b => by simp only [decide_eq_true_eq]; omega)
    (fun a b c h1 h2 => by simp only [decide_eq_true_eq] at *; omega) [(2, 0), (1, 1), (2, 2), (1, 3)]

end Vermin.Props
