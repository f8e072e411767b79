import Verif.Props.Texts
/-
C40, exactly: what the keys of output lines order by, for all columns, with and without column, and for texts without position.
-/
namespace Vermin.Props
open Vermin Vermin.Py Vermin.Spec

/-- `t` is what `r` has before its first line feed. -/
def BeforeFeed (r t : List Char) : Prop := '\n' ∉ t ∧ (r = t ∨ ∃ u, r = t ++ '\n' :: u)

/-- The number by which texts at the same position are ordered: 13 plus 29 times the code points, modulo a million. -/
def Weight (t : List Char) : Nat := (13 + 29 * (t.map Char.toNat).sum) % 1000000

/-- A line of the default format with its line, column (0 if there is none) and message. -/
inductive Positioned : List Char → Nat → Nat → List Char → Prop
  | column {l c : Nat} {r t : List Char} : BeforeFeed r t →
      Positioned ('L' :: (Nat.toDigits 10 l ++ ' ' :: 'C' :: (Nat.toDigits 10 c ++ ':' :: r))) l c t
  | line {l : Nat} {r t : List Char} : BeforeFeed r t → Positioned ('L' :: (Nat.toDigits 10 l ++ ':' :: r)) l 0 t

/-- A line of the parsable format: path, line, column and the rest. -/
inductive PositionedParsable : List Char → Nat → Nat → List Char → Prop
  | column {p : List Char} {l c : Nat} {r t : List Char} : (∀ x ∈ p, x ≠ ':' ∧ x ≠ '\n') → BeforeFeed r t →
      PositionedParsable (p ++ ':' :: (Nat.toDigits 10 l ++ ':' :: (Nat.toDigits 10 c ++ ':' :: r))) l c t
  | line {p : List Char} {l : Nat} {r t : List Char} : (∀ x ∈ p, x ≠ ':' ∧ x ≠ '\n') → BeforeFeed r t →
      PositionedParsable (p ++ ':' :: (Nat.toDigits 10 l ++ ':' :: ':' :: r)) l 0 t

/-- The order of lines: by a thousand times the line plus the column, then by weight. -/
def PlaceLt (l1 c1 : Nat) (t1 : List Char) (l2 c2 : Nat) (t2 : List Char) : Prop :=
  1000 * l1 + c1 < 1000 * l2 + c2 ∨ 1000 * l1 + c1 = 1000 * l2 + c2 ∧ Weight t1 < Weight t2

theorem foldl_weight : ∀ (t : List Char) (n : Nat), t.foldl (fun acc ch => acc + 29 * ch.toNat) n = n + 29 * (t.map Char.toNat).sum
  | [], n => by simp
  | c :: t, n => by
    rw [List.foldl_cons, foldl_weight t, List.map_cons, List.sum_cons]
    omega

theorem strHash_eq (t : List Char) : strHash t = Weight t := by
  unfold strHash Weight
  rw [foldl_weight]

theorem weight_lt (t : List Char) : Weight t < 1000000 := Nat.mod_lt _ (by decide)

theorem untilNewline_eq {r t : List Char} (h : BeforeFeed r t) : untilNewline r = t := by
  have hall : ∀ c ∈ t, (c != '\n') = true := fun c hc => by
    rw [bne_iff_ne]; rintro rfl; exact h.1 hc
  unfold untilNewline
  rcases h.2 with rfl | ⟨u, rfl⟩
  · have := List.takeWhile_append_of_pos (l₂ := []) hall
    simpa using this
  · rw [List.takeWhile_append_of_pos hall]
    simp

theorem positioned_key {s : List Char} {l c : Nat} {t : List Char} (h : Positioned s l c t) :
    sortLineColumn s = l * 1000000000 + c * 1000000 + Weight t := by
  cases h with
  | @column _ _ r _ hr =>
    have e : ('L' :: (Nat.toDigits 10 l ++ ' ' :: 'C' :: (Nat.toDigits 10 c ++ ':' :: r))) = lineColText l c r := by
      simp [lineColText, strNat]
    rw [e, sortLineColumn, matchLineCol_text, untilNewline_eq hr]
    simp only [strHash_eq]
  | @line _ r _ hr =>
    have h1 : takeDigits (strNat l ++ ':' :: r) = (strNat l, ':' :: r) := span_digits (fun x hx => isDigit_of_mem_strNat hx) (by decide)
    have e : matchLineCol ('L' :: (Nat.toDigits 10 l ++ ':' :: r)) = some (l, none, t) := by
      show matchLineCol ('L' :: (strNat l ++ ':' :: r)) = _
      simp [matchLineCol, h1, strNat_ne_nil l, natOf_strNat, untilNewline_eq hr]
    rw [sortLineColumn, e]
    simp only [strHash_eq]
    omega

theorem matchParsable_skip {q : List Char} {x : Nat × Nat × List Char} (hq : matchParsable q = some x) :
    ∀ {p : List Char}, (∀ c ∈ p, c ≠ ':' ∧ c ≠ '\n') → matchParsable (p ++ q) = some x
  | [], _ => hq
  | c :: cs, hp => by
    have hc := hp c (by simp)
    rw [List.cons_append, matchParsable]
    have ht : matchParsableTail (c :: (cs ++ q)) = none := by
      unfold matchParsableTail
      split
      · rename_i h; simp at h; exact absurd h.1 hc.1
      · rfl
    rw [ht]
    simp [hc.2, matchParsable_skip hq fun x hx => hp x (List.mem_cons_of_mem _ hx)]

theorem positionedParsable_key {s : List Char} {l c : Nat} {t : List Char} (h : PositionedParsable s l c t) :
    sortLineColumnParsable s = l * 1000000000 + c * 1000000 + Weight t := by
  cases h with
  | @column p _ _ r _ hp hr =>
    have e : p ++ ':' :: (Nat.toDigits 10 l ++ ':' :: (Nat.toDigits 10 c ++ ':' :: r)) = parsableText p l c r := by
      simp [parsableText, strNat]
    rw [e, sortLineColumnParsable, matchParsable_text hp, untilNewline_eq hr]
    simp only [strHash_eq]
  | @line p _ r _ hp hr =>
    have h1 : takeDigits (strNat l ++ ':' :: ':' :: r) = (strNat l, ':' :: ':' :: r) := span_digits (fun x hx => isDigit_of_mem_strNat hx) (by decide)
    have h2 : takeDigits (':' :: r) = ([], ':' :: r) := span_digits (ds := []) (by simp) (by decide)
    have e : matchParsable (p ++ ':' :: (Nat.toDigits 10 l ++ ':' :: ':' :: r)) = some (l, 0, t) := by
      refine matchParsable_skip ?_ hp
      show matchParsable (':' :: (strNat l ++ ':' :: ':' :: r)) = _
      rw [matchParsable]
      have : matchParsableTail (':' :: (strNat l ++ ':' :: ':' :: r)) = some (l, 0, t) := by
        simp only [matchParsableTail, h1]
        rw [if_neg (by simp [strNat_ne_nil l])]
        simp only [h2, natOf_strNat, untilNewline_eq hr]
        rfl
      rw [this]
    rw [sortLineColumnParsable, e]
    simp only [strHash_eq]

theorem place_iff {l1 c1 l2 c2 : Nat} {t1 t2 : List Char} :
    l1 * 1000000000 + c1 * 1000000 + Weight t1 < l2 * 1000000000 + c2 * 1000000 + Weight t2 ↔ PlaceLt l1 c1 t1 l2 c2 t2 := by
  have := weight_lt t1
  have := weight_lt t2
  unfold PlaceLt
  omega

/-- **C40, exactly.** For all lines and columns, and without column, both formats order by a thousand times the line plus the column, and then by
the weight of the message up to its first line feed. -/
theorem C40_exact {s1 s2 : List Char} {l1 c1 l2 c2 : Nat} {t1 t2 : List Char} :
    (Positioned s1 l1 c1 t1 → Positioned s2 l2 c2 t2 → (sortLineColumn s1 < sortLineColumn s2 ↔ PlaceLt l1 c1 t1 l2 c2 t2)) ∧
    (PositionedParsable s1 l1 c1 t1 → PositionedParsable s2 l2 c2 t2 →
      (sortLineColumnParsable s1 < sortLineColumnParsable s2 ↔ PlaceLt l1 c1 t1 l2 c2 t2)) := by
  refine ⟨fun h1 h2 => ?_, fun h1 h2 => ?_⟩
  · rw [positioned_key h1, positioned_key h2]; exact place_iff
  · rw [positionedParsable_key h1, positionedParsable_key h2]; exact place_iff

/-- So the claim, by line and then by column, holds for two positions exactly if the key does not carry the column into the next line. -/
theorem C40_exact_lines {s1 s2 : List Char} {l1 c1 l2 c2 : Nat} {t1 t2 : List Char} (h1 : Positioned s1 l1 c1 t1) (h2 : Positioned s2 l2 c2 t2)
    (hl : l1 < l2) : sortLineColumn s1 < sortLineColumn s2 ↔ c1 < 1000 * (l2 - l1) + c2 ∨ c1 = 1000 * (l2 - l1) + c2 ∧ Weight t1 < Weight t2 := by
  rw [C40_exact.1 h1 h2]
  unfold PlaceLt
  have : 1000 * l2 = 1000 * l1 + 1000 * (l2 - l1) := by omega
  omega

/-- Texts without a position come before all lines from the first on. -/
theorem C40_unplaced {s s' : List Char} {l c : Nat} {t : List Char} (h : s.head? ≠ some 'L') (h' : Positioned s' l c t) (hl : 0 < l) :
    sortLineColumn s < sortLineColumn s' := by
  have e : matchLineCol s = none := by
    unfold matchLineCol
    split
    · exact absurd rfl h
    · rfl
  rw [positioned_key h', sortLineColumn, e, strHash_eq]
  have := weight_lt s
  show Weight s * 1000 < _
  omega

/-- Examples, among them the weight of anagrams. -/
theorem C40_exact_witness : Positioned "L12 C3: ab".toList 12 3 " ab".toList ∧ Positioned "L7: x\ny".toList 7 0 " x".toList ∧
    PositionedParsable "a.py:3::!2:3.4:x".toList 3 0 "!2:3.4:x".toList ∧ Weight " ab".toList = Weight "ba ".toList ∧
    PlaceLt 2 1 [] 1 1500 [] := by
  refine ⟨.column (l := 12) (c := 3) (r := " ab".toList) ⟨by decide, .inl rfl⟩, .line (l := 7) (r := " x\ny".toList) ⟨by decide, .inr ⟨['y'], rfl⟩⟩,
    .line (p := "a.py".toList) (l := 3) (r := "!2:3.4:x".toList) (by decide) ⟨by decide, .inl rfl⟩, by decide, .inl (by decide)⟩

end Vermin.Props
