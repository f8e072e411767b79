import Verif.Model.Utility
import Verif.Lemmas.Int
/-
C40 (sort keys) and C55 (dotted names).
-/
namespace Vermin.Props
open Vermin Vermin.Py Vermin.Spec

/-! ### C55 -/

/-- The text components an element of a dotted name stands for. -/
def components : DNElem → List (List Char)
  | .str s => [s.toList]
  | .int n => [strInt n]
  | .none => []
  | .list l => l.flatMap fun
    | .str s => [s.toList]
    | _ => []
  | .other => []

/-- Arguments as documented: strings, ints, `None`, and lists of strings and `None`. -/
def Documented : DNElem → Prop
  | .list l => ∀ x ∈ l, ∀ n, x ≠ .int n
  | .other => False
  | _ => True

theorem dnResolve_documented {l : List DNElem} (h : ∀ e ∈ l, Documented e) :
    dnResolve l = .ok ((l.flatMap components).map some) := by
  induction l with
  | nil => rfl
  | cons e es ih =>
    have he := h e (by simp)
    have hes := ih fun x hx => h x (List.mem_cons_of_mem _ hx)
    have h1 : dnElem e = .ok ((components e).map some) := by
      cases e with
      | str s => rfl
      | int n => rfl
      | none => rfl
      | other => exact absurd he id
      | list l =>
        simp only [dnElem, components, Except.ok.injEq]
        clear hes ih h
        induction l with
        | nil => rfl
        | cons x xs ihx =>
          have := ihx fun y hy => he y (List.mem_cons_of_mem _ hy)
          cases x with
          | str s => simp [this]
          | int n => exact absurd rfl (he (.int n) (by simp) n)
          | none => simp [this]
    simp only [dnResolve, h1, hes, List.flatMap_cons, List.map_append]
    rfl

theorem filterMap_map_some {α : Type} (l : List α) : (l.map some).filterMap id = l := by
  induction l <;> simp_all

/-- C55: `dotted_name` of a documented list is the `.`-join of the flattened components. -/
theorem C55_dotted_name {l : List DNElem} (h : ∀ e ∈ l, Documented e) :
    dottedName (.list l) = .ok (String.ofList (join ['.'] (l.flatMap components))) := by
  have hany : ∀ (x : List (List Char)), (x.map some).any Option.isNone = false := by
    intro x; induction x <;> simp_all
  have hr := dnResolve_documented h
  show (dnResolve l).bind dnJoin = _
  rw [hr]
  show dnJoin _ = _
  simp only [dnJoin, hany, Bool.false_eq_true, if_false, filterMap_map_some]

/-- C55: any other list is refused: an element that is no string, int, list or `None` by the assertion, and ints in lists within by `join`. -/
theorem C55_refused (l : List DNElem) :
    (.other ∈ l → dottedName (.list l) = .error .assertion) ∧
    (.other ∉ l → (∃ xs n, .list xs ∈ l ∧ .int n ∈ xs) → dottedName (.list l) = .error .typeError) := by
  have h1 : .other ∈ l → dnResolve l = .error .assertion := by
    intro h
    induction l with
    | nil => cases h
    | cons e es ih =>
      show (dnElem e).bind (fun a => (dnResolve es).bind fun b => Except.ok (a ++ b)) = _
      cases he : dnElem e with
      | error x => cases e <;> simp [dnElem] at he; subst he; rfl
      | ok a =>
        rcases List.mem_cons.mp h with rfl | h
        · cases he
        · rw [ih h]; rfl
  have h2 : .other ∉ l → ∃ r, dnResolve l = .ok r ∧ ((∃ xs n, .list xs ∈ l ∧ .int n ∈ xs) → none ∈ r) := by
    intro h
    clear h1
    induction l with
    | nil => exact ⟨[], rfl, fun ⟨_, _, h, _⟩ => nomatch h⟩
    | cons e es ih =>
      obtain ⟨r, hr, hn⟩ := ih fun h' => h (List.mem_cons_of_mem _ h')
      have : ∃ a, dnElem e = .ok a ∧ ((∃ xs n, e = .list xs ∧ .int n ∈ xs) → none ∈ a) := by
        cases e with
        | other => exact absurd List.mem_cons_self h
        | list xs =>
          refine ⟨_, rfl, fun ⟨ys, n, hy, hin⟩ => ?_⟩
          injection hy with hy
          subst hy
          exact List.mem_filterMap.mpr ⟨_, hin, rfl⟩
        | str s => exact ⟨_, rfl, fun ⟨_, _, h, _⟩ => nomatch h⟩
        | int s => exact ⟨_, rfl, fun ⟨_, _, h, _⟩ => nomatch h⟩
        | none => exact ⟨_, rfl, fun ⟨_, _, h, _⟩ => nomatch h⟩
      obtain ⟨a, ha, hm⟩ := this
      refine ⟨a ++ r, ?_, ?_⟩
      · show (dnElem e).bind (fun a => (dnResolve es).bind fun b => Except.ok (a ++ b)) = _
        rw [ha, hr]; rfl
      · rintro ⟨xs, n, hx, hi⟩
        rcases List.mem_cons.mp hx with rfl | hx
        · exact List.mem_append_left _ (hm ⟨xs, n, rfl, hi⟩)
        · exact List.mem_append_right _ (hn ⟨xs, n, hx, hi⟩)
  refine ⟨fun h => ?_, fun h hi => ?_⟩
  · show (dnResolve l).bind dnJoin = _
    rw [h1 h]; rfl
  · obtain ⟨r, hr, hn⟩ := h2 h
    show (dnResolve l).bind dnJoin = _
    rw [hr]
    show dnJoin r = _
    unfold dnJoin
    rw [if_pos (List.any_eq_true.mpr ⟨none, hn hi, rfl⟩)]

example : dottedName (.list [.str "a", .list [.int 3]]) = .error .typeError ∧ dottedName (.list [.list [.int 3], .other]) = .error .assertion :=
  ⟨(C55_refused _).2 (by decide) ⟨[.int 3], 3, by decide, by decide⟩, (C55_refused _).1 (by decide)⟩

theorem splitOn_join {l : List (List Char)} (hne : l ≠ []) (h : ∀ w ∈ l, '.' ∉ w) :
    splitOn (· == '.') (join ['.'] l) = l := by
  induction l with
  | nil => exact absurd rfl hne
  | cons w ws ih =>
    have hw : ∀ c ∈ w, (c == '.') = false := by
      intro c hc; simp; rintro rfl; exact h w (by simp) hc
    cases ws with
    | nil => exact splitOn_of_none hw
    | cons w' ws' =>
      simp only [join, List.append_assoc, List.singleton_append]
      rw [splitOn_append hw (by simp), ih (by simp) fun x hx => h x (List.mem_cons_of_mem _ hx)]

/-- C55: splitting the dotted name at the dots gives the components back, if they contain no dot. -/
theorem C55_split {l : List DNElem} {s : String} (h : ∀ e ∈ l, Documented e)
    (hne : l.flatMap components ≠ []) (hdot : ∀ w ∈ l.flatMap components, '.' ∉ w)
    (hs : dottedName (.list l) = .ok s) : splitOn (· == '.') s.toList = l.flatMap components := by
  rw [C55_dotted_name h] at hs
  injection hs with hs
  rw [← hs, String.toList_ofList, splitOn_join hne hdot]

/-- C55: a string is returned as it is. -/
theorem C55_string (s : String) : dottedName (.str s) = .ok s := rfl

example : dottedName (.list [.str "a", .none, .list [.str "b", .none, .str "c"], .int 3]) = .ok "a.b.c.3" ∧
    dottedName (.list [.int 3, .int 12]) = .ok "3.12" := by decide +kernel

/-- The rendering of version tuples used for printing versions is `dotted_name`. -/
theorem versionDotted_eq (v : Ver) :
    dottedName (.list [.int v.major, .int v.minor]) = .ok (String.ofList (VVal.dotted (.tup v))) := by
  rw [C55_dotted_name (by simp [Documented])]
  simp [components, join, VVal.dotted, strInt]

/-! ### C40 -/

theorem span_digits {ds rest : List Char} {c : Char} (hd : ∀ x ∈ ds, isDigit x = true) (hc : isDigit c = false) :
    takeDigits (ds ++ c :: rest) = (ds, c :: rest) := by
  unfold takeDigits
  have h1 : (ds ++ c :: rest).takeWhile isDigit = ds := by
    induction ds with
    | nil => simp [hc]
    | cons x xs ih => simp [hd x (by simp), ih fun y hy => hd y (List.mem_cons_of_mem _ hy)]
  have h2 : (ds ++ c :: rest).dropWhile isDigit = c :: rest := by
    rw [dropWhile_append_of_all hd, dropWhile_of_head hc]
  rw [h1, h2]

theorem natOf_strNat (n : Nat) : natOf (strNat n) = n := strNat_ofDigits n

/-- The text of a default-format line with line and column: `LX CY: rest` (default_format.py:24-31). -/
def lineColText (line col : Nat) (rest : List Char) : List Char :=
  'L' :: (strNat line ++ [' ', 'C'] ++ strNat col ++ [':'] ++ rest)

/-- The text of a parsable line: `path:line:col:rest` (parsable_format.py:28-29). -/
def parsableText (path : List Char) (line col : Nat) (rest : List Char) : List Char :=
  path ++ [':'] ++ strNat line ++ [':'] ++ strNat col ++ [':'] ++ rest

theorem matchLineCol_text (line col : Nat) (rest : List Char) :
    matchLineCol (lineColText line col rest) = some (line, some col, untilNewline rest) := by
  have hne := strNat_ne_nil line
  have hne2 := strNat_ne_nil col
  have h1 : takeDigits (strNat line ++ ' ' :: 'C' :: (strNat col ++ ':' :: rest)) =
      (strNat line, ' ' :: 'C' :: (strNat col ++ ':' :: rest)) :=
    span_digits (fun x hx => isDigit_of_mem_strNat hx) (by decide)
  have h2 : takeDigits (strNat col ++ ':' :: rest) = (strNat col, ':' :: rest) :=
    span_digits (fun x hx => isDigit_of_mem_strNat hx) (by decide)
  have h3 : isSpace ' ' = true := by decide
  have h4 : isSpace 'C' = false := by decide
  simp [matchLineCol, lineColText, h1, hne, List.dropWhile_cons, h3, h4, h2, hne2, natOf_strNat]

theorem matchParsable_text {path : List Char} (hp : ∀ c ∈ path, c ≠ ':' ∧ c ≠ '\n') (line col : Nat) (rest : List Char) :
    matchParsable (parsableText path line col rest) = some (line, col, untilNewline rest) := by
  have hne := strNat_ne_nil line
  have h1 : takeDigits (strNat line ++ ':' :: (strNat col ++ ':' :: rest)) =
      (strNat line, ':' :: (strNat col ++ ':' :: rest)) :=
    span_digits (fun x hx => isDigit_of_mem_strNat hx) (by decide)
  have h2 : takeDigits (strNat col ++ ':' :: rest) = (strNat col, ':' :: rest) :=
    span_digits (fun x hx => isDigit_of_mem_strNat hx) (by decide)
  induction path with
  | nil =>
    simp only [parsableText, List.nil_append, List.append_assoc, List.cons_append]
    simp [matchParsable, matchParsableTail, h1, hne, h2, natOf_strNat]
  | cons c cs ih =>
    have hc := hp c (by simp)
    have ih := ih fun x hx => hp x (List.mem_cons_of_mem _ hx)
    have e : parsableText (c :: cs) line col rest = c :: parsableText cs line col rest := by
      simp [parsableText]
    rw [e, matchParsable]
    have ht : matchParsableTail (c :: parsableText cs line col rest) = none := by
      unfold matchParsableTail
      split
      · rename_i h; simp at h; exact absurd h.1 hc.1
      · rfl
    rw [ht]
    simp [hc.2, ih]

/-- (line, column, hash of the rest) in lexicographic order. -/
def PosLt (l1 c1 h1 l2 c2 h2 : Nat) : Prop := l1 < l2 ∨ l1 = l2 ∧ (c1 < c2 ∨ c1 = c2 ∧ h1 < h2)

theorem strHash_lt (s : List Char) : strHash s < 1000000 := Nat.mod_lt _ (by decide)

/-- C40, default format: lines with columns below 1000 are ordered by line, then column, then text hash.
Missing: columns from 1000 on, see `C40_default_false`. -/
theorem C40_default_partial (l1 c1 l2 c2 : Nat) (r1 r2 : List Char) (h1 : c1 < 1000) (h2 : c2 < 1000) :
    sortLineColumn (lineColText l1 c1 r1) < sortLineColumn (lineColText l2 c2 r2) ↔
      PosLt l1 c1 (strHash (untilNewline r1)) l2 c2 (strHash (untilNewline r2)) := by
  simp only [sortLineColumn, matchLineCol_text, PosLt]
  have := strHash_lt (untilNewline r1)
  have := strHash_lt (untilNewline r2)
  omega

/-- C40, parsable format (paths without `:` and newline, as main.py ensures). -/
theorem C40_parsable_partial {p1 p2 : List Char} (hp1 : ∀ c ∈ p1, c ≠ ':' ∧ c ≠ '\n')
    (hp2 : ∀ c ∈ p2, c ≠ ':' ∧ c ≠ '\n') (l1 c1 l2 c2 : Nat) (r1 r2 : List Char) (h1 : c1 < 1000) (h2 : c2 < 1000) :
    sortLineColumnParsable (parsableText p1 l1 c1 r1) < sortLineColumnParsable (parsableText p2 l2 c2 r2) ↔
      PosLt l1 c1 (strHash (untilNewline r1)) l2 c2 (strHash (untilNewline r2)) := by
  simp only [sortLineColumnParsable, matchParsable_text hp1, matchParsable_text hp2, PosLt]
  have := strHash_lt (untilNewline r1)
  have := strHash_lt (untilNewline r2)
  omega

/-- C40 is false in general: a finding at column 1500 of line 1 is sorted after one at column 1 of line 2,
in both formats. -/
theorem C40_default_false :
    sortLineColumn (lineColText 2 1 " x".toList) < sortLineColumn (lineColText 1 1500 " x".toList) ∧
    sortLineColumnParsable (parsableText "a.py".toList 2 1 "x".toList) <
      sortLineColumnParsable (parsableText "a.py".toList 1 1500 "x".toList) := by decide +kernel

theorem key_lt {a b x y : Nat} (h : a < b) (hx : x < 1000000) : a * 1000000 + x < b * 1000000 + y := by omega

/-- What the default format's key does for all columns: it orders by `1000 * line + column`. -/
theorem C40_line_order_partial (l1 c1 l2 c2 : Nat) (r1 r2 : List Char) (h : l1 * 1000 + c1 < l2 * 1000 + c2) :
    sortLineColumn (lineColText l1 c1 r1) < sortLineColumn (lineColText l2 c2 r2) := by
  simp only [sortLineColumn, matchLineCol_text]
  have e : ∀ l c : Nat, l * 1000000000 + c * 1000000 = (l * 1000 + c) * 1000000 := by
    intro l c; rw [Nat.add_mul, Nat.mul_assoc]
  rw [e, e]
  exact key_lt h (strHash_lt _)

example : sortLineColumn "L12 C3: msg".toList = 12003000000 + strHash " msg".toList ∧
    sortLineColumn "L7: x".toList = 7000000000 + strHash " x".toList ∧
    sortLineColumnParsable "a.py:3::!2:3.4:x".toList = 3000000000 + strHash "!2:3.4:x".toList := by decide +kernel

end Vermin.Props
