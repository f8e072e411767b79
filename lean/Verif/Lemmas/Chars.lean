import Verif.Model.Py
import Verif.Spec.Chars
/-
The model's classes of characters and its lines are those of the specification.
-/
namespace Vermin
open Py Spec

theorem space_iff (c : Char) : isSpace c = true ↔ Space c := by
  unfold isSpace Space
  simp only [Bool.or_eq_true, Bool.and_eq_true, decide_eq_true_eq, beq_iff_eq, List.mem_cons, List.not_mem_nil, or_false]
  omega

theorem lineEnd_iff (c : Char) : isLineBreak c = true ↔ LineEnd c := by
  unfold isLineBreak LineEnd
  simp only [Bool.or_eq_true, Bool.and_eq_true, decide_eq_true_eq, beq_iff_eq, List.mem_cons, List.not_mem_nil, or_false]
  omega

theorem toNat_inj {c d : Char} : c = d ↔ c.toNat = d.toNat := ⟨fun h => h ▸ rfl, fun h => Char.ext (UInt32.toNat_inj.mp h)⟩

theorem chars_mem (s : List Char) (c : Char) : c ∈ s ↔ c.toNat ∈ s.map Char.toNat := by
  rw [List.mem_map]
  exact ⟨fun h => ⟨c, h, rfl⟩, fun ⟨d, h, e⟩ => toNat_inj.mpr e ▸ h⟩

theorem digit_iff (c : Char) : isDigit c = true ↔ Digit c := by
  unfold isDigit Digit
  rw [chars_mem]
  have : "0123456789".toList.map Char.toNat = [48, 49, 50, 51, 52, 53, 54, 55, 56, 57] := by decide +kernel
  rw [this]
  simp only [Bool.and_eq_true, decide_eq_true_eq, List.mem_cons, List.not_mem_nil, or_false]
  omega

theorem wordChar_iff (c : Char) : isWord c = true ↔ WordChar c := by
  unfold isWord isDigit WordChar
  rw [chars_mem]
  have : "abcdefghijklmnopqrstuvwxyzABCDEFGHIJKLMNOPQRSTUVWXYZ0123456789_".toList.map Char.toNat =
    [97, 98, 99, 100, 101, 102, 103, 104, 105, 106, 107, 108, 109, 110, 111, 112, 113, 114, 115, 116, 117, 118, 119, 120, 121, 122,
     65, 66, 67, 68, 69, 70, 71, 72, 73, 74, 75, 76, 77, 78, 79, 80, 81, 82, 83, 84, 85, 86, 87, 88, 89, 90,
     48, 49, 50, 51, 52, 53, 54, 55, 56, 57, 95] := by decide +kernel
  rw [this]
  have e : (c == '_') = decide (c.toNat = 95) := by
    rw [Bool.eq_iff_iff, beq_iff_eq, decide_eq_true_eq]
    exact toNat_inj
  rw [e]
  simp only [Bool.or_eq_true, Bool.and_eq_true, decide_eq_true_eq, List.mem_cons, List.not_mem_nil, or_false]
  omega

/-! ### Lines -/

theorem linesAux (s cur : List Char) (h : ∀ c ∈ cur, ¬ LineEnd c) : ∀ t, t = cur.reverse ++ s → Lines t (splitlinesAux s cur) := by
  fun_induction splitlinesAux s cur with
  | case1 cur he => rintro t rfl; simp_all; exact .none
  | case2 cur he =>
    rintro t rfl
    rw [List.append_nil]
    exact .last (by simpa using he) (by simpa using h)
  | case3 cs cur ih =>
    rintro t rfl
    exact .pair (by simpa using h) (ih (by simp) _ rfl)
  | case4 c cs cur hn hb ih =>
    rintro t rfl
    refine .one (by simpa using h) ((lineEnd_iff c).mp hb) ?_ (ih (by simp) _ rfl)
    rintro ⟨rfl, h2⟩
    cases cs with
    | nil => cases h2
    | cons d cs => injection h2 with h2; subst h2; exact hn cs rfl rfl
  | case5 c cs cur hn hb ih =>
    rintro t rfl
    refine ih (fun d hd => ?_) _ (by simp)
    rcases List.mem_cons.mp hd with rfl | hd
    · exact fun hl => hb ((lineEnd_iff _).mpr hl)
    · exact h d hd

theorem splitlines_lines (t : List Char) : Lines t (splitlines t) := linesAux t [] nofun t rfl

theorem splitlinesAux_append (r : List Char) : ∀ (l cur : List Char), (∀ c ∈ l, ¬ LineEnd c) → splitlinesAux (l ++ r) cur = splitlinesAux r (l.reverse ++ cur)
  | [], cur, _ => rfl
  | c :: l, cur, h => by
    have hb : isLineBreak c = false := by
      cases hc : isLineBreak c with
      | false => rfl
      | true => exact absurd ((lineEnd_iff c).mp hc) (h c (.head _))
    have : splitlinesAux (c :: (l ++ r)) cur = splitlinesAux (l ++ r) (c :: cur) := by
      rw [splitlinesAux.eq_3]
      · rw [hb]; rfl
      · rintro cs rfl _; exact absurd hb (by decide)
    rw [List.cons_append, this, splitlinesAux_append r l _ fun d hd => h d (.tail _ hd), List.reverse_cons, List.append_assoc]
    rfl

theorem lines_iff {t : List Char} {ls : List (List Char)} : Lines t ls ↔ ls = splitlines t := by
  refine ⟨fun h => ?_, fun h => h ▸ splitlines_lines t⟩
  unfold splitlines
  induction h with
  | none => rfl
  | @last l hn hl =>
    have := splitlinesAux_append [] l [] hl
    rw [List.append_nil, List.append_nil] at this
    rw [this, splitlinesAux, if_neg (by simpa using hn), List.reverse_reverse]
  | @pair l r ls hl _ ih =>
    rw [splitlinesAux_append _ _ _ hl, splitlinesAux, List.append_nil, List.reverse_reverse, ih]
  | @one l c r ls hl hc hn _ ih =>
    rw [splitlinesAux_append _ _ _ hl, splitlinesAux.eq_3, (lineEnd_iff c).mpr hc, List.append_nil, List.reverse_reverse, ih]
    · rfl
    · rintro cs rfl rfl; exact hn ⟨rfl, rfl⟩

end Vermin
