import Verif.Lemmas.Found
import Verif.Lemmas.Int
/-
Texts `a.b.c`.
-/
namespace Vermin
open Py V Spec

theorem identifier_free {x : String} (h : Identifier x) : ∀ c ∈ x.toList, (c == '.') = false := by
  intro c hc
  rw [beq_eq_false_iff_ne]
  rintro rfl
  exact h.2 hc

theorem splitDots_text {a : String} {bs : List String} (ha : Identifier a) (hb : ∀ b ∈ bs, Identifier b) : splitDots (dottedText a bs) = a :: bs :=
  dotParts_split ⟨ha.2, fun b h => (hb b h).2, rfl⟩

theorem dottedText_append (a : String) (bs cs : List String) : dottedText (dottedText a bs) cs = dottedText a (bs ++ cs) := by
  unfold dottedText
  rw [List.foldl_append]

end Vermin
