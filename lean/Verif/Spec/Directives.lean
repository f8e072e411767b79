import Verif.Spec.Chars
/-
The directives of texts, independent of how they are looked for.
-/
namespace Vermin.Spec

/-! ### Directives: matches of `%[-.\d#\s+]*(\w)` -/

/-- The characters between `%` and the letter of a directive -/
def Modifier (c : Char) : Prop := c = '-' ∨ c = '.' ∨ c = '#' ∨ c = '+' ∨ Digit c ∨ Space c

/-- The text starts with `%`, the modifiers and the letter. -/
def DirectiveAt (t ms : List Char) (d : Char) : Prop := (∃ post, t = '%' :: (ms ++ d :: post)) ∧ (∀ c ∈ ms, Modifier c) ∧ WordChar d

/-- The text has the directive: there is a `%` such that the letter ends the longest match there. -/
def Directive (t : List Char) (d : Char) : Prop :=
  ∃ pre u ms, t = pre ++ u ∧ DirectiveAt u ms d ∧ ∀ ms' d', DirectiveAt u ms' d' → ms'.length ≤ ms.length

end Vermin.Spec
