import Verif.Model.Py
import Verif.Spec.Chars
/- Specification of number texts, independent of the recogniser in the model. -/
namespace Vermin.Spec
open Vermin Vermin.Py

/-- `s` consists of one or more blocks of decimal digits joined by single underscores, and `n` is the
decimal value of the digits. -/
def DigitText (s : List Char) (n : Nat) : Prop :=
  ∃ blocks : List (List Char), blocks ≠ [] ∧ (∀ b ∈ blocks, b ≠ [] ∧ ∀ c ∈ b, Digit c) ∧
    s = join ['_'] blocks ∧ n = Nat.ofDigitChars 10 blocks.flatten 0

/-- The texts Python's `int()` reads as `n`: optional white space, optional sign, digits, optional white space. -/
def IntText (s : List Char) (n : Int) : Prop :=
  ∃ l body r, s = l ++ body ++ r ∧ (∀ c ∈ l, Space c) ∧ (∀ c ∈ r, Space c) ∧
    ((∃ m, DigitText body m ∧ n = m) ∨ (∃ b m, body = '+' :: b ∧ DigitText b m ∧ n = m) ∨
     (∃ b m, body = '-' :: b ∧ DigitText b m ∧ n = -(m : Int)))

end Vermin.Spec
