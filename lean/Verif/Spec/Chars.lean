/-
Characters and lines of Python's texts, as the language reference lists them.
-/
namespace Vermin.Spec

/-- White space: the characters for which `str.isspace` holds. -/
def Space (c : Char) : Prop :=
  c.toNat ∈ [0x09, 0x0a, 0x0b, 0x0c, 0x0d, 0x1c, 0x1d, 0x1e, 0x1f, 0x20, 0x85, 0xa0, 0x1680, 0x2000, 0x2001, 0x2002, 0x2003, 0x2004, 0x2005, 0x2006,
    0x2007, 0x2008, 0x2009, 0x200a, 0x2028, 0x2029, 0x202f, 0x205f, 0x3000]
instance (c : Char) : Decidable (Space c) := inferInstanceAs (Decidable (_ ∈ _))

/-- Decimal digits -/
def Digit (c : Char) : Prop := c ∈ "0123456789".toList
instance (c : Char) : Decidable (Digit c) := inferInstanceAs (Decidable (_ ∈ _))

/-- Letters, digits and the underscore -/
def WordChar (c : Char) : Prop := c ∈ "abcdefghijklmnopqrstuvwxyzABCDEFGHIJKLMNOPQRSTUVWXYZ0123456789_".toList
instance (c : Char) : Decidable (WordChar c) := inferInstanceAs (Decidable (_ ∈ _))

/-- Characters that end lines: line feed, vertical tab, form feed, carriage return, file, group and record separator, next line, line and
paragraph separator -/
def LineEnd (c : Char) : Prop := c.toNat ∈ [0x0a, 0x0b, 0x0c, 0x0d, 0x1c, 0x1d, 0x1e, 0x85, 0x2028, 0x2029]
instance (c : Char) : Decidable (LineEnd c) := inferInstanceAs (Decidable (_ ∈ _))

/-- The lines of a text, without their ends. A carriage return and a line feed are one end. -/
inductive Lines : List Char → List (List Char) → Prop
  | none : Lines [] []
  | last {l} : l ≠ [] → (∀ c ∈ l, ¬ LineEnd c) → Lines l [l]
  | pair {l r ls} : (∀ c ∈ l, ¬ LineEnd c) → Lines r ls → Lines (l ++ '\r' :: '\n' :: r) (l :: ls)
  | one {l c r ls} : (∀ c ∈ l, ¬ LineEnd c) → LineEnd c → ¬ (c = '\r' ∧ r.head? = some '\n') → Lines r ls → Lines (l ++ c :: r) (l :: ls)

/-- The lines of a text, with their ends. -/
inductive KeptLines : List Char → List (List Char) → Prop
  | none : KeptLines [] []
  | last {l} : l ≠ [] → (∀ c ∈ l, ¬ LineEnd c) → KeptLines l [l]
  | pair {l r ls} : (∀ c ∈ l, ¬ LineEnd c) → KeptLines r ls → KeptLines (l ++ '\r' :: '\n' :: r) ((l ++ ['\r', '\n']) :: ls)
  | one {l c r ls} : (∀ c ∈ l, ¬ LineEnd c) → LineEnd c → ¬ (c = '\r' ∧ r.head? = some '\n') → KeptLines r ls →
      KeptLines (l ++ c :: r) ((l ++ [c]) :: ls)

end Vermin.Spec
