/-
How Python reads string literals and lists of them.
-/
namespace Vermin.Spec

/-- Escape sequences: the letter after the backslash and the character it stands for -/
def escapes : List (Char × Char) := [('\\', '\\'), ('\'', '\''), ('"', '"'), ('n', '\n'), ('r', '\r'), ('t', '\t')]

/-- Between quotes `q` the text is read as the string. -/
inductive Unescapes (q : Char) : List Char → List Char → Prop
  | nil : Unescapes q [] []
  | plain {c t s} : c ≠ q → c ≠ '\\' → c ≠ '\n' → c ≠ '\r' → Unescapes q t s → Unescapes q (c :: t) (c :: s)
  | escape {c d t s} : (c, d) ∈ escapes → Unescapes q t s → Unescapes q ('\\' :: c :: t) (d :: s)

/-- The text is a literal of the string: quoted by single or double quotes. -/
def StrLit (t : List Char) (s : String) : Prop := ∃ q body, (q = '\'' ∨ q = '"') ∧ t = q :: (body ++ [q]) ∧ Unescapes q body s.toList

/-- The text has literals of the strings, separated by commas. -/
inductive StrLits : List Char → List String → Prop
  | nil : StrLits [] []
  | one {t s} : StrLit t s → StrLits t [s]
  | more {t s r x l} : StrLit t s → StrLits r (x :: l) → StrLits (t ++ ',' :: ' ' :: r) (s :: x :: l)

/-- The text is a display of the list. -/
def ListLit (t : List Char) (l : List String) : Prop := ∃ body, t = '[' :: (body ++ [']']) ∧ StrLits body l

end Vermin.Spec
