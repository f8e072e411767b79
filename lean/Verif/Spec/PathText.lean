import Verif.Spec.Strings
/-
What POSIX paths mean as texts: which folders one goes through, from the root on.
-/
namespace Vermin.Spec

/-- Going from the place `s`, given by the names from the root on, through the parts of a path to the place `t`. -/
inductive Walk : List (List Char) → List (List Char) → List (List Char) → Prop
  | there {s} : Walk s [] s
  | stay {s c cs t} : c = [] ∨ c = ['.'] → Walk s cs t → Walk s (c :: cs) t
  | up {s cs t} : Walk s.dropLast cs t → Walk s (['.', '.'] :: cs) t
  | down {s c cs t} : c ≠ [] → c ≠ ['.'] → c ≠ ['.', '.'] → Walk (s ++ [c]) cs t → Walk s (c :: cs) t

/-- The path `p` leads from the place `s` to the place `t`: absolute paths start at the root. -/
def LeadsTo (s : List (List Char)) (p : List Char) (t : List (List Char)) : Prop :=
  ∃ cs, Pieces (· = '/') p cs ∧ ((p.head? = some '/' ∧ Walk [] cs t) ∨ (p.head? ≠ some '/' ∧ Walk s cs t))

/-- Two slashes at the beginning, and not three, are kept apart from one (POSIX leaves their meaning open). -/
def TwoSlashes (p : List Char) : Prop := ∃ r, p = '/' :: '/' :: r ∧ r.head? ≠ some '/'

/-- The plain way to write a place. -/
def Plainly (two : Prop) (t : List (List Char)) (p : List Char) : Prop :=
  ∃ s, Joined ['/'] t s ∧ ((two ∧ p = '/' :: '/' :: s) ∨ (¬ two ∧ p = '/' :: s))

/-- `b` is what follows the last slash of `p`. -/
def LastPart (p b : List Char) : Prop := '/' ∉ b ∧ (p = b ∨ ∃ d, p = d ++ '/' :: b)

/-- `e` is the extension of a file name: it follows the last dot, and there is something else than dots before that. -/
def Extension (b e : List Char) : Prop := ∃ stem, b = stem ++ '.' :: e ∧ '.' ∉ e ∧ ∃ c ∈ stem, c ≠ '.'

end Vermin.Spec
