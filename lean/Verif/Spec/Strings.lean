import Verif.Spec.Text
/-
What the methods of Python's strings, lists and dictionaries do that the code relies on.
-/
namespace Vermin.Spec

/-- `t` is `s` without the white space at both ends. -/
def Stripped (s t : List Char) : Prop :=
  (∃ l r, s = l ++ t ++ r ∧ (∀ c ∈ l, Space c) ∧ ∀ c ∈ r, Space c) ∧ (∀ c, t.head? = some c → ¬ Space c) ∧ ∀ c, t.getLast? = some c → ¬ Space c

/-- `ws` are the pieces of `s` between the characters that are separators. -/
inductive Pieces (sep : Char → Prop) : List Char → List (List Char) → Prop
  | last {w} : (∀ c ∈ w, ¬ sep c) → Pieces sep w [w]
  | more {w c s ws} : (∀ c ∈ w, ¬ sep c) → sep c → Pieces sep s ws → Pieces sep (w ++ c :: s) (w :: ws)

/-- `s` is made of the texts `ws` with `sep` in between. -/
inductive Joined (sep : List Char) : List (List Char) → List Char → Prop
  | none : Joined sep [] []
  | one {w} : Joined sep [w] w
  | more {w v ws s} : Joined sep (v :: ws) s → Joined sep (w :: v :: ws) (w ++ sep ++ s)

/-- Upper case letters with their lower case letters -/
def letters : List (Char × Char) := "ABCDEFGHIJKLMNOPQRSTUVWXYZ".toList.zip "abcdefghijklmnopqrstuvwxyz".toList

/-- `d` is the lower case of `c`. -/
def LowerCase (c d : Char) : Prop := (c, d) ∈ letters ∨ (d = c ∧ ∀ e, (c, e) ∉ letters)

/-- `t` is `s` with every `old` replaced by `new`. -/
inductive Replaced (old : Char) (new : List Char) : List Char → List Char → Prop
  | none : Replaced old new [] []
  | same {c s t} : c ≠ old → Replaced old new s t → Replaced old new (c :: s) (c :: t)
  | new {s t} : Replaced old new s t → Replaced old new (old :: s) (new ++ t)

/-- `s` is the number `n` in decimal, without zeros in front. -/
inductive Decimal : List Char → Nat → Prop
  | digit {c d} : "0123456789".toList[d]? = some c → Decimal [c] d
  | more {s n c d} : Decimal s n → 0 < n → "0123456789".toList[d]? = some c → Decimal (s ++ [c]) (10 * n + d)

/-- `a` comes before `b`, or they are equal: `a` is the beginning of `b`, or at the first difference it has the lower code. -/
def Before (a b : List Char) : Prop :=
  (∃ r, b = a ++ r) ∨ ∃ p c d r s, a = p ++ c :: r ∧ b = p ++ d :: s ∧ c.toNat < d.toNat

/-- `t` is `s` sorted by `le`; elements that are equal for it stay in order. -/
def SortedBy {α : Type} (le : α → α → Prop) (s t : List α) : Prop :=
  t.Perm s ∧ t.Pairwise le ∧ ∀ a [DecidablePred fun b => le a b ∧ le b a], t.filter (fun b => le a b ∧ le b a) = s.filter (fun b => le a b ∧ le b a)

end Vermin.Spec
