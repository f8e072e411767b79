import Verif.Model.Program
/-
Texts with the same lines in another order, and runs that differ in such texts only.
-/
namespace Vermin.Spec
open Vermin

/-- Two texts made of the same pieces, each of which ends with a line break, in two orders; what comes before and after them
is the same. -/
def Rearranged (a b : String) : Prop :=
  ∃ (pre post : List Char) (ls ls' : List (List Char)), ls.Perm ls' ∧ (∀ l ∈ ls, l.getLast? = some '\n') ∧
    a.toList = pre ++ ls.flatten ++ post ∧ b.toList = pre ++ ls'.flatten ++ post

/-- Lists of the same length, related element by element. -/
def Pairwise₂ {α β : Type} (R : α → β → Prop) (l : List α) (l' : List β) : Prop :=
  l.length = l'.length ∧ ∀ x ∈ l.zip l', R x.1 x.2

/-- Runs that end the same way: with the same message, the same exception, or the same exit code.  What is printed is the same,
except for the order of lines within texts. -/
def SameRun : Outcome → Outcome → Prop
  | .stopped s, .stopped s' => s = s'
  | .unfinished, .unfinished => True
  | .raised e, .raised e' => e = e'
  | .exit files out code, .exit files' out' code' => files = files' ∧ code = code' ∧ Pairwise₂ Rearranged out out'
  | _, _ => False

/-- Results of a file that differ in the order of lines only. -/
def SameFile : FileOut → FileOut → Prop
  | .error e, .error e' => e = e'
  | .ok none, .ok none => True
  | .ok (some r), .ok (some r') => ∃ t, r' = { r with text := t } ∧ Rearranged r.text t
  | _, _ => False

end Vermin.Spec
