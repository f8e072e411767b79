import Verif.Spec.Learnt
import Verif.Spec.Reach
/-
The places of a program, with what is certain when the visitor gets there: the names that have been defined and are in scope, the ellipses that have
been seen in slices, and how deep the place is nested.
-/
namespace Vermin.Spec
open Vermin

/-- The part leaves a definition of `x` behind when it has been looked at: it has a definition of the name, in no scope of its own, or is the list of
parameters of a function. -/
def Leaves (env : Env) (n : Node) (x : String) : Prop :=
  (∃ m, ReachFlat env m n ∧ ¬ Marked env m ∧ Introduces m x) ∨ (n.kind = .arguments ∧ Defines n x)

/-- The node defines the name before anything else is done about it, be it for its parts only. -/
def DefinesFirst (n : Node) (x : String) : Prop := Defines n x ∧ n.kind ≠ .import ∧ ∀ m l, n.kind ≠ .importFrom m l

/-- What is certain at a place: names that are defined, ellipses that are in slices, and the nesting. -/
structure Place where
  defs : String → Prop
  slices : Nat → Prop
  depth : Nat

namespace Place

/-- Nothing is defined at the start. -/
def start : Place := ⟨fun _ => False, fun _ => False, 0⟩

/-- More names are defined. -/
def add (c : Place) (D : String → Prop) : Place := { c with defs := fun x => c.defs x ∨ D x }

/-- What is certain at `n` itself: what `n` defines. -/
def own (c : Place) (n : Node) : Place := c.add (DefinesFirst n)

/-- What is certain at the parts of `n`: the ellipses in its slice, too. -/
def enter (c : Place) (n : Node) : Place :=
  { c.own n with slices := fun u => c.slices u ∨ ∃ e, InSlice n e ∧ e.kind = .const .ellipsis ∧ e.info.uid = u }

/-- What is certain after some parts have been looked at. -/
def after (env : Env) (c : Place) (l : Node → Prop) : Place := c.add fun x => ∃ i, l i ∧ Leaves env i x

/-- One level down -/
def deeper (c : Place) : Place := { c with depth := c.depth + 1 }

/-- The state of the visitor agrees. -/
structure Fits (c : Place) (s : S) : Prop where
  defs : ∀ x, c.defs x → x ∈ s.userDefs
  slices : ∀ u, c.slices u → u ∈ s.ellipsisInSlices
  depth : s.depth = c.depth

end Place

/-- The part `m` of `n` is looked at with `c'` being certain, if `n` is looked at with `c` being certain.  Parts are looked at in order, except that
those of a `finally` clause are looked at before the rest of the statement, too, and the parts of the statements of a class once more after all
of them. -/
inductive Located (env : Env) : Place → Node → Place → Node → Prop
  | here (c : Place) (n : Node) : Located env c n c n
  | part {c c' : Place} {n k m : Node} {l₁ l₂ : List Node} : ¬ Marked env n → ¬ Unevaluated env n k → n.kids = l₁ ++ k :: l₂ →
      Located env (((c.enter n).after env fun i => i ∈ l₁ ∧ ¬ Unevaluated env n i).deeper) k c' m → Located env c n c' m
  | finally {c c' : Place} {n k m : Node} {l₁ l₂ : List Node} : ¬ Marked env n → n.kind = .try →
      n.fields .finalbody = l₁ ++ k :: l₂ → Located env (c.after env (· ∈ l₁)) k c' m → Located env c n c' m
  | again {c c' : Place} {n k j m : Node} {name : String} {l₁ l₂ : List Node} : ¬ Marked env n → n.kind = .classDef name → k ∈ n.fields .body →
      k.kids = l₁ ++ j :: l₂ → Located env (((c.enter n).after env fun i => i ∈ n.kids ∨ i ∈ l₁).deeper) j c' m → Located env c n c' m

/-- The name an event is about, if it is left out for names that are defined. -/
def Event.subject : Event → Option String
  | .module m | .member m | .kwarg m _ | .deco m => some m
  | _ => none

/-- There is a part of `n` that gives rise to the event, given what may be known and what is certain there; what it is about is not defined. -/
def Backs (env : Env) (p : Node) (c : Place) (n : Node) (ev : Event) : Prop :=
  ∃ c' m, Located env c n c' m ∧ ¬ Marked env m ∧ EmitsIn env (fun s => (c'.own m).Fits s ∧ Learnt env p m s) m ev ∧
    ∀ x, Event.subject ev = some x → ¬ (c'.own m).defs x

end Vermin.Spec
