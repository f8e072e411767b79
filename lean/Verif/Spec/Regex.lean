import Verif.Model.Regex
/-
What a regular expression matches, without order of preference.
-/
namespace Vermin.Spec
open Vermin

/-- `r` takes from one position to another. -/
inductive Takes : Re → RePos → RePos → Prop
  | empty {p : RePos} : Takes .empty p p
  | one {c : ReClass} {prev : Option Char} {x : Char} {xs : List Char} {g : List (Nat × List Char)} : c.has x = true → Takes (.one c) ⟨prev, x :: xs, g⟩ ⟨some x, xs, g⟩
  | seq {a b : Re} {p q r : RePos} : Takes a p q → Takes b q r → Takes (.seq a b) p r
  | group {n : Nat} {a : Re} {p q : RePos} {text : List Char} : Takes a p q → p.rest = text ++ q.rest → Takes (.group n a) p { q with groups := (n, text) :: q.groups }
  | optNone {a : Re} {p : RePos} : Takes (.opt a) p p
  | optSome {a : Re} {p q : RePos} : Takes a p q → Takes (.opt a) p q
  | starEnd {g : Bool} {a : Re} {p : RePos} : Takes (.star g a) p p
  | starMore {g : Bool} {a : Re} {p q r : RePos} : Takes a p q → Takes (.star g a) q r → Takes (.star g a) p r
  | notBehind {c : ReClass} {p : RePos} : (∀ x, p.prev = some x → c.has x = false) → Takes (.notBehind c) p p
  | notAhead {c : ReClass} {p : RePos} : (∀ x xs, p.rest = x :: xs → c.has x = false) → Takes (.notAhead c) p p

/-- It takes at least one character. -/
inductive Eats : Re → Prop
  | one {c : ReClass} : Eats (.one c)
  | seqLeft {a b : Re} : Eats a → Eats (.seq a b)
  | seqRight {a b : Re} : Eats b → Eats (.seq a b)
  | group {n : Nat} {a : Re} : Eats a → Eats (.group n a)

/-- What is repeated takes at least one character. -/
inductive Proper : Re → Prop
  | empty : Proper .empty
  | one {c : ReClass} : Proper (.one c)
  | seq {a b : Re} : Proper a → Proper b → Proper (.seq a b)
  | group {n : Nat} {a : Re} : Proper a → Proper (.group n a)
  | opt {a : Re} : Proper a → Proper (.opt a)
  | star {g : Bool} {a : Re} : Eats a → Proper a → Proper (.star g a)
  | notBehind {c : ReClass} : Proper (.notBehind c)
  | notAhead {c : ReClass} : Proper (.notAhead c)

end Vermin.Spec
