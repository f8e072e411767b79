import Verif.Model.Regex
/-
Matching of classes and repeated classes.
-/
namespace Vermin
open Py

variable {α : Type}

/-- The position after the longest run of characters. -/
def RePos.skipBy (f : Char → Bool) : List Char → Option Char → List (Nat × List Char) → RePos
  | [], prev, g => ⟨prev, [], g⟩
  | c :: cs, prev, g => if f c then RePos.skipBy f cs (some c) g else ⟨prev, c :: cs, g⟩

def RePos.skip (f : Char → Bool) (p : RePos) : RePos := RePos.skipBy f p.rest p.prev p.groups

theorem RePos.skipBy_rest (f : Char → Bool) : ∀ (s : List Char) (prev : Option Char) (g : List (Nat × List Char)),
    (RePos.skipBy f s prev g).rest = s.dropWhile f ∧ (RePos.skipBy f s prev g).groups = g
  | [], _, _ => ⟨rfl, rfl⟩
  | c :: cs, prev, g => by
    unfold RePos.skipBy
    cases h : f c
    · simp [h]
    · simp [h, RePos.skipBy_rest f cs]

@[simp] theorem RePos.skip_rest (f : Char → Bool) (p : RePos) : (p.skip f).rest = p.rest.dropWhile f := (RePos.skipBy_rest f _ _ _).1

@[simp] theorem RePos.skip_groups (f : Char → Bool) (p : RePos) : (p.skip f).groups = p.groups := (RePos.skipBy_rest f _ _ _).2

theorem take_dropWhile (f : Char → Bool) : ∀ s : List Char, s.take (s.length - (s.dropWhile f).length) = s.takeWhile f
  | [] => rfl
  | c :: cs => by
    cases h : f c
    · simp [h]
    · have hl : (cs.dropWhile f).length ≤ cs.length := (List.dropWhile_sublist _).length_le
      have := take_dropWhile f cs
      simp only [List.dropWhile_cons, List.takeWhile_cons, h, if_true, List.length_cons]
      rw [show cs.length + 1 - (cs.dropWhile f).length = (cs.length - (cs.dropWhile f).length) + 1 by omega, List.take_succ_cons, this]

/-- One character. -/
theorem Re.run_one (c : ReClass) (k : RePos → Option α) (p : RePos) : (Re.one c).run k p = match p.rest with
    | x :: xs => if c.has x then k { p with prev := some x, rest := xs } else none
    | [] => none := rfl

/-- A repeated class takes all it can, if going on is not possible before another of its characters, or possible at the end in any case. -/
theorem repeat_greedy (c : ReClass) (k : RePos → Option α) : ∀ (s : List Char) (prev : Option Char) (g : List (Nat × List Char)),
    (∀ q : RePos, q.groups = g → (∃ x xs, q.rest = x :: xs ∧ c.has x = true) → k q = none ∨ (k (RePos.skipBy c.has s prev g)).isSome) →
    reRepeat true (Re.one c).run s.length k ⟨prev, s, g⟩ = k (RePos.skipBy c.has s prev g)
  | [], _, _, _ => rfl
  | x :: xs, prev, g, h => by
    simp only [List.length_cons, reRepeat, if_true, Re.run_one]
    unfold RePos.skipBy
    by_cases hx : c.has x = true
    · rw [if_pos hx, if_pos hx]
      have ih := repeat_greedy c k xs (some x) g (by
        intro q hq he
        have := h q hq he
        unfold RePos.skipBy at this
        rwa [if_pos hx] at this)
      rw [ih]
      have := h ⟨prev, x :: xs, g⟩ rfl ⟨x, xs, rfl, hx⟩
      unfold RePos.skipBy at this
      rw [if_pos hx] at this
      rcases this with h | h
      · rw [h, Option.or_none]
      · obtain ⟨y, e⟩ := Option.isSome_iff_exists.1 h
        rw [e]; rfl
    · rw [if_neg hx, if_neg hx]; rfl

theorem Re.run_star (c : ReClass) (k : RePos → Option α) (p : RePos)
    (h : ∀ q : RePos, q.groups = p.groups → (∃ x xs, q.rest = x :: xs ∧ c.has x = true) → k q = none ∨ (k (p.skip c.has)).isSome) :
    (Re.star true (.one c)).run k p = k (p.skip c.has) := repeat_greedy c k p.rest p.prev p.groups h

/-- `c+` -/
theorem Re.run_plus (c : ReClass) (k : RePos → Option α) (p : RePos)
    (h : ∀ q : RePos, q.groups = p.groups → (∃ x xs, q.rest = x :: xs ∧ c.has x = true) → k q = none ∨ (k (p.skip c.has)).isSome) :
    (Re.plus true (.one c)).run k p = if p.rest.head?.any c.has then k (p.skip c.has) else none := by
  rw [show (Re.plus true (.one c)).run k p = (Re.one c).run ((Re.star true (.one c)).run k) p from rfl, Re.run_one]
  match e : p.rest with
  | [] => rfl
  | x :: xs =>
    have e2 : (List.head? (x :: xs)).any c.has = c.has x := rfl
    dsimp only
    by_cases hx : c.has x = true
    · rw [if_pos hx, if_pos (e2.trans hx)]
      have es : p.skip c.has = RePos.skipBy c.has xs (some x) p.groups := by
        unfold RePos.skip
        rw [e]
        unfold RePos.skipBy
        rw [if_pos hx]
        cases xs <;> rfl
      rw [es] at h ⊢
      exact repeat_greedy c k xs (some x) p.groups h
    · rw [if_neg hx, if_neg (by rw [e2]; exact hx)]

/-- A lazily repeated class. -/
theorem Re.run_lazy (c : ReClass) (k : RePos → Option α) (p : RePos) : (Re.star false (.one c)).run k p =
    match p.rest with
    | x :: xs => (k p).or (if c.has x then (Re.star false (.one c)).run k { p with prev := some x, rest := xs } else none)
    | [] => k p := by
  obtain ⟨prev, s, g⟩ := p
  match s with
  | [] => rfl
  | x :: xs => rfl

theorem repeat_map {β : Type} (f : α → β) {greedy : Bool} {r : Re} (hr : ∀ (k : RePos → Option α) p, (r.run k p).map f = r.run (fun q => (k q).map f) p) :
    ∀ (n : Nat) (k : RePos → Option α) (p : RePos), (reRepeat greedy r.run n k p).map f = reRepeat greedy r.run n (fun q => (k q).map f) p
  | 0, _, _ => rfl
  | n + 1, k, p => by
    have ih : (fun q => (reRepeat greedy r.run n k q).map f) = reRepeat greedy r.run n (fun q => (k q).map f) := funext fun q => repeat_map f hr n k q
    simp only [reRepeat]
    cases greedy
    · simp only [Bool.false_eq_true, if_false, Option.map_or, hr, ih]
    · simp only [if_true, Option.map_or, hr, ih]

/-- What is made of the match in the end can be made of it at once. -/
theorem Re.run_map {β : Type} (f : α → β) : ∀ (r : Re) (k : RePos → Option α) (p : RePos), (r.run k p).map f = r.run (fun q => (k q).map f) p
  | .empty, _, _ => rfl
  | .one c, k, p => by
    simp only [Re.run]
    split
    · split <;> rfl
    · rfl
  | .seq a b, k, p => by
    simp only [Re.run]
    rw [Re.run_map f a]
    congr 1
    exact funext fun q => Re.run_map f b k q
  | .group n a, k, p => by simp only [Re.run]; rw [Re.run_map f a]
  | .opt a, k, p => by simp only [Re.run]; rw [Option.map_or, Re.run_map f a]
  | .star g a, k, p => by simp only [Re.run]; exact repeat_map f (Re.run_map f a) _ k p
  | .notBehind c, k, p => by simp only [Re.run]; split <;> rfl
  | .notAhead c, k, p => by simp only [Re.run]; split <;> rfl

/-- The whole of what is left of the line. -/
theorem any_has (c : Char) : ReClass.any.has c = (c != '\n') := rfl

theorem of_has (l : List ReItem) (c : Char) : (ReClass.of l).has c = l.any (·.has c) := rfl

end Vermin
