import Verif.Spec.Walks
/-
The levels of the model are what the queue gives.
-/
namespace Vermin
open Spec

variable {stop : Node → Bool}

theorem mergeLevels_nil {α : Type} (xs : List (List α)) : mergeLevels xs [] = xs := by cases xs <;> rfl
theorem mergeLevels_assoc {α : Type} : ∀ xs ys zs : List (List α), mergeLevels (mergeLevels xs ys) zs = mergeLevels xs (mergeLevels ys zs)
  | [], _, _ => rfl
  | _ :: _, [], _ => rfl
  | _ :: _, _ :: _, [] => rfl
  | x :: xs, y :: ys, z :: zs => by simp only [mergeLevels, mergeLevels_assoc xs ys zs, List.append_assoc]

theorem levelsList_append : ∀ xs ys : List Node, levelsList stop (xs ++ ys) = mergeLevels (levelsList stop xs) (levelsList stop ys)
  | [], ys => rfl
  | x :: xs, ys => by rw [List.cons_append, levelsList, levelsList, levelsList_append xs ys, mergeLevels_assoc]

theorem levels_kids (n : Node) : levels stop n = if stop n then [] else [n] :: levelsList stop n.kids := by cases n; rw [levels]; rfl

/-- One level and what is below it -/
theorem levelsList_flatten : ∀ xs : List Node,
    (levelsList stop xs).flatten = xs.filter (!stop ·) ++ (levelsList stop ((xs.filter (!stop ·)).flatMap Node.kids)).flatten
  | xs => by
    have h : levelsList stop xs = [] ∧ xs.filter (!stop ·) = [] ∨
        levelsList stop xs = xs.filter (!stop ·) :: levelsList stop ((xs.filter (!stop ·)).flatMap Node.kids) := by
      induction xs with
      | nil => exact .inl ⟨rfl, rfl⟩
      | cons x xs ih =>
        rw [levelsList, levels_kids]
        cases hs : stop x with
        | true =>
          simp only [if_true, List.filter_cons, hs, Bool.not_true, Bool.false_eq_true, if_false]
          exact ih
        | false =>
          simp only [Bool.false_eq_true, if_false, List.filter_cons, hs, Bool.not_false, if_true, List.flatMap_cons]
          rcases ih with ⟨h1, h2⟩ | h
          · rw [h1, h2]; exact .inr (by simp [mergeLevels])
          · rw [h, levelsList_append]; exact .inr rfl
    rcases h with ⟨h1, h2⟩ | h
    · rw [h1, h2]; rfl
    · rw [h]; rfl

mutual
/-- The number of nodes -/
def nodeCount : Node → Nat
  | .mk _ ks => nodeCounts ks + 1
def nodeCounts : List Node → Nat
  | [] => 0
  | k :: ks => nodeCount k + nodeCounts ks
end
theorem nodeCounts_append : ∀ xs ys : List Node, nodeCounts (xs ++ ys) = nodeCounts xs + nodeCounts ys
  | [], ys => by simp [nodeCounts]
  | x :: xs, ys => by simp only [List.cons_append, nodeCounts, nodeCounts_append xs ys, Nat.add_assoc]
theorem nodeCount_kids (n : Node) : nodeCount n = nodeCounts n.kids + 1 := by cases n; rw [nodeCount]; rfl

/-- The rest of a level and what is in the queue of the next one -/
theorem queue_levels : ∀ (k : Nat) (a b : List Node), nodeCounts (a ++ b) ≤ k →
    Queue (stop · = true) (a ++ b) (a.filter (!stop ·) ++ (levelsList stop (b ++ (a.filter (!stop ·)).flatMap Node.kids)).flatten)
  | k, n :: a, b, h => by
    have hn := nodeCount_kids n
    rw [List.cons_append, nodeCounts] at h
    cases k with
    | zero => omega
    | succ k =>
      cases hs : stop n with
      | true =>
        simp only [List.filter_cons, hs, Bool.not_true, Bool.false_eq_true, if_false]
        exact .drop hs (queue_levels k a b (by omega))
      | false =>
        simp only [List.filter_cons, hs, Bool.not_false, if_true, List.flatMap_cons, List.cons_append]
        refine .take (by simp [hs]) ?_
        have := queue_levels k a (b ++ n.kids) (by rw [← List.append_assoc, nodeCounts_append]; omega)
        simpa only [List.append_assoc] using this
  | k, [], n :: b, h => by
    have hn := nodeCount_kids n
    rw [List.nil_append, nodeCounts] at h
    have e : ([] : List Node).filter (!stop ·) ++ (levelsList stop ((n :: b) ++ (([] : List Node).filter (!stop ·)).flatMap Node.kids)).flatten =
        (n :: b).filter (!stop ·) ++ (levelsList stop ([] ++ ((n :: b).filter (!stop ·)).flatMap Node.kids)).flatten := by
      simp only [List.filter_nil, List.flatMap_nil, List.append_nil, List.nil_append]
      exact levelsList_flatten _
    rw [e]
    cases k with
    | zero => omega
    | succ k =>
      cases hs : stop n with
      | true =>
        simp only [List.filter_cons, hs, Bool.not_true, Bool.false_eq_true, if_false]
        have := queue_levels k b [] (by rw [List.append_nil]; omega)
        rw [List.append_nil] at this
        exact .drop hs this
      | false =>
        simp only [List.filter_cons, hs, Bool.not_false, if_true, List.flatMap_cons, List.cons_append]
        refine .take (by simp [hs]) ?_
        have := queue_levels k b n.kids (by rw [nodeCounts_append]; omega)
        simpa only [List.append_assoc, List.nil_append] using this
  | _, [], [], _ => .done

/-- A queue gives one result. -/
theorem Spec.Queue.unique {p : Node → Prop} {q a b : List Node} (ha : Queue p q a) (hb : Queue p q b) : a = b := by
  induction ha generalizing b with
  | done => cases hb; rfl
  | drop h _ ih =>
    cases hb with
    | drop _ hb => exact ih hb
    | take h' _ => exact absurd h h'
  | take h _ ih =>
    cases hb with
    | drop h' _ => exact absurd h' h
    | take _ hb => rw [ih hb]

theorem levels_queue (n : Node) : Queue (stop · = true) [n] (levels stop n).flatten := by
  have := queue_levels (stop := stop) (nodeCounts ([] ++ [n])) [] [n] (Nat.le_refl _)
  simpa [levelsList, mergeLevels_nil] using this

theorem queue_imp {p q : Node → Prop} (h : ∀ n, p n ↔ q n) {a out : List Node} (ha : Queue p a out) : Queue q a out := by
  induction ha with
  | done => exact .done
  | drop h1 _ ih => exact .drop ((h _).mp h1) ih
  | take h1 _ ih => exact .take (fun h2 => h1 ((h _).mpr h2)) ih

end Vermin
