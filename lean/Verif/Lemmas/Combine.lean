import Verif.Lemmas.Version
/- Folding `combineVersions` over a list of requirements. -/
namespace Vermin
open Py

/-- `mins = combine_versions(mins, r, config)` for each `r` in order, as `minimum_versions`
(source_visitor.py:262-288) and `Processor.process` (processor.py:81-85) do. -/
def combineFrom (ign : Bool) (refs : Option Refs) (acc : Req) (l : List Req) : Except Err Req :=
  l.foldlM (fun acc r => combineVersions ign acc r refs) acc

/-- The same starting with nothing known. -/
def combineAll (ign : Bool) (refs : Option Refs) (l : List Req) : Except Err Req :=
  combineFrom ign refs Req.unknown l

@[simp] theorem combineFrom_nil (ign refs acc) : combineFrom ign refs acc [] = .ok acc := rfl

theorem combineFrom_cons (ign refs acc r l) : combineFrom ign refs acc (r :: l) =
    (combineVersions ign acc r refs).bind fun a => combineFrom ign refs a l := rfl

def joinAll (acc : Req) (l : List Req) : Req := l.foldl joinReq acc

theorem joinAll_perm {l1 l2 : List Req} (h : l1.Perm l2) (acc : Req) : joinAll acc l1 = joinAll acc l2 := by
  unfold joinAll
  induction h generalizing acc with
  | nil => rfl
  | cons x _ ih => exact ih _
  | swap x y l => simp only [List.foldl_cons]; rw [joinReq_assoc, joinReq_comm y, ← joinReq_assoc]
  | trans _ _ ih1 ih2 => rw [ih1, ih2]

theorem combineFrom_ok {ign refs} : ∀ {l acc r}, combineFrom ign refs acc l = .ok r → r = joinAll acc l
  | [], acc, r, h => by injection h with h; exact h.symm
  | a :: l, acc, r, h => by
    rw [combineFrom_cons] at h
    rcases hc : combineVersions ign acc a refs with e | b
    · rw [hc] at h; cases h
    · rw [hc] at h
      rw [combineFrom_ok (l := l) h, combineVersions_ok hc]; rfl

open Spec

theorem joinReq_py2 (a b : Req) : (joinReq a b).py2 = none ↔ a.py2 = none ∨ b.py2 = none := combineOpt_eq_none
theorem joinReq_py3 (a b : Req) : (joinReq a b).py3 = none ↔ a.py3 = none ∨ b.py3 = none := combineOpt_eq_none

theorem py2Only_iff (r : Req) : Py2Only r ↔ r.py2 ≠ none ∧ r.py3 = none := by
  cases r with | mk a b => cases a <;> cases b <;> simp [Py2Only]
theorem py3Only_iff (r : Req) : Py3Only r ↔ r.py2 = none ∧ r.py3 ≠ none := by
  cases r with | mk a b => cases a <;> cases b <;> simp [Py3Only]

/-- With sane requirements the fold fails exactly if the accumulated value and the list contain both
kinds of one-sided requirements. -/
theorem combineFrom_error_iff {ign refs} : ∀ {l acc}, Sane acc → (∀ r ∈ l, Sane r) →
    ((∃ e, combineFrom ign refs acc l = .error e) ↔
      ign = false ∧ (∃ a ∈ acc :: l, Py2Only a) ∧ (∃ b ∈ acc :: l, Py3Only b))
  | [], acc, hs, _ => by
    simp only [combineFrom_nil, reduceCtorEq, exists_false, false_iff, List.mem_singleton,
      exists_eq_left, py2Only_iff, py3Only_iff]
    rintro ⟨_, h1, h2⟩; exact h1.1 h2.1
  | a :: l, acc, hs, hl => by
    rw [combineFrom_cons]
    have ha := hl a List.mem_cons_self
    by_cases hc : ign = false ∧ Conflict acc a
    · obtain ⟨e, he⟩ := (combineVersions_error_iff (refs := refs)).mpr hc
      rw [he]
      refine ⟨fun _ => ⟨hc.1, ?_⟩, fun _ => ⟨e, rfl⟩⟩
      rcases hc.2 with ⟨h1, h2⟩ | ⟨h1, h2⟩
      · exact ⟨⟨acc, by simp, h1⟩, ⟨a, by simp, h2⟩⟩
      · exact ⟨⟨a, by simp, h2⟩, ⟨acc, by simp, h1⟩⟩
    · rw [combineVersions_eq_ok hc]
      by_cases hi : ign = false
      · have hnc : ¬ Conflict acc a := fun h => hc ⟨hi, h⟩
        have hsj : Sane (joinReq acc a) := by
          unfold Sane at *
          simp only [ne_eq, joinReq_py2, joinReq_py3]
          simp only [Conflict, py2Only_iff, py3Only_iff] at hnc
          grind
        show (∃ e, combineFrom ign refs (joinReq acc a) l = .error e) ↔ _
        rw [combineFrom_error_iff hsj (fun r hr => hl r (List.mem_cons_of_mem _ hr))]
        refine and_congr_right fun _ => ?_
        have e2 : Py2Only (joinReq acc a) ↔ Py2Only acc ∨ Py2Only a := by
          simp only [Conflict, py2Only_iff, py3Only_iff] at hnc
          simp only [py2Only_iff, ne_eq, joinReq_py2, joinReq_py3]
          unfold Sane at *; grind
        have e3 : Py3Only (joinReq acc a) ↔ Py3Only acc ∨ Py3Only a := by
          simp only [Conflict, py2Only_iff, py3Only_iff] at hnc
          simp only [py3Only_iff, ne_eq, joinReq_py2, joinReq_py3]
          unfold Sane at *; grind
        simp only [List.mem_cons, or_and_right, exists_or, exists_eq_left, e2, e3, or_assoc]
      · have hi : ign = true := by cases ign <;> simp_all
        subst hi
        simp only [Bool.true_eq_false, false_and, iff_false]
        rintro ⟨e, he⟩
        have : ∀ (l : List Req) acc e, combineFrom true refs acc l ≠ .error e := by
          intro l
          induction l with
          | nil => intro acc e h; cases h
          | cons x xs ih =>
            intro acc e h
            rw [combineFrom_cons, combineVersions_eq_ok (by simp)] at h
            exact ih _ _ h
        exact this _ _ _ he

theorem combineFrom_ignore (refs acc l) : combineFrom true refs acc l = .ok (joinAll acc l) := by
  induction l generalizing acc with
  | nil => rfl
  | cons x xs ih => rw [combineFrom_cons, combineVersions_eq_ok (by simp)]; exact ih _

theorem sane_unknown : Sane Req.unknown := Or.inl (by simp [Req.unknown])

/-- Satisfaction of the join. -/
theorem satisfies_joinReq (v : Ver) (a b : Req) : Satisfies v (joinReq a b) ↔ Satisfies v a ∧ Satisfies v b := by
  have key : ∀ (x y : Option Ver), (∃ m, combineOpt x y = some m ∧ m ≤ v) ↔
      (∃ m, x = some m ∧ m ≤ v) ∧ (∃ m, y = some m ∧ m ≤ v) := by
    intro x y; cases x <;> cases y <;> simp [combineOpt, Ver.max_le_iff]
  unfold Satisfies
  simp only [joinReq, key]
  by_cases h2 : v.major = 2
  · simp [h2]
  · simp [h2]; by_cases h3 : v.major = 3
    · simp [h3]
    · simp [h3]

theorem satisfies_unknown (v : Ver) : Satisfies v Req.unknown ↔ v.major = 2 ∨ v.major = 3 := by
  simp [Satisfies, Req.unknown, Ver.zero_le]

theorem satisfies_joinAll (v : Ver) (l : List Req) (acc : Req) :
    Satisfies v (joinAll acc l) ↔ Satisfies v acc ∧ ∀ r ∈ l, Satisfies v r := by
  induction l generalizing acc with
  | nil => simp [joinAll]
  | cons x xs ih =>
    show Satisfies v (joinAll (joinReq acc x) xs) ↔ _
    rw [ih, satisfies_joinReq]; simp [and_assoc]

end Vermin
