import Verif.Model.Py
/- The insertion sort standing for Python's `sort`, and the order of strings. -/
namespace Vermin.Py

section
variable {α : Type} {le : α → α → Bool}

theorem insertSorted_perm (x : α) (l : List α) : (insertSorted le x l).Perm (x :: l) := by
  induction l with
  | nil => exact List.Perm.refl _
  | cons y ys ih =>
    rw [insertSorted]
    split
    · exact List.Perm.refl _
    · exact (List.Perm.cons y ih).trans (List.Perm.swap x y ys)

theorem sort_perm (l : List α) : (sort le l).Perm l := by
  induction l with
  | nil => exact List.Perm.refl _
  | cons x xs ih => exact (insertSorted_perm x _).trans (List.Perm.cons x ih)

theorem mem_sort {x : α} {l : List α} : x ∈ sort le l ↔ x ∈ l := (sort_perm l).mem_iff

theorem length_sort (l : List α) : (sort le l).length = l.length := (sort_perm l).length_eq

/-- The relation is total and transitive. -/
structure IsPreord (le : α → α → Bool) : Prop where
  total : ∀ a b, le a b = true ∨ le b a = true
  trans : ∀ a b c, le a b = true → le b c = true → le a c = true

theorem insertSorted_sorted (h : IsPreord le) (x : α) {l : List α} (hl : l.Pairwise fun a b => le a b = true) :
    (insertSorted le x l).Pairwise fun a b => le a b = true := by
  induction l with
  | nil => exact List.pairwise_singleton _ _
  | cons y ys ih =>
    rw [List.pairwise_cons] at hl
    rw [insertSorted]
    split
    · rename_i hxy
      refine List.pairwise_cons.mpr ⟨?_, List.pairwise_cons.mpr hl⟩
      intro z hz
      rcases List.mem_cons.mp hz with rfl | hz
      · exact hxy
      · exact h.trans _ _ _ hxy (hl.1 z hz)
    · rename_i hxy
      refine List.pairwise_cons.mpr ⟨?_, ih hl.2⟩
      intro z hz
      rcases List.mem_cons.mp ((insertSorted_perm x ys).mem_iff.mp hz) with rfl | hz
      · exact (h.total _ _).resolve_left hxy
      · exact hl.1 z hz

theorem sort_sorted (h : IsPreord le) (l : List α) : (sort le l).Pairwise fun a b => le a b = true := by
  induction l with
  | nil => exact List.Pairwise.nil
  | cons x xs ih => exact insertSorted_sorted h x ih

/-- Two sorted permutations of each other are equal if the order is antisymmetric on their members. -/
theorem eq_of_sorted_perm {l1 l2 : List α} (hp : l1.Perm l2) (h1 : l1.Pairwise fun a b => le a b = true)
    (h2 : l2.Pairwise fun a b => le a b = true)
    (anti : ∀ a ∈ l1, ∀ b ∈ l1, le a b = true → le b a = true → a = b) : l1 = l2 := by
  induction l1 generalizing l2 with
  | nil => exact (List.nil_perm.mp hp).symm
  | cons x xs ih =>
    cases l2 with
    | nil => exact absurd hp.length_eq (by simp)
    | cons y ys =>
      rw [List.pairwise_cons] at h1 h2
      have hx : x ∈ y :: ys := hp.mem_iff.mp (by simp)
      have hy : y ∈ x :: xs := hp.mem_iff.mpr (by simp)
      have hxy : x = y := by
        rcases List.mem_cons.mp hx with h | hx
        · exact h
        rcases List.mem_cons.mp hy with h | hy'
        · exact h.symm
        exact anti x (by simp) y hy (h1.1 y hy') (h2.1 x hx)
      subst hxy
      rw [ih (List.Perm.cons_inv hp) h1.2 h2.2 fun a ha b hb =>
        anti a (List.mem_cons_of_mem _ ha) b (List.mem_cons_of_mem _ hb)]

theorem sort_eq_of_perm (h : IsPreord le) {l1 l2 : List α} (hp : l1.Perm l2)
    (anti : ∀ a ∈ l1, ∀ b ∈ l1, le a b = true → le b a = true → a = b) : sort le l1 = sort le l2 :=
  eq_of_sorted_perm ((sort_perm l1).trans (hp.trans (sort_perm l2).symm)) (sort_sorted h _) (sort_sorted h _)
    fun a ha b hb => anti a (mem_sort.mp ha) b (mem_sort.mp hb)

theorem insertSorted_of_le {x : α} {l : List α} (h : ∀ y ∈ l, le x y = true) : insertSorted le x l = x :: l := by
  cases l with
  | nil => rfl
  | cons y ys => rw [insertSorted, if_pos (h y (by simp))]

/-- Sorting a sorted list changes nothing. -/
theorem sort_of_sorted {l : List α} (h : l.Pairwise fun a b => le a b = true) : sort le l = l := by
  induction l with
  | nil => rfl
  | cons x xs ih =>
    rw [List.pairwise_cons] at h
    rw [sort, ih h.2, insertSorted_of_le h.1]
end

theorem leChars_total : ∀ a b : List Char, leChars a b = true ∨ leChars b a = true
  | [], b => Or.inl (by simp [leChars])
  | _ :: _, [] => Or.inr (by simp [leChars])
  | a :: as, b :: bs => by
    simp only [leChars]
    by_cases h1 : a.toNat < b.toNat
    · simp [h1]
    · by_cases h2 : b.toNat < a.toNat
      · simp [h2]
      · simp only [h1, h2, if_false]; exact leChars_total as bs

theorem leChars_trans : ∀ a b c : List Char, leChars a b = true → leChars b c = true → leChars a c = true
  | [], _, _, _, _ => by simp [leChars]
  | _ :: _, [], _, h, _ => by simp [leChars] at h
  | _ :: _, _ :: _, [], _, h => by simp [leChars] at h
  | a :: as, b :: bs, c :: cs, h1, h2 => by
    simp only [leChars] at *
    by_cases hab : a.toNat < b.toNat
    · by_cases hbc : b.toNat < c.toNat
      · have : a.toNat < c.toNat := by omega
        simp [this]
      · by_cases hcb : c.toNat < b.toNat
        · simp [hbc, hcb] at h2
        · have : a.toNat < c.toNat := by omega
          simp [this]
    · by_cases hba : b.toNat < a.toNat
      · simp [hab, hba] at h1
      · simp only [hab, hba, if_false] at h1
        by_cases hbc : b.toNat < c.toNat
        · have : a.toNat < c.toNat := by omega
          simp [this]
        · by_cases hcb : c.toNat < b.toNat
          · simp [hbc, hcb] at h2
          · simp only [hbc, hcb, if_false] at h2
            have e1 : ¬ a.toNat < c.toNat := by omega
            have e2 : ¬ c.toNat < a.toNat := by omega
            simp only [e1, e2, if_false]
            exact leChars_trans as bs cs h1 h2

theorem char_toNat_inj {a b : Char} (h : a.toNat = b.toNat) : a = b := by
  apply Char.ext; apply UInt32.toNat_inj.mp; exact h

theorem leChars_antisymm : ∀ a b : List Char, leChars a b = true → leChars b a = true → a = b
  | [], [], _, _ => rfl
  | [], _ :: _, _, h => by simp [leChars] at h
  | _ :: _, [], h, _ => by simp [leChars] at h
  | a :: as, b :: bs, h1, h2 => by
    simp only [leChars] at *
    by_cases hab : a.toNat < b.toNat
    · have : ¬ b.toNat < a.toNat := by omega
      simp [hab, this] at h2
    · by_cases hba : b.toNat < a.toNat
      · simp [hab, hba] at h1
      · simp only [hab, hba, if_false] at h1 h2
        rw [leChars_antisymm as bs h1 h2, char_toNat_inj (a := a) (b := b) (by omega)]

theorem leStr_preord : IsPreord leStr :=
  ⟨fun _ _ => leChars_total _ _, fun _ _ _ => leChars_trans _ _ _⟩

theorem leStr_antisymm {a b : String} (h1 : leStr a b = true) (h2 : leStr b a = true) : a = b :=
  String.toList_inj.mp (leChars_antisymm _ _ h1 h2)

end Vermin.Py
