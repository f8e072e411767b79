import Verif.Model.Py
/- Lemmas about dictionaries. -/
namespace Vermin.Py.Dict
variable {α β : Type} [DecidableEq α]

theorem get?_nil (k : α) : get? ([] : Dict α β) k = none := rfl

theorem get?_cons (e : α × β) (d : Dict α β) (k : α) :
    get? (e :: d) k = if e.1 = k then some e.2 else get? d k := by
  unfold get?; by_cases h : e.1 = k <;> simp [h]

theorem get?_filter_ne (d : Dict α β) {k j : α} (h : j ≠ k) :
    get? (d.filter fun e => !decide (e.1 = k)) j = get? d j := by
  induction d with
  | nil => rfl
  | cons e d ih =>
    by_cases he : e.1 = k
    · have : ¬ e.1 = j := fun h' => h (by rw [← h', he])
      rw [get?_cons, if_neg this, List.filter_cons]; simp [he, ih]
    · rw [List.filter_cons]; simp only [he, decide_false, Bool.not_false, if_true]
      rw [get?_cons, get?_cons, ih]

theorem get?_set (d : Dict α β) (k : α) (v : β) (j : α) :
    get? (set d k v) j = if k = j then some v else get? d j := by
  unfold set; rw [get?_cons]
  by_cases h : k = j
  · simp [h]
  · simp only [h, if_false]; exact get?_filter_ne d (Ne.symm h)

theorem get?_set_self (d : Dict α β) (k : α) (v : β) : get? (set d k v) k = some v := by
  rw [get?_set]; simp
theorem get?_set_ne (d : Dict α β) {k j : α} (v : β) (h : j ≠ k) : get? (set d k v) j = get? d j := by
  rw [get?_set, if_neg (Ne.symm h)]

theorem has_set (d : Dict α β) (k j : α) (v : β) : has (set d k v) j = (decide (k = j) || has d j) := by
  unfold has; rw [get?_set]; by_cases h : k = j <;> simp [h]

theorem mem_keys_iff (d : Dict α β) (k : α) : k ∈ d.map (·.1) ↔ (get? d k).isSome := by
  induction d with
  | nil => simp [get?_nil]
  | cons e d ih =>
    rw [get?_cons, List.map_cons, List.mem_cons, ih]
    by_cases h : e.1 = k
    · simp [h]
    · have : ¬ k = e.1 := fun h' => h h'.symm
      simp [h, this]

theorem mem_of_get? {d : Dict α β} {k : α} {v : β} (h : get? d k = some v) : (k, v) ∈ d := by
  induction d with
  | nil => cases h
  | cons e d ih =>
    rw [get?_cons] at h
    split at h
    · rename_i hk; injection h with h; subst h; subst hk; exact List.mem_cons_self
    · exact List.mem_cons_of_mem _ (ih h)

end Vermin.Py.Dict
