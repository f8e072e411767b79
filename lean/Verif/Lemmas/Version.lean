import Verif.Spec.Version
/- Order lemmas for versions and the algebra of `combineVersions`. -/
namespace Vermin
open Py

namespace Ver
theorem le_def (a b : Ver) : a ≤ b ↔ a.major < b.major ∨ (a.major = b.major ∧ a.minor ≤ b.minor) := Iff.rfl
theorem lt_def (a b : Ver) : a < b ↔ a.major < b.major ∨ (a.major = b.major ∧ a.minor < b.minor) := Iff.rfl
theorem ext' {a b : Ver} (h1 : a.major = b.major) (h2 : a.minor = b.minor) : a = b := by
  cases a; cases b; simp_all
theorem le_refl (a : Ver) : a ≤ a := by simp [le_def]
theorem le_trans {a b c : Ver} (h1 : a ≤ b) (h2 : b ≤ c) : a ≤ c := by
  simp only [le_def] at *; omega
theorem le_antisymm {a b : Ver} (h1 : a ≤ b) (h2 : b ≤ a) : a = b := by
  simp only [le_def] at *; exact ext' (by omega) (by omega)
theorem le_total (a b : Ver) : a ≤ b ∨ b ≤ a := by
  simp only [le_def]; omega
theorem not_lt {a b : Ver} : ¬ a < b ↔ b ≤ a := by simp only [le_def, lt_def]; omega
theorem not_le {a b : Ver} : ¬ a ≤ b ↔ b < a := by simp only [le_def, lt_def]; omega
theorem lt_irrefl (a : Ver) : ¬ a < a := by simp only [lt_def]; omega
theorem le_of_lt {a b : Ver} (h : a < b) : a ≤ b := by simp only [le_def, lt_def] at *; omega
theorem lt_of_le_of_ne {a b : Ver} (h : a ≤ b) (hne : a ≠ b) : a < b := by
  rcases Decidable.em (a < b) with h' | h'
  · exact h'
  · exact absurd (le_antisymm h (not_lt.mp h')) hne
theorem lt_trans {a b c : Ver} (h1 : a < b) (h2 : b < c) : a < c := by
  simp only [lt_def] at *; omega
theorem zero_le (a : Ver) : zero ≤ a := by simp only [le_def, zero]; omega
theorem max_le_iff {a b c : Ver} : Ver.max a b ≤ c ↔ a ≤ c ∧ b ≤ c := by
  unfold Ver.max; split
  · rename_i h; exact ⟨fun h' => ⟨le_trans (le_of_lt h) h', h'⟩, fun h' => h'.2⟩
  · rename_i h; exact ⟨fun h' => ⟨h', le_trans (not_lt.mp h) h'⟩, fun h' => h'.1⟩
theorem le_max_left (a b : Ver) : a ≤ Ver.max a b := (max_le_iff.mp (le_refl _)).1
theorem le_max_right (a b : Ver) : b ≤ Ver.max a b := (max_le_iff.mp (le_refl _)).2
theorem eq_of_forall_le {a b : Ver} (h : ∀ c, a ≤ c ↔ b ≤ c) : a = b :=
  le_antisymm ((h b).mpr (le_refl b)) ((h a).mp (le_refl a))
theorem max_comm (a b : Ver) : Ver.max a b = Ver.max b a :=
  eq_of_forall_le fun c => by rw [max_le_iff, max_le_iff]; exact And.comm
theorem max_assoc (a b c : Ver) : Ver.max (Ver.max a b) c = Ver.max a (Ver.max b c) :=
  eq_of_forall_le fun d => by simp only [max_le_iff]; exact and_assoc
theorem max_self (a : Ver) : Ver.max a a = a := by unfold Ver.max; split <;> rfl
theorem zero_max (a : Ver) : Ver.max zero a = a :=
  eq_of_forall_le fun c => by
    rw [max_le_iff]; exact ⟨fun h => h.2, fun h => ⟨zero_le c, h⟩⟩
theorem max_zero (a : Ver) : Ver.max a zero = a := by rw [max_comm, zero_max]
end Ver

theorem combineOpt_comm (a b : Option Ver) : combineOpt a b = combineOpt b a := by
  cases a <;> cases b <;> simp [combineOpt, Ver.max_comm]
theorem combineOpt_assoc (a b c : Option Ver) :
    combineOpt (combineOpt a b) c = combineOpt a (combineOpt b c) := by
  cases a <;> cases b <;> cases c <;> simp [combineOpt, Ver.max_assoc]
theorem combineOpt_self (a : Option Ver) : combineOpt a a = a := by
  cases a <;> simp [combineOpt, Ver.max_self]
theorem combineOpt_zero (a : Option Ver) : combineOpt (some Ver.zero) a = a := by
  cases a <;> simp [combineOpt, Ver.zero_max]
theorem combineOpt_eq_none {a b : Option Ver} : combineOpt a b = none ↔ a = none ∨ b = none := by
  cases a <;> cases b <;> simp [combineOpt]

/-- Combination without the incompatibility check. -/
def joinReq (a b : Req) : Req := ⟨combineOpt a.py2 b.py2, combineOpt a.py3 b.py3⟩

theorem joinReq_comm (a b : Req) : joinReq a b = joinReq b a := by
  simp [joinReq, combineOpt_comm]
theorem joinReq_assoc (a b c : Req) : joinReq (joinReq a b) c = joinReq a (joinReq b c) := by
  simp [joinReq, combineOpt_assoc]
theorem joinReq_self (a : Req) : joinReq a a = a := by simp [joinReq, combineOpt_self]
theorem joinReq_unknown (a : Req) : joinReq Req.unknown a = a := by
  simp [joinReq, Req.unknown, combineOpt_zero]
theorem joinReq_unknown' (a : Req) : joinReq a Req.unknown = a := by
  rw [joinReq_comm, joinReq_unknown]

theorem only3_iff (r : Req) : r.only3 = true ↔ Spec.Py3Only r := by
  cases r with | mk a b => cases a <;> cases b <;> simp [Req.only3, Spec.Py3Only]
theorem only2_iff (r : Req) : r.only2 = true ↔ Spec.Py2Only r := by
  cases r with | mk a b => cases a <;> cases b <;> simp [Req.only2, Spec.Py2Only]

theorem conflict_comm (a b : Req) : Spec.Conflict a b ↔ Spec.Conflict b a := by
  simp only [Spec.Conflict]; constructor <;> (rintro (⟨h1, h2⟩ | ⟨h1, h2⟩) <;> simp [h1, h2])

theorem conflictB_iff (a b : Req) :
    ((a.only3 && b.only2) || (a.only2 && b.only3)) = true ↔ Spec.Conflict a b := by
  rw [Bool.or_eq_true, Bool.and_eq_true, Bool.and_eq_true, only3_iff, only2_iff, only2_iff, only3_iff,
    Spec.Conflict]
  exact Or.comm

theorem combineVersions_ok {ign : Bool} {a b r : Req} {refs : Option Refs}
    (h : combineVersions ign a b refs = .ok r) : r = joinReq a b := by
  unfold combineVersions at h
  split at h
  · cases h
  · injection h with h; exact h.symm

theorem combineVersions_error_iff {ign : Bool} {a b : Req} {refs : Option Refs} :
    (∃ e, combineVersions ign a b refs = .error e) ↔ ign = false ∧ Spec.Conflict a b := by
  rw [← conflictB_iff]
  unfold combineVersions
  cases ign
  · simp only [Bool.not_false, Bool.true_and, true_and]
    split <;> simp_all
  · simp

theorem combineVersions_eq_ok {ign : Bool} {a b : Req} {refs : Option Refs}
    (h : ¬ (ign = false ∧ Spec.Conflict a b)) : combineVersions ign a b refs = .ok (joinReq a b) := by
  rcases hc : combineVersions ign a b refs with e | r
  · exact absurd (combineVersions_error_iff.mp ⟨e, hc⟩) h
  · rw [combineVersions_ok hc]

end Vermin
