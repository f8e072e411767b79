import Verif.Model.Py
/- Lemmas about texts: decimal printing, splitting and joining. -/
namespace Vermin.Py

theorem append_cons_inj {α : Type} {c : α} : ∀ {a a' x x' : List α}, c ∉ a → c ∉ a' →
    a ++ c :: x = a' ++ c :: x' → a = a' ∧ x = x'
  | [], [], x, x', _, _, h => by simpa using h
  | [], b :: a', x, x', _, h2, h => by
    simp only [List.nil_append, List.cons_append, List.cons.injEq] at h
    exact absurd (by rw [h.1]; exact List.mem_cons_self) h2
  | b :: a, [], x, x', h1, _, h => by
    simp only [List.nil_append, List.cons_append, List.cons.injEq] at h
    exact absurd (by rw [← h.1]; exact List.mem_cons_self) h1
  | b :: a, b' :: a', x, x', h1, h2, h => by
    simp only [List.cons_append, List.cons.injEq] at h
    have := append_cons_inj (fun hh => h1 (List.mem_cons_of_mem _ hh))
      (fun hh => h2 (List.mem_cons_of_mem _ hh)) h.2
    exact ⟨by rw [h.1, this.1], this.2⟩

theorem isDigit_of_mem_strNat {n : Nat} {c : Char} (h : c ∈ strNat n) : isDigit c = true := by
  have := Nat.isDigit_of_mem_toDigits (by decide) (by decide) h
  simp only [Char.isDigit, Bool.and_eq_true, decide_eq_true_eq] at this
  simp only [isDigit, Bool.and_eq_true, decide_eq_true_eq]
  have h1 : (48 : UInt32) ≤ c.val := this.1
  have h2 : c.val ≤ (57 : UInt32) := this.2
  exact ⟨UInt32.le_iff_toNat_le.mp h1, UInt32.le_iff_toNat_le.mp h2⟩

theorem not_mem_strNat {n : Nat} {c : Char} (h : isDigit c = false) : c ∉ strNat n := by
  intro hc; rw [isDigit_of_mem_strNat hc] at h; cases h

theorem strNat_ne_nil (n : Nat) : strNat n ≠ [] := Nat.toDigits_ne_nil

theorem strNat_ofDigits (n : Nat) : Nat.ofDigitChars 10 (strNat n) 0 = n := by
  simp [strNat]

theorem strNat_inj {m n : Nat} (h : strNat m = strNat n) : m = n := by
  rw [← strNat_ofDigits m, ← strNat_ofDigits n, h]

end Vermin.Py
