import Verif.Spec.Text
import Verif.Lemmas.Chars
import Verif.Lemmas.Text
/- `Py.int` recognises exactly the number texts; splitting and joining. -/
namespace Vermin.Py
open Vermin.Spec

theorem isDigit_not_space {c : Char} (h : isDigit c = true) : isSpace c = false := by
  simp only [isDigit, Bool.and_eq_true, decide_eq_true_eq] at h
  simp only [isSpace, Bool.or_eq_false_iff, Bool.and_eq_false_iff, decide_eq_false_iff_not,
    beq_eq_false_iff_ne, ne_eq]
  omega

theorem digitText_of {s : List Char} (h : digitsUnderscore s = true) :
    ∃ blocks : List (List Char), blocks ≠ [] ∧ (∀ b ∈ blocks, b ≠ [] ∧ ∀ c ∈ b, isDigit c = true) ∧
    s = join ['_'] blocks ∧ s.filter isDigit = blocks.flatten := by
  fun_induction digitsUnderscore s with
  | case1 => cases h
  | case2 c => exact ⟨[[c]], by simp, by simpa using h, rfl, by simp [h]⟩
  | case3 c cs ih =>
    simp only [Bool.and_eq_true] at h
    obtain ⟨bs, h1, h2, h3, h4⟩ := ih h.2
    refine ⟨[c] :: bs, by simp, ?_, ?_, ?_⟩
    · intro b hb
      rcases List.mem_cons.mp hb with hb | hb
      · subst hb; simp [h.1]
      · exact h2 b hb
    · cases bs with
      | nil => exact absurd rfl h1
      | cons b bs => simp [join, h3]
    · have : isDigit '_' = false := by decide
      simp [h.1, this, h4]
  | case4 c cs hne1 hne2 ih =>
    simp only [Bool.and_eq_true] at h
    obtain ⟨bs, h1, h2, h3, h4⟩ := ih h.2
    cases bs with
    | nil => exact absurd rfl h1
    | cons b bs =>
      refine ⟨(c :: b) :: bs, by simp, ?_, ?_, ?_⟩
      · intro x hx
        rcases List.mem_cons.mp hx with hx | hx
        · subst hx
          refine ⟨by simp, ?_⟩
          intro y hy
          rcases List.mem_cons.mp hy with hy | hy
          · rw [hy]; exact h.1
          · exact (h2 b (by simp)).2 y hy
        · exact h2 x (List.mem_cons_of_mem _ hx)
      · cases bs <;> simp [join, h3]
      · simp [h.1, h4]

theorem digitsUnderscore_cons {c : Char} {s : List Char} (hc : isDigit c = true)
    (hs : digitsUnderscore s = true) : digitsUnderscore (c :: s) = true := by
  cases s with
  | nil => cases hs
  | cons d ds =>
    by_cases hd : d = '_'
    · subst hd
      cases ds with
      | nil => exact absurd hs (by decide)
      | cons e es =>
        have : isDigit '_' = false := by decide
        unfold digitsUnderscore at hs
        split at hs
        · rename_i h; cases h
        · rename_i h; cases h
        · rename_i h; simp at h; rw [← h.1, this] at hs; simp at hs
        · rename_i h; simp at h; rw [← h.1, this] at hs; simp at hs
    · unfold digitsUnderscore
      split
      · rename_i h; cases h
      · rename_i h; cases h
      · rename_i h; simp at h; exact absurd h.2.1 hd
      · rename_i h; simp at h; obtain ⟨rfl, rfl⟩ := h; simp [hc, hs]

theorem digitsUnderscore_under {c : Char} {s : List Char} (hc : isDigit c = true)
    (hs : digitsUnderscore s = true) : digitsUnderscore (c :: '_' :: s) = true := by
  simp [digitsUnderscore, hc, hs]

theorem of_digitText : ∀ {blocks : List (List Char)}, blocks ≠ [] →
    (∀ b ∈ blocks, b ≠ [] ∧ ∀ c ∈ b, isDigit c = true) →
    digitsUnderscore (join ['_'] blocks) = true ∧ (join ['_'] blocks).filter isDigit = blocks.flatten
  | [], h, _ => absurd rfl h
  | [[]], _, h => absurd rfl (h [] (by simp)).1
  | [c :: b], _, h => by
    have hb := (h (c :: b) (by simp)).2
    have h1 : ∀ (l : List Char), (∀ x ∈ l, isDigit x = true) → l ≠ [] → digitsUnderscore l = true := by
      intro l
      induction l with
      | nil => intro _ h; exact absurd rfl h
      | cons x xs ih =>
        intro hx _
        cases xs with
        | nil => simpa [digitsUnderscore] using hx x (by simp)
        | cons y ys =>
          exact digitsUnderscore_cons (hx x (by simp)) (ih (fun z hz => hx z (List.mem_cons_of_mem _ hz)) (by simp))
    refine ⟨h1 _ hb (by simp [join]), ?_⟩
    simp only [join, List.flatten_cons, List.flatten_nil, List.append_nil]
    exact List.filter_eq_self.mpr hb
  | b :: b' :: bs, _, h => by
    have ih := of_digitText (blocks := b' :: bs) (by simp) (fun x hx => h x (List.mem_cons_of_mem _ hx))
    have hb := h b (by simp)
    have key : ∀ (l : List Char), (∀ x ∈ l, isDigit x = true) → l ≠ [] →
        digitsUnderscore (l ++ '_' :: join ['_'] (b' :: bs)) = true := by
      intro l
      induction l with
      | nil => intro _ h; exact absurd rfl h
      | cons x xs ihx =>
        intro hx _
        cases xs with
        | nil => exact digitsUnderscore_under (hx x (by simp)) ih.1
        | cons y ys =>
          exact digitsUnderscore_cons (hx x (by simp)) (ihx (fun z hz => hx z (List.mem_cons_of_mem _ hz)) (by simp))
    have hu : isDigit '_' = false := by decide
    refine ⟨?_, ?_⟩
    · simp only [join, List.append_assoc, List.singleton_append]
      exact key b hb.2 hb.1
    · simp only [join, List.append_assoc, List.singleton_append, List.filter_append, List.filter_cons, hu,
        List.flatten_cons]
      rw [List.filter_eq_self.mpr hb.2]
      simp [ih.2]

theorem natLit_iff {s : List Char} {n : Nat} : natLit s = some n ↔ DigitText s n := by
  unfold natLit
  constructor
  · intro h
    split at h
    · rename_i hd
      obtain ⟨bs, h1, h2, h3, h4⟩ := digitText_of hd
      injection h with h
      exact ⟨bs, h1, by simpa only [← digit_iff] using h2, h3, by rw [← h, h4]⟩
    · cases h
  · rintro ⟨bs, h1, h2, rfl, rfl⟩
    have := of_digitText h1 (by simpa only [← digit_iff] using h2)
    rw [if_pos this.1, this.2]

theorem dropWhile_append_of_all {α : Type} {p : α → Bool} {l m : List α} (h : ∀ c ∈ l, p c = true) :
    (l ++ m).dropWhile p = m.dropWhile p := by
  induction l with
  | nil => rfl
  | cons x xs ih =>
    simp only [List.cons_append, List.dropWhile_cons, h x (by simp), if_true]
    exact ih fun c hc => h c (List.mem_cons_of_mem _ hc)

theorem dropWhile_of_head {α : Type} {p : α → Bool} {x : α} {l : List α} (h : p x = false) :
    (x :: l).dropWhile p = x :: l := by simp [h]

theorem strip_eq {l r body : List Char} (hl : ∀ c ∈ l, isSpace c = true) (hr : ∀ c ∈ r, isSpace c = true)
    {x y : Char} (hx : body.head? = some x) (hy : body.getLast? = some y) (hxs : isSpace x = false)
    (hys : isSpace y = false) : strip (l ++ body ++ r) = body := by
  unfold strip lstrip rstrip
  rw [List.append_assoc, dropWhile_append_of_all hl]
  have : (body ++ r).dropWhile isSpace = body ++ r := by
    cases body with
    | nil => cases hx
    | cons a as => simp at hx; subst hx; rw [List.cons_append, dropWhile_of_head hxs]
  rw [this, List.reverse_append, dropWhile_append_of_all (by simpa using hr)]
  have : body.reverse.dropWhile isSpace = body.reverse := by
    cases hb : body.reverse with
    | nil => rfl
    | cons a as =>
      have : body.getLast? = some a := by rw [← List.head?_reverse, hb]; rfl
      rw [hy] at this; injection this with this; subst this
      exact dropWhile_of_head hys
  rw [this, List.reverse_reverse]

theorem strip_decomp (s : List Char) : ∃ l r, s = l ++ strip s ++ r ∧ (∀ c ∈ l, isSpace c = true) ∧
    (∀ c ∈ r, isSpace c = true) := by
  refine ⟨s.takeWhile isSpace, ((lstrip s).reverse.takeWhile isSpace).reverse, ?_, ?_, ?_⟩
  · unfold strip rstrip
    rw [List.append_assoc, ← List.reverse_append, List.takeWhile_append_dropWhile, List.reverse_reverse]
    exact (List.takeWhile_append_dropWhile).symm
  · intro c hc; exact List.all_eq_true.mp List.all_takeWhile c hc
  · intro c hc; exact List.all_eq_true.mp List.all_takeWhile c (List.mem_reverse.mp hc)

theorem DigitText.ends {s : List Char} {n : Nat} (h : DigitText s n) :
    ∃ x y, s.head? = some x ∧ s.getLast? = some y ∧ isDigit x = true ∧ isDigit y = true := by
  have : digitsUnderscore s = true := by
    rw [← natLit_iff] at h; unfold natLit at h; split at h
    · assumption
    · cases h
  clear h
  fun_induction digitsUnderscore s with
  | case1 => cases this
  | case2 c => exact ⟨c, c, rfl, rfl, this, this⟩
  | case3 c cs ih =>
    simp only [Bool.and_eq_true] at this
    obtain ⟨x, y, h1, h2, h3, h4⟩ := ih this.2
    refine ⟨c, y, rfl, ?_, this.1, h4⟩
    cases cs with
    | nil => cases h1
    | cons => simpa [List.getLast?_cons_cons] using h2
  | case4 c cs hne1 hne2 ih =>
    simp only [Bool.and_eq_true] at this
    obtain ⟨x, y, h1, h2, h3, h4⟩ := ih this.2
    refine ⟨c, y, rfl, ?_, this.1, h4⟩
    cases cs with
    | nil => cases h1
    | cons => simpa [List.getLast?_cons_cons] using h2

/-- `int()` reads exactly the number texts. -/
theorem int_iff {s : List Char} {n : Int} : int s = some n ↔ IntText s n := by
  constructor
  · intro h
    obtain ⟨l, r, hs, hl, hr⟩ := strip_decomp s
    refine ⟨l, strip s, r, hs, fun c hc => (space_iff c).mp (hl c hc), fun c hc => (space_iff c).mp (hr c hc), ?_⟩
    unfold int at h
    split at h
    · rename_i cs heq
      rw [heq]
      simp only [Option.map_eq_some_iff] at h
      obtain ⟨m, hm, rfl⟩ := h
      exact .inr (.inr ⟨cs, m, rfl, natLit_iff.mp hm, rfl⟩)
    · rename_i cs heq
      rw [heq]
      simp only [Option.map_eq_some_iff] at h
      obtain ⟨m, hm, rfl⟩ := h
      exact .inr (.inl ⟨cs, m, rfl, natLit_iff.mp hm, rfl⟩)
    · simp only [Option.map_eq_some_iff] at h
      obtain ⟨m, hm, rfl⟩ := h
      exact .inl ⟨m, natLit_iff.mp hm, rfl⟩
  · rintro ⟨l, body, r, rfl, hl, hr, hb⟩
    simp only [← space_iff] at hl hr
    unfold int
    rcases hb with ⟨m, hm, rfl⟩ | ⟨b, m, rfl, hm, rfl⟩ | ⟨b, m, rfl, hm, rfl⟩
    · obtain ⟨x, y, hx, hy, hdx, hdy⟩ := DigitText.ends hm
      rw [strip_eq hl hr hx hy (isDigit_not_space hdx) (isDigit_not_space hdy)]
      have hn := natLit_iff.mpr hm
      split
      · rw [List.head?_cons] at hx; injection hx with hx; subst hx; exact absurd hdx (by decide)
      · rw [List.head?_cons] at hx; injection hx with hx; subst hx; exact absurd hdx (by decide)
      · simp [hn]
    · obtain ⟨x, y, hx, hy, hdx, hdy⟩ := DigitText.ends hm
      rw [strip_eq hl hr (x := '+') (y := y) rfl _ (by decide) (isDigit_not_space hdy)]
      · simp [natLit_iff.mpr hm]
      · cases b with
        | nil => cases hx
        | cons => simpa [List.getLast?_cons_cons] using hy
    · obtain ⟨x, y, hx, hy, hdx, hdy⟩ := DigitText.ends hm
      rw [strip_eq hl hr (x := '-') (y := y) rfl _ (by decide) (isDigit_not_space hdy)]
      · simp [natLit_iff.mpr hm]
      · cases b with
        | nil => cases hx
        | cons => simpa [List.getLast?_cons_cons] using hy

theorem digitText_strNat (n : Nat) : DigitText (strNat n) n :=
  ⟨[strNat n], by simp, by simp [strNat_ne_nil]; exact fun c hc => (digit_iff c).mp (isDigit_of_mem_strNat hc), rfl,
    by simp [strNat_ofDigits]⟩

theorem int_strNat (n : Nat) : int (strNat n) = some (n : Int) :=
  int_iff.mpr ⟨[], strNat n, [], by simp, by simp, by simp, .inl ⟨n, digitText_strNat n, rfl⟩⟩

/-! Splitting -/

theorem splitOn_ne_nil (p : Char → Bool) (s : List Char) : splitOn p s ≠ [] := by
  fun_induction splitOn p s <;> simp_all

theorem splitOn_of_none {p : Char → Bool} {s : List Char} (h : ∀ c ∈ s, p c = false) : splitOn p s = [s] := by
  induction s with
  | nil => rfl
  | cons c cs ih =>
    simp [splitOn, h c (by simp), ih fun x hx => h x (List.mem_cons_of_mem _ hx)]

theorem splitOn_append {p : Char → Bool} {a b : List Char} {c : Char} (h : ∀ x ∈ a, p x = false)
    (hc : p c = true) : splitOn p (a ++ c :: b) = a :: splitOn p b := by
  induction a with
  | nil => simp [splitOn, hc]
  | cons x xs ih =>
    simp [splitOn, h x (by simp), ih fun y hy => h y (List.mem_cons_of_mem _ hy)]

theorem splitOn_singleton {p : Char → Bool} {s w : List Char} (h : splitOn p s = [w]) :
    s = w ∧ ∀ c ∈ s, p c = false := by
  induction s generalizing w with
  | nil => simp [splitOn] at h; simp [h]
  | cons c cs ih =>
    unfold splitOn at h
    split at h
    · simp at h; exact absurd h.2 (splitOn_ne_nil p cs)
    · rename_i hc
      split at h
      · rename_i hn; exact absurd hn (splitOn_ne_nil p cs)
      · rename_i w' ws heq
        simp at h
        obtain ⟨rfl, rfl⟩ := h
        have := ih heq
        refine ⟨by rw [this.1], ?_⟩
        intro x hx
        rcases List.mem_cons.mp hx with hx | hx
        · subst hx; simpa using hc
        · exact this.2 x hx

theorem splitOn_cons {p : Char → Bool} {s w : List Char} {ws : List (List Char)} (h : splitOn p s = w :: ws)
    (hne : ws ≠ []) : ∃ c b, s = w ++ c :: b ∧ p c = true ∧ (∀ x ∈ w, p x = false) ∧ splitOn p b = ws := by
  induction s generalizing w with
  | nil => simp [splitOn] at h; exact absurd h.2 (fun h => hne h)
  | cons c cs ih =>
    unfold splitOn at h
    split at h
    · rename_i hc
      simp at h
      obtain ⟨rfl, rfl⟩ := h
      exact ⟨c, cs, rfl, hc, by simp, rfl⟩
    · rename_i hc
      split at h
      · simp at h; exact absurd h.2 (fun h => hne h)
      · rename_i w' ws' heq
        simp at h
        obtain ⟨rfl, rfl⟩ := h
        obtain ⟨d, b, h1, h2, h3, h4⟩ := ih heq
        refine ⟨d, b, by rw [h1]; rfl, h2, ?_, h4⟩
        intro x hx
        rcases List.mem_cons.mp hx with hx | hx
        · subst hx; simpa using hc
        · exact h3 x hx

end Vermin.Py
