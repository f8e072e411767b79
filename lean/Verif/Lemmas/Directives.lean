import Verif.Model.Names
import Verif.Spec.Directives
import Verif.Lemmas.Chars
/-
The directives that are found in a text are the matches of the expression.
-/
namespace Vermin
open Py Spec

/-! ### Directives -/

theorem modifier_iff (c : Char) : isDirectiveMod c = true ↔ Modifier c := by
  unfold isDirectiveMod Modifier
  simp only [Bool.or_eq_true, beq_iff_eq, digit_iff, space_iff]
  grind

theorem digit_modifier {c : Char} (h : isDigit c = true) : Modifier c := .inr (.inr (.inr (.inr (.inl ((digit_iff c).mp h)))))
theorem digit_word {c : Char} (h : isDigit c = true) : WordChar c := (wordChar_iff c).mp (by unfold isWord; rw [h]; rfl)
theorem modifier_word {c : Char} (h : Modifier c) (hw : WordChar c) : isDigit c = true := by
  rw [← wordChar_iff] at hw
  rcases h with rfl | rfl | rfl | rfl | h | h
  · exact absurd hw (by decide)
  · exact absurd hw (by decide)
  · exact absurd hw (by decide)
  · exact absurd hw (by decide)
  · exact (digit_iff c).mpr h
  · rw [← space_iff] at h
    unfold isWord isDigit at hw
    unfold isSpace at h
    unfold isDigit
    by_cases h2 : c = '_'
    · subst h2; exact absurd h (by decide)
    · simp only [Bool.or_eq_true, Bool.and_eq_true, decide_eq_true_eq, beq_iff_eq, h2, or_false] at hw h ⊢
      omega
theorem modifier_percent : ¬ Modifier '%' := by
  unfold Modifier
  decide

/-- The letter of the longest match at the start -/
def Longest (t : List Char) (d : Char) : Prop := ∃ ms, DirectiveAt t ms d ∧ ∀ ms' d', DirectiveAt t ms' d' → ms'.length ≤ ms.length

theorem directive_nil {d : Char} : ¬ Directive [] d := by
  rintro ⟨pre, u, ms, h, ⟨⟨post, h1⟩, _⟩, _⟩
  rw [h1] at h
  have := congrArg List.length h
  simp at this
theorem directive_cons {c : Char} {t : List Char} {d : Char} : Directive (c :: t) d ↔ Longest (c :: t) d ∨ Directive t d := by
  constructor
  · rintro ⟨pre, u, ms, h, h1, h2⟩
    cases pre with
    | nil => cases h; exact .inl ⟨ms, h1, h2⟩
    | cons a pre =>
      injection h with _ h
      exact .inr ⟨pre, u, ms, h, h1, h2⟩
  · rintro (⟨ms, h1, h2⟩ | ⟨pre, u, ms, h, h1, h2⟩)
    · exact ⟨[], _, ms, rfl, h1, h2⟩
    · exact ⟨c :: pre, u, ms, by rw [h]; rfl, h1, h2⟩
theorem longest_other {c : Char} {t : List Char} {d : Char} (h : c ≠ '%') : ¬ Longest (c :: t) d := by
  rintro ⟨ms, ⟨⟨post, h1⟩, _⟩, _⟩
  injection h1 with h1
  exact h h1

/-- The last digit of some modifiers -/
def LastDigit (ms : List Char) : Option Char → Prop
  | none => ∀ c ∈ ms, isDigit c = false
  | some d => ∃ a b, ms = a ++ d :: b ∧ isDigit d = true ∧ ∀ c ∈ b, isDigit c = false

theorem lastDigit_snoc {ms : List Char} {o : Option Char} (h : LastDigit ms o) (c : Char) : LastDigit (ms ++ [c]) (if isDigit c then some c else o) := by
  cases hc : isDigit c with
  | true => exact ⟨ms, [], rfl, hc, nofun⟩
  | false =>
    cases o with
    | none =>
      intro x hx
      rcases List.mem_append.mp hx with hx | hx
      · exact h x hx
      · rw [List.mem_singleton.mp hx]; exact hc
    | some d =>
      obtain ⟨a, b, h1, h2, h3⟩ := h
      refine ⟨a, b ++ [c], by rw [h1]; simp, h2, fun x hx => ?_⟩
      rcases List.mem_append.mp hx with hx | hx
      · exact h3 x hx
      · rw [List.mem_singleton.mp hx]; exact hc

/-- Matches end within the modifiers if no letter follows. -/
theorem match_within {ms r ms' : List Char} {d : Char} (hr : ∀ c r', r = c :: r' → ¬ Modifier c ∧ isWord c = false)
    (h : DirectiveAt ('%' :: (ms ++ r)) ms' d) : ∃ b, ms = ms' ++ d :: b := by
  obtain ⟨⟨post, h1⟩, h2, h3⟩ := h
  injection h1 with _ h1
  rcases List.append_eq_append_iff.mp h1 with ⟨x, h4, h5⟩ | ⟨x, h4, h5⟩
  · cases x with
    | nil =>
      replace h5 : r = d :: post := h5
      rw [← wordChar_iff, (hr d post h5).2] at h3
      cases h3
    | cons y x =>
      exact absurd (h2 y (by rw [h4]; simp)) (hr y _ h5).1
  · cases x with
    | nil =>
      replace h5 : d :: post = r := h5
      rw [← wordChar_iff, (hr d post h5.symm).2] at h3
      cases h3
    | cons y x =>
      injection h5 with h5 _
      exact ⟨x, by rw [h4, h5]⟩

theorem longest_digit {ms r : List Char} {o : Option Char} {d : Char} (hm : ∀ c ∈ ms, Modifier c) (ho : LastDigit ms o)
    (hr : ∀ c r', r = c :: r' → ¬ Modifier c ∧ isWord c = false) : Longest ('%' :: (ms ++ r)) d ↔ o = some d := by
  constructor
  · rintro ⟨ms', h1, h2⟩
    obtain ⟨b, hb⟩ := match_within hr h1
    have hd : isDigit d = true := modifier_word (hm d (by rw [hb]; simp)) h1.2.2
    cases o with
    | none => rw [ho d (by rw [hb]; simp)] at hd; cases hd
    | some e =>
      obtain ⟨x, y, h3, h4, h5⟩ := ho
      have := h2 x e ⟨⟨y ++ r, by rw [h3]; simp⟩, fun c hc => hm c (by rw [h3]; simp [hc]), digit_word h4⟩
      rw [hb] at h3
      rcases List.append_eq_append_iff.mp h3 with ⟨z, h6, h7⟩ | ⟨z, h6, h7⟩
      · cases z with
        | nil => injection h7 with h7 _; rw [h7]
        | cons w z => rw [h6] at this; simp at this; omega
      · cases z with
        | nil => injection h7 with h7 _; rw [h7]
        | cons w z =>
          injection h7 with _ h7
          rw [h5 d (by rw [h7]; simp)] at hd
          cases hd
  · intro h
    subst h
    obtain ⟨x, y, h3, h4, h5⟩ := ho
    refine ⟨x, ⟨⟨y ++ r, by rw [h3]; simp⟩, fun c hc => hm c (by rw [h3]; simp [hc]), digit_word h4⟩, fun ms' d' h => ?_⟩
    obtain ⟨b, hb⟩ := match_within hr h
    have hd : isDigit d' = true := modifier_word (hm d' (by rw [hb]; simp)) h.2.2
    rw [h3] at hb
    rcases List.append_eq_append_iff.mp hb with ⟨z, h6, h7⟩ | ⟨z, h6, h7⟩
    · cases z with
      | nil => rw [h6]; simp
      | cons w z =>
        injection h7 with _ h7
        rw [h5 d' (by rw [h7]; simp)] at hd
        cases hd
    · rw [h6]; simp

theorem longest_word {ms r : List Char} {c d : Char} (hm : ∀ c ∈ ms, Modifier c) (hc : ¬ Modifier c) (hw : isWord c = true) :
    Longest ('%' :: (ms ++ c :: r)) d ↔ d = c := by
  have hle : ∀ ms' d', DirectiveAt ('%' :: (ms ++ c :: r)) ms' d' → ms'.length ≤ ms.length ∧ (ms'.length = ms.length → d' = c) := by
    rintro ms' d' ⟨⟨post, h1⟩, h2, _⟩
    injection h1 with _ h1
    rcases List.append_eq_append_iff.mp h1 with ⟨x, h4, h5⟩ | ⟨x, h4, h5⟩
    · cases x with
      | nil =>
        injection h5 with h5 _
        rw [h4]
        exact ⟨by simp, fun _ => h5.symm⟩
      | cons y x =>
        injection h5 with h5 _
        exact absurd (h2 c (by rw [h4, h5]; simp)) hc
    · cases x with
      | nil =>
        injection h5 with h5 _
        rw [h4]
        exact ⟨by simp, fun _ => h5⟩
      | cons y x => rw [h4]; simp
  have hat : DirectiveAt ('%' :: (ms ++ c :: r)) ms c := ⟨⟨r, rfl⟩, hm, (wordChar_iff c).mp hw⟩
  constructor
  · rintro ⟨ms', h1, h2⟩
    have h3 := h2 _ _ hat
    have h4 := hle _ _ h1
    exact h4.2 (by omega)
  · rintro rfl
    exact ⟨ms, hat, fun ms' d' h => (hle ms' d' h).1⟩

theorem directivesFrom_some (o : Option Char) (c : Char) (cs : List Char) : directivesFrom (some o) (c :: cs) =
    if isDirectiveMod c then directivesFrom (some (if isDigit c then some c else o)) cs
    else if isWord c then String.ofList [c] :: directivesFrom none cs
    else (match o with
      | some d => [String.ofList [d]]
      | none => []) ++ (if c == '%' then directivesFrom (some none) cs else directivesFrom none cs) := by
  cases o <;> rfl

theorem mem_directivesFrom (x : String) : ∀ cs : List Char,
    (x ∈ directivesFrom none cs ↔ ∃ d, x = String.ofList [d] ∧ Directive cs d) ∧
    ∀ ms o, (∀ c ∈ ms, Modifier c) → LastDigit ms o →
      (x ∈ directivesFrom (some o) cs ↔ ∃ d, x = String.ofList [d] ∧ (Longest ('%' :: (ms ++ cs)) d ∨ Directive cs d))
  | [] => by
    refine ⟨?_, fun ms o hm ho => ?_⟩
    · simp [directivesFrom, directive_nil]
    · have := fun d => longest_digit (r := []) (d := d) hm ho nofun
      simp only [this, directive_nil, or_false]
      cases o <;> simp [directivesFrom, eq_comm]
  | c :: cs => by
    obtain ⟨ih1, ih2⟩ := mem_directivesFrom x cs
    have h0 := ih2 [] none nofun nofun
    have key : (x ∈ if c == '%' then directivesFrom (some none) cs else directivesFrom none cs) ↔
        ∃ d, x = String.ofList [d] ∧ Directive (c :: cs) d := by
      by_cases hc : c = '%'
      · subst hc
        simp only [beq_self_eq_true, if_true, h0, directive_cons, List.nil_append]
      · have : (c == '%') = false := by simpa using hc
        simp only [this, Bool.false_eq_true, if_false, ih1, directive_cons, longest_other hc, false_or]
    refine ⟨by rw [directivesFrom]; exact key, fun ms o hm ho => ?_⟩
    rw [directivesFrom_some]
    by_cases h1 : Modifier c
    · have hc : c ≠ '%' := fun h => modifier_percent (h ▸ h1)
      rw [if_pos ((modifier_iff c).mpr h1), ih2 (ms ++ [c]) _ (fun a ha => by
        rcases List.mem_append.mp ha with ha | ha
        · exact hm a ha
        · rw [List.mem_singleton.mp ha]; exact h1) (lastDigit_snoc ho c)]
      simp only [directive_cons, longest_other hc, false_or, List.append_assoc, List.singleton_append]
    · rw [if_neg (fun h => h1 ((modifier_iff c).mp h))]
      by_cases h2 : isWord c = true
      · have hc : c ≠ '%' := fun h => absurd (h ▸ h2) (by decide)
        rw [if_pos h2]
        simp only [longest_word hm h1 h2, directive_cons, longest_other hc, false_or, List.mem_cons, ih1]
        constructor
        · rintro (h | ⟨d, h, h'⟩)
          · exact ⟨c, h, .inl rfl⟩
          · exact ⟨d, h, .inr h'⟩
        · rintro ⟨d, h, rfl | h'⟩
          · exact .inl h
          · exact .inr ⟨d, h, h'⟩
      · rw [if_neg h2]
        have hr : ∀ e r', c :: cs = e :: r' → ¬ Modifier e ∧ isWord e = false := fun e r' h => by
          injection h with h _
          subst h
          exact ⟨h1, by simpa using h2⟩
        simp only [fun d => longest_digit (d := d) hm ho hr, List.mem_append, key]
        constructor
        · rintro (h | ⟨d, h, h'⟩)
          · cases o with
            | none => cases h
            | some e => exact ⟨e, List.mem_singleton.mp h, .inl rfl⟩
          · exact ⟨d, h, .inr h'⟩
        · rintro ⟨d, h, rfl | h'⟩
          · exact .inl (by rw [h]; exact List.mem_singleton.mpr rfl)
          · exact .inr ⟨d, h, h'⟩

/-- The directives of a text are the matches of the expression. -/
theorem mem_directives {x t : String} : x ∈ directives t ↔ ∃ d, x = String.ofList [d] ∧ Directive t.toList d := (mem_directivesFrom x t.toList).1

end Vermin
