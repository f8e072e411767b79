import Verif.Lemmas.Spelt
import Verif.Lemmas.Written
import Verif.Lemmas.Fine
import Verif.Lemmas.Int
/-
The names and texts that are found for expressions are those of the specification.
-/
namespace Vermin
open Py Spec

theorem reads_of {ms : Dict String String} {n : Node} {full : List (Option String)} (h : attributeName ms n = .ok full) : Reads ms n full := by
  refine ⟨(names_from h).1, (names_from h).2, fun b k a bs hk hs => ?_, fun t b hl => ?_⟩
  · rw [spelt_names hs hk] at h
    injection h with h
    rw [← h]
    cases k <;> rfl
  · rw [literal_names hl] at h
    injection h with h
    exact h.symm

theorem fullText_eq (full : List (Option String)) : fullText full = dotted full := by
  unfold fullText
  have key : dotted full = dotted ((full.filterMap id).map some) := by
    unfold dotted
    rw [List.filterMap_map]
    congr 2
    induction full with
    | nil => rfl
    | cons x xs ih => cases x <;> simp_all
  rw [key]
  split
  · rename_i h; rw [h]; rfl
  · rename_i a bs h; rw [h]; exact (dotted_text a bs).symm
theorem fullText_text (a : String) (bs : List String) : fullText (some a :: bs.map some) = dottedText a bs := by
  rw [fullText_eq, dotted_text]
theorem dotted_pair (a b : String) : dotted [some a, some b] = a ++ "." ++ b := dotted_text a [b]

theorem dottedAttr_reads {ms : Dict String String} {n : Node} {d : String} (h : dottedAttr ms n = .ok d) : ∃ full, Reads ms n full ∧ d = fullText full := by
  unfold dottedAttr at h
  split at h
  · rename_i l hl
    injection h with h
    exact ⟨l, reads_of hl, by rw [fullText_eq, h]⟩
  · cases h

theorem dotless_parts {w : List Char} {ws : List (List Char)} : ∀ {s : List Char}, splitOn (· == '.') s = w :: ws →
    ('.' ∉ w ∧ ∀ v ∈ ws, '.' ∉ v) ∧ s = w ++ (ws.map (['.'] ++ ·)).flatten := by
  intro s
  induction s generalizing w ws with
  | nil =>
    intro h
    simp only [splitOn, List.cons.injEq] at h
    obtain ⟨rfl, rfl⟩ := h
    simp
  | cons c cs ih =>
    intro h
    unfold splitOn at h
    split at h
    · rename_i hc
      injection h with h1 h2
      subst h1
      cases ws with
      | nil => exact absurd h2 (splitOn_ne_nil _ cs)
      | cons v vs =>
        obtain ⟨⟨h3, h4⟩, h5⟩ := ih h2
        have : c = '.' := by simpa using hc
        refine ⟨⟨by simp, fun x hx => ?_⟩, by rw [this, h5]; simp⟩
        rcases List.mem_cons.mp hx with rfl | hx
        · exact h3
        · exact h4 x hx
    · rename_i hc
      split at h
      · rename_i hn; exact absurd hn (splitOn_ne_nil _ cs)
      · rename_i v vs hv
        injection h with h1 h2
        subst h1 h2
        obtain ⟨⟨h3, h4⟩, h5⟩ := ih hv
        refine ⟨⟨fun hm => ?_, h4⟩, by rw [h5]; rfl⟩
        rcases List.mem_cons.mp hm with rfl | hm
        · simp at hc
        · exact h3 hm

/-- Texts are split at their dots. -/
theorem splitDots_parts (t : String) : ∃ p ps, splitDots t = p :: ps ∧ DotParts t p ps := by
  unfold splitDots
  cases h : splitOn (· == '.') t.toList with
  | nil => exact absurd h (splitOn_ne_nil _ _)
  | cons w ws =>
    obtain ⟨⟨h1, h2⟩, h3⟩ := dotless_parts h
    refine ⟨String.ofList w, ws.map String.ofList, rfl, by simpa using h1, fun q hq => ?_, ?_⟩
    · obtain ⟨v, hv, rfl⟩ := List.mem_map.mp hq
      simpa using h2 v hv
    · rw [← dotted_text]
      unfold dotted
      rw [show (some (String.ofList w) :: (ws.map String.ofList).map some).filterMap (fun o => o.map String.toList) = w :: ws by
        simp [List.filterMap_map, Function.comp_def], join_cons, ← h3]
      simp

theorem dotParts_split {t p : String} {ps : List String} (h : DotParts t p ps) : splitDots t = p :: ps := by
  obtain ⟨ha, hb, rfl⟩ := h
  have free : ∀ {x : String}, '.' ∉ x.toList → ∀ c ∈ x.toList, (c == '.') = false := by
    intro x hx c hc
    rw [beq_eq_false_iff_ne]
    rintro rfl
    exact hx hc
  have key : ∀ (bs : List String) (a : List Char), (∀ c ∈ a, (c == '.') = false) → (∀ b ∈ bs, '.' ∉ b.toList) →
      splitOn (· == '.') (a ++ ((bs.map String.toList).map (['.'] ++ ·)).flatten) = a :: bs.map String.toList := by
    intro bs
    induction bs with
    | nil => intro a ha _; simpa using splitOn_of_none ha
    | cons b bs ih =>
      intro a ha hb
      have := ih b.toList (free (hb b (.head _))) fun x hx => hb x (.tail _ hx)
      rw [List.map_cons, List.map_cons, List.flatten_cons, List.append_assoc, List.singleton_append, splitOn_append ha (by rfl), this]
  unfold splitDots
  rw [← dotted_text]
  unfold dotted
  have h1 : (some p :: ps.map some).filterMap (fun o => o.map String.toList) = p.toList :: ps.map String.toList := by
    simp [List.filterMap_map, Function.comp_def]
  rw [h1, join_cons, String.toList_ofList, key ps p.toList (free ha) hb]
  simp [Function.comp_def]

/-- The text of an expression in an f-string is how it is written. -/
theorem renders_of {ms : Dict String String} {n : Node} {y : String} (h : extractFstring ms n = .ok y) : Renders ms n y := fun p t hr hw => by
  obtain ⟨⟨z, h1, h2⟩, _⟩ := written_extracts (ms := ms) (fun a ha => by unfold resolveModuleName; rw [hr a ha]; rfl) hw
  rw [h] at h1
  injection h1 with h1
  rw [h1, h2]

/-! ### Exceptions -/

theorem isDict_parsed {res : Dict String String} {n : Node} {e : Err} (h : isDict res n = .error e) : ¬ Parsed n := fun hp => by
  obtain ⟨b, hb⟩ := isDict_fine (res := res) hp
  rw [hb] at h; cases h
theorem dottedAttr_complex {ms : Dict String String} {n : Node} {e : Err} (h : dottedAttr ms n = .error e) : HasComplex n := by
  refine Classical.byContradiction fun hc => ?_
  obtain ⟨d, hd⟩ := dottedAttr_tame (ms := ms) hc
  rw [hd] at h; cases h
theorem extract_textual {ms : Dict String String} {n : Node} {e : Err} (h : extractFstring ms n = .error e) : ¬ Parsed n ∨ HasComplex n ∨ HasDictUnpack n := by
  refine Classical.byContradiction fun hc => ?_
  have : Textual n := ⟨Classical.byContradiction fun g => hc (.inl g), fun g => hc (.inr (.inl g)), fun g => hc (.inr (.inr g))⟩
  obtain ⟨d, hd⟩ := extractFstring_fine (ms := ms) this
  rw [hd] at h; cases h

end Vermin
