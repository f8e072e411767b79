import Verif.Props.Rules
import Verif.Model.Visitor
/-
C97: the numbers of rules that README.rst:37-43 states and count.py:5-22 prints, and the versions they cover.
-/
namespace Vermin.Props
open Vermin Vermin.Py Vermin.Spec Vermin.Data

/-- A partial function has a value for exactly `n` arguments: there is a list of `n` different arguments that are all those
with a value. -/
def HasEntries {α β : Type} (f : α → Option β) (n : Nat) : Prop :=
  ∃ ks : List α, ks.Nodup ∧ ks.length = n ∧ ∀ k, k ∈ ks ↔ (f k).isSome

/-- Two numbers of entries of one function are the same number. -/
theorem HasEntries.unique {α β : Type} {f : α → Option β} {m n : Nat} (hm : HasEntries f m) (hn : HasEntries f n) : m = n := by
  obtain ⟨ks, hk, rfl, h⟩ := hm
  obtain ⟨ls, hl, rfl, h'⟩ := hn
  have le : ∀ {a b : List α}, a.Nodup → (∀ x ∈ a, x ∈ b) → a.length ≤ b.length := by
    intro a
    induction a with
    | nil => simp
    | cons x a ih =>
      intro b hn hs
      rw [List.nodup_cons] at hn
      obtain ⟨s, t, rfl⟩ := List.append_of_mem (hs x (by simp))
      have := ih (b := s ++ t) hn.2 (fun y hy => by
        have h1 := hs y (by simp [hy])
        have h2 : y ≠ x := fun h => hn.1 (h ▸ hy)
        simpa [h2] using h1)
      simp only [List.length_append, List.length_cons] at this ⊢
      omega
  exact Nat.le_antisymm (le hk fun x hx => (h' x).mpr ((h x).mp hx)) (le hl fun x hx => (h x).mpr ((h' x).mp hx))

theorem hasEntries_display {α β γ : Type} [DecidableEq α] {l : List (α × β)} (g : β → γ) {n : Nat}
    (hn : (l.map Prod.fst).Nodup) (hl : l.length = n) :
    HasEntries (fun k => (Dict.get? (dictDisplay l) k).map g) n := by
  refine ⟨l.map Prod.fst, hn, by simpa using hl, fun k => ?_⟩
  show _ ↔ ((Dict.get? (dictDisplay l) k).map g).isSome
  rw [get?_dictDisplay_eq hn, Option.isSome_map, Option.isSome_iff_exists]
  simp only [get?_eq_of_nodup hn, List.mem_map, Prod.exists, exists_and_right, exists_eq_right]

theorem hasEntries_display' {α β : Type} [DecidableEq α] {l : List (α × β)} {n : Nat}
    (hn : (l.map Prod.fst).Nodup) (hl : l.length = n) :
    HasEntries (fun k => Dict.get? (dictDisplay l) k) n := by
  have := hasEntries_display (g := id) hn hl
  simpa using this

theorem small_nodup' {t : List (String × Req)}
    (ht : t ∈ [strftimeReqs, bytesReqs, arrayTypecodeReqs, codecsErrorHandlers, decoratorUserFunctions]) :
    (t.map Prod.fst).Nodup := by simpa using List.all_eq_true.mp small_nodup _ ht

deriving instance DecidableEq for EncKey

theorem enc_nodup : (codecsEncodings.map Prod.fst).Nodup := by decide +kernel

theorem modReqs_length : modReqs.length = 178 := by decide +kernel
theorem memReqs_length : memReqs.length = 2614 := by decide +kernel
theorem kwReqs_length : kwReqs.length = 875 := by decide +kernel

/-- C97: whatever backports are chosen, the tables the visitor looks rules up in have exactly the entries README.rst states:
178 modules, 2614 members, 875 keyword arguments, 4 strftime directives, 3 bytes directives, 2 array type codes, 3 codecs
error handlers, 20 codecs encodings, 78 builtin generic annotation types, 9 and 8 types of dictionary unions, 2 user function
decorators. -/
theorem C97_counts (cfg : Config) :
    HasEntries (Tables.std cfg).mod 178 ∧ HasEntries (Tables.std cfg).mem 2614 ∧ HasEntries (Tables.std cfg).kw 875 ∧
      HasEntries (Tables.std cfg).strftime 4 ∧ HasEntries (Tables.std cfg).bytes 3 ∧
      HasEntries (Tables.std cfg).typecode 2 ∧ HasEntries (Tables.std cfg).errorHandler 3 ∧
      HasEntries (Tables.std cfg).deco 2 ∧
      (((Tables.std cfg).encodings.map Prod.fst).Nodup ∧ (Tables.std cfg).encodings.length = 20) ∧
      ((Tables.std cfg).genericTypes.Nodup ∧ (Tables.std cfg).genericTypes.length = 78) ∧
      ((Tables.std cfg).dictUnion.Nodup ∧ (Tables.std cfg).dictUnion.length = 9) ∧
      ((Tables.std cfg).dictUnionMerge.Nodup ∧ (Tables.std cfg).dictUnionMerge.length = 8) := by
  simp only [Tables.std]
  refine ⟨hasEntries_display _ C13_modules_nodup modReqs_length, hasEntries_display _ C13_members_nodup memReqs_length, ?_,
    hasEntries_display' (small_nodup' (by simp)) (by decide +kernel), hasEntries_display' (small_nodup' (by simp)) (by decide +kernel),
    hasEntries_display' (small_nodup' (by simp)) (by decide +kernel), hasEntries_display' (small_nodup' (by simp)) (by decide +kernel),
    hasEntries_display' (small_nodup' (by simp)) (by decide +kernel), ⟨enc_nodup, by decide +kernel⟩,
    ⟨by decide +kernel, by decide +kernel⟩, ⟨by decide +kernel, by decide +kernel⟩, ⟨by decide +kernel, by decide +kernel⟩⟩
  obtain ⟨ks, hn, hl, hk⟩ := hasEntries_display (RuleVal.eval cfg.backports) C13_kwargs_nodup kwReqs_length
  refine ⟨ks.map fun p => (p.1, some p.2), ?_, by simpa using hl, ?_⟩
  · rw [List.nodup_iff_pairwise_ne, List.pairwise_map]
    refine List.Pairwise.imp ?_ (List.nodup_iff_pairwise_ne.mp hn)
    rintro ⟨a, b⟩ ⟨c, d⟩ h h'
    exact h (by simpa using h')
  · rintro ⟨f, k⟩
    cases k with
    | none => simp
    | some k =>
      have := hk (f, k)
      simp only [List.mem_map, Prod.mk.injEq, Option.some.injEq, Prod.exists] at this ⊢
      rw [← this]
      exact ⟨by rintro ⟨a, b, h, rfl, rfl⟩; exact h, fun h => ⟨_, _, h, rfl, rfl⟩⟩

/-- C97: together they are the 3796 rules. -/
theorem C97_total {a b c d e f g h : Nat} (cfg : Config)
    (ha : HasEntries (Tables.std cfg).mod a) (hb : HasEntries (Tables.std cfg).mem b) (hc : HasEntries (Tables.std cfg).kw c)
    (hd : HasEntries (Tables.std cfg).strftime d) (he : HasEntries (Tables.std cfg).bytes e)
    (hf : HasEntries (Tables.std cfg).typecode f) (hg : HasEntries (Tables.std cfg).errorHandler g)
    (hh : HasEntries (Tables.std cfg).deco h) :
    a + b + c + d + e + f + g + (Tables.std cfg).encodings.length + (Tables.std cfg).genericTypes.length +
      (Tables.std cfg).dictUnion.length + (Tables.std cfg).dictUnionMerge.length + h = 3796 := by
  obtain ⟨h1, h2, h3, h4, h5, h6, h7, h8, h9, h10, h11, h12⟩ := C97_counts cfg
  have := ha.unique h1; have := hb.unique h2; have := hc.unique h3; have := hd.unique h4; have := he.unique h5
  have := hf.unique h6; have := hg.unique h7; have := hh.unique h8
  omega

/-- The versions for which some module or member has a rule with that very minimum under every selection of backports. -/
def coveredB (v : Ver) : Bool :=
  (modReqs ++ memReqs).any fun e => match e.2 with
    | .const r => r.py2 == some v || r.py3 == some v
    | _ => false

theorem all_covered : (((List.range 8).map (Ver.mk 2)) ++ (List.range 13).map (Ver.mk 3)).all coveredB = true := by
  decide +kernel

/-- C97: the versions covered are exactly 2.0–2.7 and 3.0–3.12: each of them is what some module or member needs, whatever
backports are chosen, and no module or member needs another, leaving out (0, 0), which means "not known" (C12). -/
theorem C97_versions (cfg : Config) {v : Ver} (hv : v ≠ ⟨0, 0⟩) :
    (∃ k r, ((Tables.std cfg).mod k = some r ∨ (Tables.std cfg).mem k = some r) ∧ (r.py2 = some v ∨ r.py3 = some v)) ↔
      (v.major = 2 ∧ v.minor ≤ 7) ∨ (v.major = 3 ∧ v.minor ≤ 12) := by
  simp only [Tables.std, get?_dictDisplay_eq C13_modules_nodup, get?_dictDisplay_eq C13_members_nodup, Option.map_eq_some_iff,
    get?_eq_of_nodup C13_modules_nodup, get?_eq_of_nodup C13_members_nodup]
  have sane : ∀ {r : Req}, SaneRule r → (r.py2 = some v ∨ r.py3 = some v) →
      (v.major = 2 ∧ v.minor ≤ 7) ∨ (v.major = 3 ∧ v.minor ≤ 12) := by
    rintro r ⟨h2, h3, -⟩ (h | h)
    · rcases h2 with h2 | ⟨m, hm, h2⟩
      · simp [h2] at h
      · rw [h2, Option.some.injEq] at h; subst h; exact .inl ⟨rfl, hm⟩
    · rcases h3 with h3 | ⟨m, hm, h3⟩
      · simp [h3] at h
      · rw [h3, Option.some.injEq] at h; subst h; exact .inr ⟨rfl, hm⟩
  constructor
  · rintro ⟨k, r, ⟨x, hx, rfl⟩ | ⟨x, hx, rfl⟩, h⟩
    · rcases C12_modules cfg.backports hx with hs | ⟨-, hs, -⟩
      · exact sane hs h
      · rw [hs] at h; exact absurd (h.elim Option.some.inj Option.some.inj).symm hv
    · exact sane (C12_members cfg.backports hx) h
  · intro h
    have hc : coveredB v = true := by
      apply List.all_eq_true.mp all_covered
      obtain ⟨a, b⟩ := v
      simp only [List.mem_append, List.mem_map, List.mem_range]
      rcases h with ⟨rfl, h⟩ | ⟨rfl, h⟩
      · exact .inl ⟨b, by simp at h; omega, rfl⟩
      · exact .inr ⟨b, by simp at h; omega, rfl⟩
    obtain ⟨⟨k, x⟩, hm, hx⟩ := List.any_eq_true.mp hc
    cases x with
    | const r =>
      simp only [Bool.or_eq_true, beq_iff_eq] at hx
      rcases List.mem_append.mp hm with hm | hm
      · exact ⟨k, r, .inl ⟨_, hm, rfl⟩, hx⟩
      · exact ⟨k, r, .inr ⟨_, hm, rfl⟩, hx⟩
    | _ => simp at hx

/-- `HasEntries` counts different arguments: a function with a value for two of them has no other count. -/
theorem C97_witness : HasEntries (fun k : String => if k = "a" ∨ k = "b" then some 1 else none) 2 ∧
    ¬ HasEntries (fun k : String => if k = "a" ∨ k = "b" then some 1 else none) 3 := by
  have : HasEntries (fun k : String => if k = "a" ∨ k = "b" then some 1 else none) 2 :=
    ⟨["a", "b"], by decide, rfl, fun k => by by_cases h : k = "a" ∨ k = "b" <;> simp_all⟩
  exact ⟨this, fun h => absurd (this.unique h) (by decide)⟩

end Vermin.Props
