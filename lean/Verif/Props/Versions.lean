import Verif.Lemmas.Combine
import Verif.Lemmas.Text
/-
C01–C05: combining and printing requirements (vermin/utility.py).
-/
namespace Vermin.Props
open Vermin Vermin.Py Vermin.Spec

/-! ### C01 -/

/-- C01: an interpreter satisfies the combination iff it satisfies both arguments. -/
theorem C01_combine_satisfies {ign : Bool} {a b r : Req} {refs : Option Refs}
    (h : combineVersions ign a b refs = .ok r) (v : Ver) :
    Satisfies v r ↔ Satisfies v a ∧ Satisfies v b := by
  rw [combineVersions_ok h]; exact satisfies_joinReq v a b

/-- C01: the combination says "incompatible with major M" iff an argument does, and otherwise is the
least version not below the arguments' versions. -/
theorem C01_combine_least {ign : Bool} {a b r : Req} {refs : Option Refs}
    (h : combineVersions ign a b refs = .ok r) :
    (r.py2 = none ↔ a.py2 = none ∨ b.py2 = none) ∧ (r.py3 = none ↔ a.py3 = none ∨ b.py3 = none) ∧
    (∀ x y, a.py2 = some x → b.py2 = some y →
      ∃ m, r.py2 = some m ∧ x ≤ m ∧ y ≤ m ∧ ∀ c, x ≤ c → y ≤ c → m ≤ c) ∧
    (∀ x y, a.py3 = some x → b.py3 = some y →
      ∃ m, r.py3 = some m ∧ x ≤ m ∧ y ≤ m ∧ ∀ c, x ≤ c → y ≤ c → m ≤ c) := by
  rw [combineVersions_ok h]
  refine ⟨joinReq_py2 a b, joinReq_py3 a b, ?_, ?_⟩
  all_goals
    intro x y hx hy
    exact ⟨Ver.max x y, by simp [joinReq, hx, hy, combineOpt], Ver.le_max_left x y, Ver.le_max_right x y,
      fun c h1 h2 => Ver.max_le_iff.mpr ⟨h1, h2⟩⟩

/-- C01: commutative (results; the exception's text names the arguments in order). -/
theorem C01_combine_comm (ign : Bool) (a b r : Req) (refs refs' : Option Refs) :
    combineVersions ign a b refs = .ok r ↔ combineVersions ign b a refs' = .ok r := by
  constructor
  · intro h
    have hr := combineVersions_ok h
    rw [combineVersions_eq_ok, hr, joinReq_comm]
    rintro ⟨hi, hc⟩
    obtain ⟨e, he⟩ := (combineVersions_error_iff (refs := refs)).mpr ⟨hi, (conflict_comm b a).mp hc⟩
    rw [he] at h; cases h
  · intro h
    have hr := combineVersions_ok h
    rw [combineVersions_eq_ok, hr, joinReq_comm]
    rintro ⟨hi, hc⟩
    obtain ⟨e, he⟩ := (combineVersions_error_iff (refs := refs')).mpr ⟨hi, (conflict_comm a b).mp hc⟩
    rw [he] at h; cases h

/-- C01: associative: whenever both bracketings return, they return the same. -/
theorem C01_combine_assoc {ign : Bool} {a b c ab bc r r' : Req} {refs : Option Refs}
    (h1 : combineVersions ign a b refs = .ok ab) (h2 : combineVersions ign ab c refs = .ok r)
    (h3 : combineVersions ign b c refs = .ok bc) (h4 : combineVersions ign a bc refs = .ok r') : r = r' := by
  rw [combineVersions_ok h2, combineVersions_ok h1, combineVersions_ok h4, combineVersions_ok h3, joinReq_assoc]

/-- C01: idempotent, and `[(0,0),(0,0)]` is neutral; neither ever raises. -/
theorem C01_combine_idem_neutral (ign : Bool) (a : Req) (refs : Option Refs) :
    combineVersions ign a a refs = .ok a ∧ combineVersions ign Req.unknown a refs = .ok a ∧
    combineVersions ign a Req.unknown refs = .ok a := by
  refine ⟨?_, ?_, ?_⟩
  · rw [combineVersions_eq_ok, joinReq_self]
    simp only [Conflict, py2Only_iff, py3Only_iff]; rintro ⟨_, h | h⟩
    · exact h.1.1 h.2.1
    · exact h.2.1 h.1.1
  · rw [combineVersions_eq_ok, joinReq_unknown]
    simp [Conflict, py2Only_iff, py3Only_iff, Req.unknown]
  · rw [combineVersions_eq_ok, joinReq_unknown']
    simp [Conflict, py2Only_iff, py3Only_iff, Req.unknown]

/-- non-vacuity: `["2.7, 3.2"]` with `["2.6, 3.4"]` gives `2.7, 3.4`. -/
example : combineVersions false ⟨some ⟨2, 7⟩, some ⟨3, 2⟩⟩ ⟨some ⟨2, 6⟩, some ⟨3, 4⟩⟩ =
    .ok ⟨some ⟨2, 7⟩, some ⟨3, 4⟩⟩ := by decide
example : Satisfies ⟨3, 5⟩ ⟨some ⟨2, 7⟩, some ⟨3, 4⟩⟩ ∧ ¬ Satisfies ⟨3, 3⟩ ⟨some ⟨2, 7⟩, some ⟨3, 4⟩⟩ := by
  constructor
  · exact .inr ⟨rfl, _, rfl, by decide⟩
  · rintro (⟨h, _⟩ | ⟨_, m, hm, hle⟩)
    · cases h
    · cases hm; revert hle; decide

/-! ### C02 -/

/-- C02: an exception exactly if incompatibilities are not ignored and one argument is 2-only, the
other 3-only; the exception is `InvalidVersionException`. -/
theorem C02_combine_raises_iff (ign : Bool) (a b : Req) (refs : Option Refs) :
    (∃ e, combineVersions ign a b refs = .error e) ↔ ign = false ∧ Conflict a b := combineVersions_error_iff

theorem C02_combine_raises_kind {ign : Bool} {a b : Req} {refs : Option Refs} {e : Err}
    (h : combineVersions ign a b refs = .error e) : ∃ msg, e = .invalidVersion msg := by
  unfold combineVersions at h
  split at h
  · injection h with h; exact ⟨_, h.symm⟩
  · cases h

example : Conflict ⟨some ⟨2, 0⟩, none⟩ ⟨none, some ⟨3, 4⟩⟩ := .inl ⟨⟨⟨_, rfl⟩, rfl⟩, ⟨rfl, ⟨_, rfl⟩⟩⟩
example : combineVersions false ⟨some ⟨2, 0⟩, none⟩ ⟨none, some ⟨3, 4⟩⟩ =
    .error (.invalidVersion "Versions could not be combined: 2.0, !3 and !2, 3.4") := by decide +kernel

/-! ### C03 -/

/-- C03: for requirements that leave some major version possible, every order gives the same result. -/
theorem C03_order_independent (ign : Bool) (refs refs' : Option Refs) {l1 l2 : List Req} (hp : l1.Perm l2)
    (hs : ∀ r ∈ l1, Sane r) (r : Req) : combineAll ign refs l1 = .ok r ↔ combineAll ign refs' l2 = .ok r := by
  have hs2 : ∀ r ∈ l2, Sane r := fun r hr => hs r (hp.mem_iff.mpr hr)
  have e1 := combineFrom_error_iff (ign := ign) (refs := refs) sane_unknown hs
  have e2 := combineFrom_error_iff (ign := ign) (refs := refs') sane_unknown hs2
  have e12 : (∃ e, combineFrom ign refs Req.unknown l1 = .error e) ↔
      (∃ e, combineFrom ign refs' Req.unknown l2 = .error e) := by
    rw [e1, e2]; simp only [List.mem_cons, hp.mem_iff]
  unfold combineAll
  constructor
  · intro h
    rcases h2 : combineFrom ign refs' Req.unknown l2 with e | r2
    · obtain ⟨e', he'⟩ := e12.mpr ⟨e, h2⟩
      rw [he'] at h; cases h
    · rw [combineFrom_ok h2, combineFrom_ok h, joinAll_perm hp]
  · intro h
    rcases h1 : combineFrom ign refs Req.unknown l1 with e | r2
    · obtain ⟨e', he'⟩ := e12.mp ⟨e, h1⟩
      rw [he'] at h; cases h
    · rw [combineFrom_ok h1, combineFrom_ok h, joinAll_perm hp]

/-- C03: with `ignore_incomp` no assumption is needed and nothing ever raises. -/
theorem C03_order_independent_ignore (refs refs' : Option Refs) {l1 l2 : List Req} (hp : l1.Perm l2) :
    ∃ r, combineAll true refs l1 = .ok r ∧ combineAll true refs' l2 = .ok r :=
  ⟨_, combineFrom_ignore _ _ _, by rw [joinAll_perm hp]; exact combineFrom_ignore _ _ _⟩

/-- C03: the exception occurs iff there is both a 2-only and a 3-only requirement (and they are not
ignored). -/
theorem C03_error_iff (ign : Bool) (refs : Option Refs) {l : List Req} (hs : ∀ r ∈ l, Sane r) :
    (∃ e, combineAll ign refs l = .error e) ↔
      ign = false ∧ (∃ a ∈ l, Py2Only a) ∧ (∃ b ∈ l, Py3Only b) := by
  unfold combineAll
  rw [combineFrom_error_iff sane_unknown hs]
  simp [py2Only_iff, py3Only_iff, Req.unknown]

/-- The assumption in C03 is needed: a requirement that excludes both majors hides a conflict,
depending on its position. (No rule has such a requirement, see C12.) -/
theorem C03_insane_order_dependent :
    (∃ r, combineAll false none [⟨some ⟨2, 0⟩, none⟩, ⟨none, none⟩, ⟨none, some ⟨3, 0⟩⟩] = .ok r) ∧
    (∃ e, combineAll false none [⟨some ⟨2, 0⟩, none⟩, ⟨none, some ⟨3, 0⟩⟩, ⟨none, none⟩] = .error e) :=
  ⟨⟨⟨none, none⟩, by decide⟩, ⟨_, rfl⟩⟩

example : combineAll false none [⟨some ⟨2, 3⟩, some ⟨3, 0⟩⟩, ⟨none, some ⟨3, 4⟩⟩, ⟨some ⟨2, 7⟩, some ⟨3, 2⟩⟩] =
    .ok ⟨none, some ⟨3, 4⟩⟩ := by decide

/-! ### C04 -/

/-- C04: what the larger collection accepts, the smaller one accepts. -/
theorem C04_monotone {ign ign' : Bool} {refs refs' : Option Refs} {l1 l2 : List Req} {r1 r2 : Req}
    (hsub : ∀ r ∈ l1, r ∈ l2) (h1 : combineAll ign refs l1 = .ok r1) (h2 : combineAll ign' refs' l2 = .ok r2)
    (v : Ver) (hv : Satisfies v r2) : Satisfies v r1 := by
  rw [combineFrom_ok h2, satisfies_joinAll] at hv
  rw [combineFrom_ok h1, satisfies_joinAll]
  exact ⟨hv.1, fun r hr => hv.2 r (hsub r hr)⟩

/-- C04/C17: the result is satisfied exactly by the interpreters that satisfy every requirement. -/
theorem C04_satisfies_all {ign : Bool} {refs : Option Refs} {l : List Req} {r : Req}
    (h : combineAll ign refs l = .ok r) (v : Ver) :
    Satisfies v r ↔ (v.major = 2 ∨ v.major = 3) ∧ ∀ a ∈ l, Satisfies v a := by
  rw [combineFrom_ok h, satisfies_joinAll, satisfies_unknown]

/-! ### C05 -/

/-- The characters a version component can be printed with. -/
theorem versionString_chars (i : Nat) (o : Option Ver) (c : Char) (h : c ∈ versionString i (VVal.ofOpt o)) :
    isDigit c = true ∨ c = '.' ∨ c = '~' ∨ c = '!' := by
  unfold versionString at h
  split at h
  · rcases List.mem_cons.mp h with h | h
    · simp [h]
    · exact .inl (isDigit_of_mem_strNat h)
  · cases o with
    | none =>
      rcases List.mem_cons.mp h with h | h
      · simp [h]
      · exact .inl (isDigit_of_mem_strNat h)
    | some v =>
      simp only [VVal.ofOpt, VVal.dotted, List.mem_append, List.mem_singleton] at h
      rcases h with (h | h) | h
      · exact .inl (isDigit_of_mem_strNat h)
      · simp [h]
      · exact .inl (isDigit_of_mem_strNat h)

theorem versionString_some {i : Nat} {v : Ver} (h : v ≠ Ver.zero) :
    versionString i (VVal.ofOpt (some v)) = strNat v.major ++ '.' :: strNat v.minor := by
  simp [versionString, VVal.ofOpt, VVal.isZero, h, VVal.dotted]

theorem versionString_zero (i : Nat) : versionString i (VVal.ofOpt (some Ver.zero)) = '~' :: strNat (i + 2) := rfl
theorem versionString_none (i : Nat) : versionString i (VVal.ofOpt none) = '!' :: strNat (i + 2) := rfl

theorem versionString_inj (i : Nat) {x y : Option Ver}
    (h : versionString i (VVal.ofOpt x) = versionString i (VVal.ofOpt y)) : x = y := by
  have dig : ∀ (c : Char) (n : Nat) (l m : List Char), isDigit c = false → c :: l ≠ strNat n ++ m := by
    intro c n l m hc he
    cases hn : strNat n with
    | nil => exact strNat_ne_nil n hn
    | cons d ds =>
      rw [hn] at he
      simp only [List.cons_append, List.cons.injEq] at he
      have := isDigit_of_mem_strNat (n := n) (c := d) (by rw [hn]; exact List.mem_cons_self)
      rw [← he.1, hc] at this; cases this
  cases x with
  | none =>
    cases y with
    | none => rfl
    | some w =>
      by_cases hw : w = Ver.zero
      · subst hw; rw [versionString_none, versionString_zero] at h; simp at h
      · rw [versionString_none, versionString_some hw] at h; exact absurd h (dig _ _ _ _ (by decide))
  | some v =>
    by_cases hv : v = Ver.zero
    · subst hv
      cases y with
      | none => rw [versionString_none, versionString_zero] at h; simp at h
      | some w =>
        by_cases hw : w = Ver.zero
        · rw [hw]
        · rw [versionString_zero, versionString_some hw] at h; exact absurd h (dig _ _ _ _ (by decide))
    · rw [versionString_some hv] at h
      cases y with
      | none => rw [versionString_none] at h; exact absurd h.symm (dig _ _ _ _ (by decide))
      | some w =>
        by_cases hw : w = Ver.zero
        · subst hw; rw [versionString_zero] at h; exact absurd h.symm (dig _ _ _ _ (by decide))
        · rw [versionString_some hw] at h
          have := append_cons_inj (not_mem_strNat (by decide)) (not_mem_strNat (by decide)) h
          exact congrArg some (Ver.ext' (strNat_inj this.1) (strNat_inj this.2))

/-- Two pairs print differently with any separator that starts with a character that is not a digit,
`.`, `~` or `!`. -/
theorem reqString_inj {c : Char} {cs : List Char}
    (hc : isDigit c = false ∧ c ≠ '.' ∧ c ≠ '~' ∧ c ≠ '!') {a b : Req}
    (h : reqString a (String.ofList (c :: cs)) = reqString b (String.ofList (c :: cs))) : a = b := by
  have hne : String.ofList (c :: cs) ≠ "" := by
    intro h'; have := congrArg String.toList h'; simp at this
  have hn : ∀ i o, c ∉ versionString i (VVal.ofOpt o) := by
    intro i o hm
    rcases versionString_chars i o c hm with h' | h' | h' | h'
    · rw [hc.1] at h'; cases h'
    · exact hc.2.1 h'
    · exact hc.2.2.1 h'
    · exact hc.2.2.2 h'
  simp only [reqString, hne, if_false, Req.vals, versionStringsFrom, join, String.toList_ofList,
    List.append_assoc, List.cons_append] at h
  have h := String.ofList_injective h
  have := append_cons_inj (hn _ _) (hn _ _) h
  have h2 := List.append_cancel_left this.2
  exact Req.ext (versionString_inj _ this.1) (versionString_inj _ h2)

/-- C05: printing a pair never fails, and different pairs never print the same, with `", "` … -/
theorem C05_default_sep_injective {a b : Req} (h : versionStrings a.vals ", " = versionStrings b.vals ", ") : a = b := by
  refine reqString_inj (c := ',') (cs := [' ']) (by decide) ?_
  simp [versionStrings, Req.vals] at h
  simpa [reqString, Req.vals] using h

/-- … and with `":"` (the parsable format). -/
theorem C05_colon_sep_injective {a b : Req} (h : versionStrings a.vals ":" = versionStrings b.vals ":") : a = b := by
  refine reqString_inj (c := ':') (cs := []) (by decide) ?_
  simp [versionStrings, Req.vals] at h
  simpa [reqString, Req.vals] using h

/-- C05: printing a pair never trips an assertion. -/
theorem C05_total (r : Req) (sep : String) : versionStrings r.vals sep = .ok (reqString r sep) := by
  simp [versionStrings, Req.vals, reqString]

/-- C05: the text of a pair is the py2 part, the separator, the py3 part, where a part is `~M` exactly
for unknown, `!M` exactly for incompatible, and `x.y` otherwise. -/
theorem C05_parts (i : Nat) (o : Option Ver) :
    (versionString i (VVal.ofOpt o) = '~' :: strNat (i + 2) ↔ o = some ⟨0, 0⟩) ∧
    (versionString i (VVal.ofOpt o) = '!' :: strNat (i + 2) ↔ o = none) ∧
    (∀ v, o = some v → v ≠ ⟨0, 0⟩ →
      versionString i (VVal.ofOpt o) = strNat v.major ++ '.' :: strNat v.minor) := by
  refine ⟨⟨fun h => ?_, fun h => by subst h; rfl⟩, ⟨fun h => ?_, fun h => by subst h; rfl⟩, ?_⟩
  · exact versionString_inj i h
  · exact versionString_inj i (y := none) h
  · rintro v rfl hv; exact versionString_some hv

example : versionStrings (Req.vals ⟨some ⟨0, 0⟩, some ⟨3, 12⟩⟩) = .ok "~2, 3.12" ∧
    versionStrings (Req.vals ⟨some ⟨2, 7⟩, none⟩) ":" = .ok "2.7:!3" := by decide +kernel

end Vermin.Props
