import Verif.Model.Utility
import Verif.Lemmas.Int
import Verif.Lemmas.Dict
import Verif.Lemmas.Version
/-
C07–C09: parsing and comparing targets (vermin/utility.py).
-/
namespace Vermin.Props
open Vermin Vermin.Py Vermin.Spec

/-! ### C07 -/

/-- The grammar of accepted targets: `MAJOR`, `MAJOR.MINOR` or `MAJOR,MINOR`, each part a non-negative
number text without separator characters. -/
inductive TargetBody : List Char → Ver → Prop where
  | major {s : List Char} {n : Nat} (hn : IntText s n) (hs : ∀ c ∈ s, c ≠ '.' ∧ c ≠ ',') : TargetBody s ⟨n, 0⟩
  | both {a b : List Char} {sep : Char} {n m : Nat} (hn : IntText a n) (hm : IntText b m)
      (ha : ∀ c ∈ a, c ≠ '.' ∧ c ≠ ',') (hb : ∀ c ∈ b, c ≠ '.' ∧ c ≠ ',') (hsep : sep = '.' ∨ sep = ',') :
      TargetBody (a ++ sep :: b) ⟨n, m⟩

/-- A target text: the body, followed by `-` iff the target is not exact. -/
def TargetText (s : List Char) (t : Target) : Prop :=
  (t.1 = false ∧ ∃ body, s = body ++ ['-'] ∧ TargetBody body t.2) ∨
  (t.1 = true ∧ (∀ body, s ≠ body ++ ['-']) ∧ TargetBody s t.2)

theorem sep_false {c : Char} : isTargetSep c = false ↔ c ≠ '.' ∧ c ≠ ',' := by
  simp [isTargetSep]
theorem sep_true {c : Char} : isTargetSep c = true ↔ c = '.' ∨ c = ',' := by
  simp [isTargetSep]

theorem parseElms_one {w : List Char} {ns : List Nat} : parseElms [w] = some ns ↔ ∃ n : Nat, IntText w n ∧ ns = [n] := by
  simp only [parseElms]
  constructor
  · intro h
    split at h
    · cases h
    · rename_i n hn
      split at h
      · cases h
      · rename_i hneg
        simp at h
        refine ⟨n.toNat, ?_, h.symm⟩
        rw [Int.toNat_of_nonneg (by omega)]; exact int_iff.mp hn
  · rintro ⟨n, hn, rfl⟩
    rw [int_iff.mpr hn]; simp

theorem parseElms_two {a b : List Char} {ns : List Nat} :
    parseElms [a, b] = some ns ↔ ∃ n m : Nat, IntText a n ∧ IntText b m ∧ ns = [n, m] := by
  rw [parseElms]
  constructor
  · intro h
    split at h
    · cases h
    · rename_i n hn
      split at h
      · cases h
      · rename_i hneg
        rcases hb : parseElms [b] with _ | ms
        · rw [hb] at h; cases h
        · rw [hb] at h
          obtain ⟨m, hm, rfl⟩ := parseElms_one.mp hb
          simp at h
          refine ⟨n.toNat, m, ?_, hm, h.symm⟩
          rw [Int.toNat_of_nonneg (by omega)]; exact int_iff.mp hn
  · rintro ⟨n, m, hn, hm, rfl⟩
    rw [int_iff.mpr hn, parseElms_one.mpr ⟨m, hm, rfl⟩]; simp

theorem endsWith_dash {s : List Char} : endsWith ['-'] s = true ↔ ∃ body, s = body ++ ['-'] := by
  unfold endsWith; rw [List.isSuffixOf_iff_suffix]
  constructor
  · rintro ⟨t, ht⟩; exact ⟨t, ht.symm⟩
  · rintro ⟨t, ht⟩; exact ⟨t, ht.symm⟩

/-- The core of `parse_target`, after removal of `-`. -/
def parseBody (exact : Bool) (s : List Char) : Option Target :=
  let elms := splitOn isTargetSep s
  if elms.length ≠ 1 ∧ elms.length ≠ 2 then none
  else match parseElms elms with
    | none => none
    | some ns =>
      let ns := if ns.length = 1 then ns ++ [0] else ns
      match ns with
      | [a, b] =>
        let v : Ver := ⟨a, b⟩
        if (⟨2, 0⟩ : Ver) ≤ v ∧ v < (⟨4, 0⟩ : Ver) then some (exact, v) else none
      | _ => none

theorem parseBody_iff {exact : Bool} {s : List Char} {t : Target} : parseBody exact s = some t ↔
    t.1 = exact ∧ TargetBody s t.2 ∧ (⟨2, 0⟩ : Ver) ≤ t.2 ∧ t.2 < (⟨4, 0⟩ : Ver) := by
  constructor
  · intro h
    unfold parseBody at h
    rcases hsp : splitOn isTargetSep s with _ | ⟨a, _ | ⟨b, _ | ⟨c, l⟩⟩⟩
    · exact absurd hsp (splitOn_ne_nil _ _)
    · obtain ⟨h1, h2⟩ := splitOn_singleton hsp
      rcases hp : parseElms [a] with _ | ns
      · simp [hsp, hp] at h
      · obtain ⟨n, hn, rfl⟩ := parseElms_one.mp hp
        simp [hsp, hp] at h
        obtain ⟨hr, rfl⟩ := h
        exact ⟨rfl, .major (by rw [h1]; exact hn) (fun c hc => sep_false.mp (h2 c hc)), hr.1, hr.2⟩
    · obtain ⟨c, b', h1, h2, h3, h4⟩ := splitOn_cons hsp (by simp)
      obtain ⟨rfl, h6⟩ := splitOn_singleton h4
      rcases hp : parseElms [a, b'] with _ | ns
      · simp [hsp, hp] at h
      · obtain ⟨n, m, hn, hm, rfl⟩ := parseElms_two.mp hp
        simp [hsp, hp] at h
        obtain ⟨hr, rfl⟩ := h
        refine ⟨rfl, ?_, hr.1, hr.2⟩
        rw [h1]
        exact .both hn hm (fun c hc => sep_false.mp (h3 c hc)) (fun c hc => sep_false.mp (h6 c hc)) (sep_true.mp h2)
    · simp [hsp] at h
  · rintro ⟨rfl, hb, h1, h2⟩
    obtain ⟨e, v⟩ := t
    unfold parseBody
    cases hb with
    | @major _ n hn hs =>
      rw [splitOn_of_none fun c hc => sep_false.mpr (hs c hc)]
      simp only [parseElms_one.mpr ⟨n, hn, rfl⟩]
      simp only [List.length_singleton, ne_eq, not_true_eq_false, false_and, if_false, if_true]
      exact if_pos ⟨h1, h2⟩
    | @both a b sep n m hn hm ha hb hsep =>
      rw [splitOn_append (fun c hc => sep_false.mpr (ha c hc)) (sep_true.mpr hsep),
        splitOn_of_none fun c hc => sep_false.mpr (hb c hc)]
      simp only [parseElms_two.mpr ⟨n, m, hn, hm, rfl⟩]
      simp only [List.length_cons, List.length_nil, ne_eq, not_true_eq_false, and_false, if_false]
      exact if_pos ⟨h1, h2⟩

theorem parseTarget_eq (s : String) : parseTarget s =
    parseBody (!endsWith ['-'] s.toList) (if !endsWith ['-'] s.toList then s.toList else s.toList.dropLast) := rfl

/-- C07: `parse_target` accepts exactly the target texts whose version lies in [2.0, 4.0), and returns
their exactness and version. -/
theorem C07_parse_target_iff (s : String) (t : Target) :
    parseTarget s = some t ↔ TargetText s.toList t ∧ (⟨2, 0⟩ : Ver) ≤ t.2 ∧ t.2 < (⟨4, 0⟩ : Ver) := by
  rw [parseTarget_eq, parseBody_iff]
  rcases hd : endsWith ['-'] s.toList with _ | _
  · have hno : ∀ body, s.toList ≠ body ++ ['-'] := by
      intro body hb
      rw [endsWith_dash.mpr ⟨body, hb⟩] at hd; cases hd
    simp only [Bool.not_false, if_true, TargetText]
    constructor
    · rintro ⟨h1, h2, h3, h4⟩; exact ⟨.inr ⟨h1, hno, h2⟩, h3, h4⟩
    · rintro ⟨⟨_, body, hb, _⟩ | ⟨h1, _, h2⟩, h3, h4⟩
      · exact absurd hb (hno body)
      · exact ⟨h1, h2, h3, h4⟩
  · obtain ⟨body, hb⟩ := endsWith_dash.mp hd
    simp only [Bool.not_true, TargetText, hb, List.dropLast_concat, Bool.false_eq_true, if_false]
    constructor
    · rintro ⟨h1, h2, h3, h4⟩; exact ⟨.inl ⟨h1, body, rfl, h2⟩, h3, h4⟩
    · rintro ⟨⟨h1, b', he, h2⟩ | ⟨_, h2, _⟩, h3, h4⟩
      · rw [List.append_cancel_right he]; exact ⟨h1, h2, h3, h4⟩
      · exact absurd rfl (h2 body)

/-- How targets are printed (main.py:146 and the command line): `X.Y` followed by `-` if not exact. -/
def targetText (t : Target) : String :=
  String.ofList (strNat t.2.major ++ ['.'] ++ strNat t.2.minor ++ (if t.1 then [] else ['-']))

theorem no_sep_strNat (n : Nat) : ∀ c ∈ strNat n, c ≠ '.' ∧ c ≠ ',' := by
  intro c hc
  have := isDigit_of_mem_strNat hc
  constructor <;> (rintro rfl; revert this; decide)

/-- C07: printing a target and parsing it again gives the same target. -/
theorem C07_roundtrip (t : Target) (h1 : (⟨2, 0⟩ : Ver) ≤ t.2) (h2 : t.2 < (⟨4, 0⟩ : Ver)) :
    parseTarget (targetText t) = some t := by
  rw [C07_parse_target_iff]
  refine ⟨?_, h1, h2⟩
  obtain ⟨e, v⟩ := t
  have hbody : TargetBody (strNat v.major ++ '.' :: strNat v.minor) v :=
    .both (int_iff.mp (int_strNat _)) (int_iff.mp (int_strNat _)) (no_sep_strNat _) (no_sep_strNat _) (.inl rfl)
  cases e with
  | false =>
    left
    refine ⟨rfl, _, ?_, hbody⟩
    simp [targetText, String.toList_ofList]
  | true =>
    right
    refine ⟨rfl, ?_, ?_⟩
    · intro body hb
      simp only [targetText, String.toList_ofList, if_true, List.append_nil] at hb
      have hl : (strNat v.major ++ ['.'] ++ strNat v.minor).getLast? = some '-' := by rw [hb]; simp
      rw [List.getLast?_append] at hl
      cases hm : (strNat v.minor).getLast? with
      | none => rw [List.getLast?_eq_none_iff] at hm; exact strNat_ne_nil _ hm
      | some c =>
        rw [hm] at hl; simp at hl
        have := isDigit_of_mem_strNat (n := v.minor) (c := c) (List.mem_of_getLast? hm)
        rw [hl] at this; revert this; decide
    · simpa [targetText, String.toList_ofList] using hbody

/-- C07: every accepted target has major version 2 or 3. -/
theorem C07_range {s : String} {t : Target} (h : parseTarget s = some t) : t.2.major = 2 ∨ t.2.major = 3 := by
  have := ((C07_parse_target_iff s t).mp h).2
  simp only [Ver.le_def, Ver.lt_def] at this
  omega

example : parseTarget "2.7" = some (true, ⟨2, 7⟩) ∧ parseTarget "3,10-" = some (false, ⟨3, 10⟩) ∧
    parseTarget "3" = some (true, ⟨3, 0⟩) ∧ parseTarget "4.0" = none ∧ parseTarget "1.9" = none ∧
    parseTarget "3.x" = none ∧ parseTarget "3.1.2" = none ∧ parseTarget "" = none ∧
    parseTarget "3.-1" = none := by decide +kernel

/-! ### C08 -/

/-- Requirement `q` meets target `t`. -/
def Meets (q : Ver) (t : Target) : Prop := if t.1 then q = t.2 else q ≤ t.2

theorem get?_majToReq_of {reqs : List Ver} {d : Dict Nat Ver} {m : Nat} {v : Ver}
    (h : Dict.get? (reqs.foldl (fun d v => Dict.set d v.major v) d) m = some v) :
    v ∈ reqs ∧ v.major = m ∨ Dict.get? d m = some v := by
  induction reqs generalizing d with
  | nil => exact .inr h
  | cons q qs ih =>
    rcases ih h with h' | h'
    · exact .inl ⟨List.mem_cons_of_mem _ h'.1, h'.2⟩
    · rw [Dict.get?_set] at h'
      split at h'
      · rename_i hm; injection h' with h'; subst h'; exact .inl ⟨List.mem_cons_self, hm⟩
      · exact .inr h'

theorem get?_majToTarget_of {ts : List Target} {d : Dict Nat Target} {m : Nat} {t : Target}
    (h : Dict.get? (ts.foldl (fun d t => Dict.set d t.2.major t) d) m = some t) :
    t ∈ ts ∧ t.2.major = m ∨ Dict.get? d m = some t := by
  induction ts generalizing d with
  | nil => exact .inr h
  | cons q qs ih =>
    rcases ih h with h' | h'
    · exact .inl ⟨List.mem_cons_of_mem _ h'.1, h'.2⟩
    · rw [Dict.get?_set] at h'
      split at h'
      · rename_i hm; injection h' with h'; subst h'; exact .inl ⟨List.mem_cons_self, hm⟩
      · exact .inr h'

theorem isSome_majToReq {reqs : List Ver} {d : Dict Nat Ver} {m : Nat} :
    (Dict.get? (reqs.foldl (fun d v => Dict.set d v.major v) d) m).isSome ↔
      (∃ v ∈ reqs, v.major = m) ∨ (Dict.get? d m).isSome := by
  induction reqs generalizing d with
  | nil => simp
  | cons q qs ih =>
    rw [List.foldl_cons, ih, Dict.get?_set]
    by_cases h : q.major = m <;> simp [h]

theorem isSome_majToTarget {ts : List Target} {d : Dict Nat Target} {m : Nat} :
    (Dict.get? (ts.foldl (fun d t => Dict.set d t.2.major t) d) m).isSome ↔
      (∃ t ∈ ts, t.2.major = m) ∨ (Dict.get? d m).isSome := by
  induction ts generalizing d with
  | nil => simp
  | cons q qs ih =>
    rw [List.foldl_cons, ih, Dict.get?_set]
    by_cases h : q.2.major = m <;> simp [h]

theorem get?_majToReq {reqs : List Ver} (hd : ∀ a ∈ reqs, ∀ b ∈ reqs, a.major = b.major → a = b) {q : Ver}
    (hq : q ∈ reqs) : Dict.get? (majToReq reqs) q.major = some q := by
  have hs : (Dict.get? (majToReq reqs) q.major).isSome := isSome_majToReq.mpr (.inl ⟨q, hq, rfl⟩)
  obtain ⟨v, hv⟩ := Option.isSome_iff_exists.mp hs
  rcases get?_majToReq_of hv with ⟨h1, h2⟩ | h
  · rw [hv, hd v h1 q hq h2]
  · cases h

theorem get?_majToTarget {ts : List Target} (hd : ∀ a ∈ ts, ∀ b ∈ ts, a.2.major = b.2.major → a = b) {t : Target}
    (ht : t ∈ ts) : Dict.get? (majToTarget ts) t.2.major = some t := by
  have hs : (Dict.get? (majToTarget ts) t.2.major).isSome := isSome_majToTarget.mpr (.inl ⟨t, ht, rfl⟩)
  obtain ⟨v, hv⟩ := Option.isSome_iff_exists.mp hs
  rcases get?_majToTarget_of hv with ⟨h1, h2⟩ | h
  · rw [hv, hd v h1 t ht h2]
  · cases h

/-- What `compare_requirements` computes in general: there is a target, and for each target major the
dictionary entries (last requirement and last target of that major) match. -/
theorem compareRequirements_iff (reqs : List Ver) (ts : List Target) :
    compareRequirements reqs ts = true ↔ ts ≠ [] ∧ ∀ m t, Dict.get? (majToTarget ts) m = some t →
      ∃ q, Dict.get? (majToReq reqs) m = some q ∧ Meets q t := by
  have hcommon : ∀ k, k ∈ ((majToReq reqs).map (·.1)).filter (fun k => ((majToTarget ts).map (·.1)).contains k) ↔
      (Dict.get? (majToReq reqs) k).isSome ∧ (Dict.get? (majToTarget ts) k).isSome := by
    intro k
    rw [List.mem_filter, List.contains_iff_mem, Dict.mem_keys_iff, Dict.mem_keys_iff]
  simp only [compareRequirements]
  generalize hc : ((majToReq reqs).map (·.1)).filter (fun k => ((majToTarget ts).map (·.1)).contains k) = common
  rw [hc] at hcommon
  by_cases he : common.isEmpty
  · rw [if_pos he]
    simp only [Bool.false_eq_true, false_iff, not_and]
    intro hne hall
    cases ts with
    | nil => exact hne rfl
    | cons t ts =>
      have hs : (Dict.get? (majToTarget (t :: ts)) t.2.major).isSome :=
        isSome_majToTarget.mpr (.inl ⟨t, List.mem_cons_self, rfl⟩)
      obtain ⟨t', ht'⟩ := Option.isSome_iff_exists.mp hs
      obtain ⟨q, hq, _⟩ := hall _ _ ht'
      have : t.2.major ∈ common := (hcommon _).mpr ⟨by rw [hq]; rfl, hs⟩
      rw [List.isEmpty_iff] at he; rw [he] at this; cases this
  · rw [if_neg he]
    have hne : ts ≠ [] := by
      rintro rfl
      apply he
      rw [List.isEmpty_iff, List.eq_nil_iff_forall_not_mem]
      intro k hk
      have := ((hcommon k).mp hk).2
      simp [majToTarget, Dict.get?_nil] at this
    by_cases hm : (((majToTarget ts).map (·.1)).any fun k => !common.contains k) = true
    · rw [if_pos hm]
      simp only [Bool.false_eq_true, false_iff, not_and]
      intro _ hall
      rw [List.any_eq_true] at hm
      obtain ⟨k, hk1, hk2⟩ := hm
      rw [Dict.mem_keys_iff] at hk1
      obtain ⟨t, ht⟩ := Option.isSome_iff_exists.mp hk1
      obtain ⟨q, hq, _⟩ := hall k t ht
      have : k ∈ common := (hcommon k).mpr ⟨by rw [hq]; rfl, hk1⟩
      simp [this] at hk2
    · rw [if_neg hm]
      have hsub : ∀ k, (Dict.get? (majToTarget ts) k).isSome → k ∈ common := by
        intro k hk
        rw [← Dict.mem_keys_iff] at hk
        by_cases hkc : k ∈ common
        · exact hkc
        · exact absurd (List.any_eq_true.mpr ⟨k, hk, by simpa using hkc⟩) hm
      rw [List.all_eq_true]
      constructor
      · intro h
        refine ⟨hne, fun m t ht => ?_⟩
        have hmc := hsub m (by rw [ht]; rfl)
        obtain ⟨q, hq⟩ := Option.isSome_iff_exists.mp ((hcommon m).mp hmc).1
        refine ⟨q, hq, ?_⟩
        have := h m hmc
        rw [ht, hq] at this
        obtain ⟨e, v⟩ := t
        unfold Meets
        cases e with
        | true => simp at this; simp [this]
        | false => simp at this; simp; exact Ver.not_lt.mp this
      · rintro ⟨_, h⟩ m hmc
        obtain ⟨t, ht⟩ := Option.isSome_iff_exists.mp ((hcommon m).mp hmc).2
        obtain ⟨q, hq, hmeet⟩ := h m t ht
        rw [ht, hq]
        obtain ⟨e, v⟩ := t
        unfold Meets at hmeet
        cases e with
        | true => simp at hmeet; simp [hmeet]
        | false => simp at hmeet; simp; exact Ver.not_lt.mpr hmeet

/-- C08: with at most one requirement and target per major version, `compare_requirements` is true iff
there is a target and every target is met by the requirement of its major version. -/
theorem C08_compare_iff {reqs : List Ver} {ts : List Target}
    (hr : ∀ a ∈ reqs, ∀ b ∈ reqs, a.major = b.major → a = b)
    (ht : ∀ a ∈ ts, ∀ b ∈ ts, a.2.major = b.2.major → a = b) :
    compareRequirements reqs ts = true ↔
      ts ≠ [] ∧ ∀ t ∈ ts, ∃ q ∈ reqs, q.major = t.2.major ∧ Meets q t := by
  rw [compareRequirements_iff]
  refine and_congr_right fun _ => ⟨fun h t hmem => ?_, fun h m t hget => ?_⟩
  · obtain ⟨q, hq, hm⟩ := h _ _ (get?_majToTarget ht hmem)
    rcases get?_majToReq_of hq with ⟨h1, h2⟩ | h'
    · exact ⟨q, h1, h2, hm⟩
    · cases h'
  · rcases get?_majToTarget_of hget with ⟨h1, h2⟩ | h'
    · obtain ⟨q, hq1, hq2, hq3⟩ := h t h1
      refine ⟨q, ?_, hq3⟩
      rw [← h2, ← hq2]; exact get?_majToReq hr hq1
    · cases h'

example : compareRequirements [⟨2, 7⟩, ⟨3, 4⟩] [(true, ⟨2, 7⟩), (false, ⟨3, 6⟩)] = true ∧
    compareRequirements [⟨2, 7⟩, ⟨3, 4⟩] [(true, ⟨3, 6⟩)] = false ∧
    compareRequirements [⟨0, 0⟩, ⟨3, 4⟩] [(false, ⟨2, 7⟩)] = false := by decide +kernel

/-! ### C09 -/

/-- C09 is false: of two targets of the same major version only the last (larger) one counts. The
requirement 3.7 does not meet the exact target 3.4, yet the comparison succeeds. -/
theorem C09_false : ∃ (reqs : List Ver) (ts : List Target), (∃ t ∈ ts, ∀ q ∈ reqs, ¬ Meets q t) ∧
    compareRequirements reqs ts = true :=
  ⟨[⟨3, 7⟩], [(true, ⟨3, 4⟩), (true, ⟨3, 7⟩)], by
    refine ⟨⟨(true, ⟨3, 4⟩), by simp, ?_⟩, by decide +kernel⟩
    simp [Meets]⟩

/-- C09, what holds: if no two targets have the same major version, every target is honoured. -/
theorem C09_targets_honoured_partial {reqs : List Ver} {ts : List Target}
    (ht : ∀ a ∈ ts, ∀ b ∈ ts, a.2.major = b.2.major → a = b) (h : compareRequirements reqs ts = true) :
    ∀ t ∈ ts, ∃ q ∈ reqs, q.major = t.2.major ∧ Meets q t := by
  intro t hmem
  obtain ⟨q, hq, hm⟩ := ((compareRequirements_iff reqs ts).mp h).2 _ _ (get?_majToTarget ht hmem)
  rcases get?_majToReq_of hq with ⟨h1, h2⟩ | h'
  · exact ⟨q, h1, h2, hm⟩
  · cases h'

/-- … and in general, for each target some target of the same major version is honoured. -/
theorem C09_some_target_honoured_partial {reqs : List Ver} {ts : List Target}
    (h : compareRequirements reqs ts = true) :
    ∀ t ∈ ts, ∃ t' ∈ ts, t'.2.major = t.2.major ∧ ∃ q ∈ reqs, q.major = t.2.major ∧ Meets q t' := by
  intro t hmem
  have hs : (Dict.get? (majToTarget ts) t.2.major).isSome := isSome_majToTarget.mpr (.inl ⟨t, hmem, rfl⟩)
  obtain ⟨t', ht'⟩ := Option.isSome_iff_exists.mp hs
  obtain ⟨q, hq, hm⟩ := ((compareRequirements_iff reqs ts).mp h).2 _ _ ht'
  rcases get?_majToTarget_of ht' with ⟨h1, h2⟩ | h'
  · refine ⟨t', h1, h2, ?_⟩
    rcases get?_majToReq_of hq with ⟨h3, h4⟩ | h'
    · exact ⟨q, h3, h4, hm⟩
    · cases h'
  · cases h'

/-- The last element of its major version. -/
def LastOf {α : Type} (major : α → Nat) (l : List α) (x : α) : Prop := ∃ l₁ l₂, l = l₁ ++ x :: l₂ ∧ ∀ y ∈ l₂, major y ≠ major x

theorem lastOf_nil {α : Type} {f : α → Nat} {x : α} : ¬ LastOf f [] x := by
  rintro ⟨l₁, l₂, h, -⟩
  cases l₁ <;> cases h

theorem lastOf_snoc {α : Type} {f : α → Nat} {l : List α} {a x : α} :
    LastOf f (l ++ [a]) x ↔ x = a ∨ (LastOf f l x ∧ f a ≠ f x) := by
  constructor
  · rintro ⟨l₁, l₂, h, hn⟩
    rcases List.eq_nil_or_concat l₂ with rfl | ⟨l₂, b, rfl⟩
    · obtain ⟨-, h2⟩ := List.append_inj' h rfl
      cases h2; exact .inl rfl
    · rw [List.concat_eq_append, ← List.cons_append, ← List.append_assoc] at h
      obtain ⟨h1, h2⟩ := List.append_inj' h rfl
      cases h2
      exact .inr ⟨⟨l₁, l₂, h1, fun y hy => hn y (by simp [hy])⟩, hn _ (by simp)⟩
  · rintro (rfl | ⟨⟨l₁, l₂, rfl, hn⟩, ha⟩)
    · exact ⟨l, [], rfl, nofun⟩
    · refine ⟨l₁, l₂ ++ [a], by simp, fun y hy => ?_⟩
      rcases List.mem_append.mp hy with hy | hy
      · exact hn y hy
      · rw [List.mem_singleton.mp hy]; exact ha

theorem get?_last {α : Type} (f : α → Nat) (l : List α) (m : Nat) (x : α) :
    Dict.get? (l.foldl (fun d v => Dict.set d (f v) v) []) m = some x ↔ LastOf f l x ∧ f x = m := by
  have key : ∀ n, ∀ l : List α, l.length = n → ∀ x,
      (Dict.get? (l.foldl (fun d v => Dict.set d (f v) v) []) m = some x ↔ LastOf f l x ∧ f x = m) := by
    intro n
    induction n with
    | zero =>
      intro l hl x
      rw [List.length_eq_zero_iff] at hl
      subst hl
      exact ⟨fun h => (nomatch h), fun h => absurd h.1 lastOf_nil⟩
    | succ n ih =>
      intro l hl x
      obtain ⟨l, a, rfl⟩ : ∃ l' a, l = l' ++ [a] := ⟨l.dropLast, l.getLast (by rintro rfl; cases hl), (List.dropLast_concat_getLast _).symm⟩
      have hl : l.length = n := by simpa using hl
      rw [List.foldl_append, List.foldl_cons, List.foldl_nil, lastOf_snoc]
      by_cases h : f a = m
      · rw [← h, Dict.get?_set_self]
        constructor
        · intro e; cases e; exact ⟨.inl rfl, rfl⟩
        · rintro ⟨rfl | ⟨-, h1⟩, h2⟩
          · rfl
          · exact absurd h2.symm h1
      · rw [Dict.get?_set_ne _ _ (fun e => h e.symm), ih l hl]
        constructor
        · rintro ⟨h1, h2⟩; exact ⟨.inr ⟨h1, h2 ▸ h⟩, h2⟩
        · rintro ⟨rfl | ⟨h1, -⟩, h2⟩
          · exact absurd h2 h
          · exact ⟨h1, h2⟩
  exact key _ l rfl x

/-- **C09.** Exactly what is compared: there are targets, and for the last target of each major version the last requirement of that version meets it. -/
theorem C09_exact (reqs : List Ver) (ts : List Target) : compareRequirements reqs ts = true ↔
    ts ≠ [] ∧ ∀ t, LastOf (fun t : Target => t.2.major) ts t → ∃ q, LastOf Ver.major reqs q ∧ q.major = t.2.major ∧ Meets q t := by
  rw [compareRequirements_iff]
  refine and_congr_right fun _ => ⟨fun h t ht => ?_, fun h m t hm => ?_⟩
  · obtain ⟨q, hq, hm⟩ := h t.2.major t ((get?_last (fun t : Target => t.2.major) ts _ t).mpr ⟨ht, rfl⟩)
    obtain ⟨h1, h2⟩ := (get?_last Ver.major reqs _ q).mp hq
    exact ⟨q, h1, h2, hm⟩
  · obtain ⟨h1, h2⟩ := (get?_last (fun t : Target => t.2.major) ts m t).mp hm
    obtain ⟨q, h3, h4, h5⟩ := h t h1
    exact ⟨q, (get?_last Ver.major reqs m q).mpr ⟨h3, h4.trans h2⟩, h5⟩

end Vermin.Props
