import Verif.Model.Formats
import Verif.Props.Versions
/-
Output formats: C43.
-/
namespace Vermin.Props
open Vermin Vermin.Py Vermin.Spec

/-- The line is the six parts with five colons in between, of which the first five parts have no colon: the result of
`line.split(":", 5)`. -/
structure SplitFive (line a b c d e f : List Char) : Prop where
  eq : line = a ++ ':' :: (b ++ ':' :: (c ++ ':' :: (d ++ ':' :: (e ++ ':' :: f))))
  ha : ':' ∉ a
  hb : ':' ∉ b
  hc : ':' ∉ c
  hd : ':' ∉ d
  he : ':' ∉ e

/-- There is only one such split. -/
theorem SplitFive.unique {line a b c d e f a' b' c' d' e' f' : List Char} (h : SplitFive line a b c d e f)
    (h' : SplitFive line a' b' c' d' e' f') : a = a' ∧ b = b' ∧ c = c' ∧ d = d' ∧ e = e' ∧ f = f' := by
  have e0 := h.eq.symm.trans h'.eq
  obtain ⟨ea, e1⟩ := append_cons_inj h.ha h'.ha e0
  obtain ⟨eb, e2⟩ := append_cons_inj h.hb h'.hb e1
  obtain ⟨ec, e3⟩ := append_cons_inj h.hc h'.hc e2
  obtain ⟨ed, e4⟩ := append_cons_inj h.hd h'.hd e3
  obtain ⟨ee, ef⟩ := append_cons_inj h.he h'.he e4
  exact ⟨ea, eb, ec, ed, ee, ef⟩

/-- A number, or nothing. -/
def NumText : Option Nat → List Char
  | none => []
  | some n => Nat.toDigits 10 n

/-- The text of part `M` of a requirement: nothing without requirement, `!M` if excluded, `~M` if unknown, else `x.y`. -/
def PartText (M : Nat) : Option (Option Ver) → List Char
  | none => []
  | some none => '!' :: Nat.toDigits 10 M
  | some (some v) =>
    if v.major = 0 ∧ v.minor = 0 then '~' :: Nat.toDigits 10 M
    else Nat.toDigits 10 v.major ++ '.' :: Nat.toDigits 10 v.minor

/-- The message with each newline written as backslash and n. -/
def Escaped : List Char → List Char
  | [] => []
  | c :: s => if c = '\n' then '\\' :: 'n' :: Escaped s else c :: Escaped s

theorem escaped_eq (s : List Char) : replaceChar '\n' ['\\', 'n'] s = Escaped s := by
  induction s with
  | nil => rfl
  | cons c s ih =>
    rw [Escaped, ← ih]
    unfold replaceChar
    rw [List.flatMap_cons]
    by_cases h : c = '\n'
    · simp [h]
    · simp [h]

theorem newline_escaped (s : List Char) : '\n' ∉ Escaped s := by
  induction s with
  | nil => simp [Escaped]
  | cons c s ih =>
    unfold Escaped
    split
    · rintro h
      rcases List.mem_cons.mp h with h | h
      · revert h; decide
      · rcases List.mem_cons.mp h with h | h
        · revert h; decide
        · exact ih h
    · rename_i hc
      intro h
      rcases List.mem_cons.mp h with h | h
      · exact hc h.symm
      · exact ih h

theorem versionString_part (i : Nat) (o : Option Ver) : versionString i (VVal.ofOpt o) = PartText (i + 2) (some o) := by
  cases o with
  | none => rfl
  | some v =>
    obtain ⟨a, b⟩ := v
    unfold versionString PartText
    by_cases h : a = 0 ∧ b = 0
    · obtain ⟨rfl, rfl⟩ := h; rfl
    · have hz : (VVal.ofOpt (some (⟨a, b⟩ : Ver))).isZero = false := by
        simp only [VVal.ofOpt, VVal.isZero, Ver.zero, Ver.mk.injEq, decide_eq_false_iff_not]; exact h
      rw [hz]
      simp only [Bool.false_eq_true, if_false, h]
      simp [VVal.ofOpt, VVal.dotted, strNat]

theorem partText_free (c : Char) (h1 : isDigit c = false) (h2 : c ≠ '!') (h3 : c ≠ '~') (h4 : c ≠ '.') (M : Nat)
    (o : Option (Option Ver)) : c ∉ PartText M o := by
  have hn : ∀ n, c ∉ Nat.toDigits 10 n := fun n => not_mem_strNat h1
  match o with
  | none => simp [PartText]
  | some none => simp [PartText, hn, h2]
  | some (some v) =>
    simp only [PartText]
    split
    · simp [hn, h3]
    · simp [hn, h4]

/-- C43: for a path without colon, splitting a parsable line at its first five colons gives the path, the line, the column,
the two version parts and the escaped message. -/
theorem C43_split (msg path : Option String) (line col : Option Nat) (versions : Option Req)
    (hp : ':' ∉ (path.getD "").toList) :
    SplitFive (formatParsable msg path line col versions).toList (path.getD "").toList (NumText line) (NumText col)
      (PartText 2 (versions.map (·.py2))) (PartText 3 (versions.map (·.py3))) (Escaped (msg.getD "").toList) := by
  have hnum : ∀ o : Option Nat, optNat o = NumText o := by rintro (_ | n) <;> rfl
  have hcol : ∀ o : Option Nat, ':' ∉ NumText o := by
    rintro (_ | n)
    · simp [NumText]
    · exact not_mem_strNat (by decide)
  have hpart : ∀ M o, ':' ∉ PartText M o := partText_free ':' (by decide) (by decide) (by decide) (by decide)
  refine ⟨?_, hp, hcol _, hcol _, hpart _ _, hpart _ _⟩
  unfold formatParsable
  simp only [String.toList_ofList, escaped_eq, hnum]
  cases versions with
  | none => simp [PartText]
  | some r =>
    simp only [Option.map_some]
    have : (reqString r ":").toList = PartText 2 (some r.py2) ++ ':' :: PartText 3 (some r.py3) := by
      simp only [reqString, Req.vals, versionStringsFrom, versionString_part, String.toList_ofList]
      rw [if_neg (by decide)]
      simp [join]
    rw [this]
    simp

/-- C43: a parsable line is one line, if the path is. -/
theorem C43_one_line (msg path : Option String) (line col : Option Nat) (versions : Option Req)
    (hp : ':' ∉ (path.getD "").toList) (hn : '\n' ∉ (path.getD "").toList) :
    '\n' ∉ (formatParsable msg path line col versions).toList := by
  rw [(C43_split msg path line col versions hp).eq]
  have hcol : ∀ o : Option Nat, '\n' ∉ NumText o := by
    rintro (_ | n)
    · simp [NumText]
    · exact not_mem_strNat (by decide)
  have hpart : ∀ M o, '\n' ∉ PartText M o := partText_free '\n' (by decide) (by decide) (by decide) (by decide)
  simp only [List.mem_append, List.mem_cons, hn, hcol, hpart, newline_escaped, false_or, or_false]
  decide

theorem numText_inj {a b : Option Nat} (h : NumText a = NumText b) : a = b := by
  match a, b with
  | none, none => rfl
  | none, some n => exact absurd h.symm (strNat_ne_nil n)
  | some n, none => exact absurd h (strNat_ne_nil n)
  | some n, some m => exact congrArg some (strNat_inj h)

/-- C43: equal lines have equal paths, lines, columns and versions (and messages up to escaping). -/
theorem C43_injective {msg msg' path path' : Option String} {line line' col col' : Option Nat} {r r' : Req}
    (hp : ':' ∉ (path.getD "").toList) (hp' : ':' ∉ (path'.getD "").toList)
    (h : formatParsable msg path line col (some r) = formatParsable msg' path' line' col' (some r')) :
    path.getD "" = path'.getD "" ∧ line = line' ∧ col = col' ∧ r = r' ∧
      Escaped (msg.getD "").toList = Escaped (msg'.getD "").toList := by
  have s1 := C43_split msg path line col (some r) hp
  have s2 := C43_split msg' path' line' col' (some r') hp'
  rw [← h] at s2
  obtain ⟨ea, eb, ec, ed, ee, ef⟩ := s1.unique s2
  refine ⟨String.toList_injective ea, numText_inj eb, numText_inj ec, ?_, ef⟩
  have e2 : versionString 0 (VVal.ofOpt r.py2) = versionString 0 (VVal.ofOpt r'.py2) := by
    rw [versionString_part, versionString_part]; exact ed
  have e3 : versionString 1 (VVal.ofOpt r.py3) = versionString 1 (VVal.ofOpt r'.py3) := by
    rw [versionString_part, versionString_part]; exact ee
  exact Req.ext (versionString_inj _ e2) (versionString_inj _ e3)

/-- With a colon in the path the parts are shifted. -/
theorem C43_colon_in_path : ∃ line, formatParsable (some "m") (some "a:1") none none none = line ∧
    SplitFive line.toList ['a'] ['1'] [] [] [] ":m".toList :=
  ⟨_, rfl, by decide +kernel, by decide, by decide, by decide, by decide, by decide⟩

example : formatParsable (some "x\ny") (some "a.py") (some 3) (some 12) (some ⟨none, some ⟨3, 8⟩⟩) =
    "a.py:3:12:!2:3.8:x\\ny" := by decide +kernel

end Vermin.Props
