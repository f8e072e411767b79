import Verif.Lemmas.Rules
import Verif.Props.RulesKeys
import Verif.Model.RulesMod
import Verif.Model.RulesMem
import Verif.Model.RulesKw
import Verif.Model.RulesSmall
/-
C12-C16: the rule tables and backports.  The checks over the complete tables are evaluations by the kernel, lifted to all
sets of backports by lemmas.
-/
namespace Vermin.Props
open Vermin Vermin.Py Vermin.Spec Vermin.Data

/-! ### C12 -/

/-- A py2 requirement in 2.0-2.7 or none, a py3 requirement in 3.0-3.12 or none, not both none. -/
def SaneRule (r : Req) : Prop :=
  (r.py2 = none ∨ ∃ m, m ≤ 7 ∧ r.py2 = some ⟨2, m⟩) ∧ (r.py3 = none ∨ ∃ m, m ≤ 12 ∧ r.py3 = some ⟨3, m⟩) ∧
    ¬ (r.py2 = none ∧ r.py3 = none)

def saneRuleB (r : Req) : Bool :=
  (match r.py2 with
    | none => true
    | some v => v.major == 2 && v.minor ≤ 7) &&
  (match r.py3 with
    | none => true
    | some v => v.major == 3 && v.minor ≤ 12) && (r.py2.isSome || r.py3.isSome)

theorem saneRule_of {r : Req} (h : saneRuleB r = true) : SaneRule r := by
  rcases r with ⟨_ | ⟨a, b⟩, _ | ⟨c, d⟩⟩ <;> simp_all [saneRuleB, SaneRule]

/-- An entry only has sane values. -/
def saneVal (v : RuleVal) : Bool := v.vals.all saneRuleB

theorem sane_eval {v : RuleVal} (h : saneVal v = true) (bps : List String) : SaneRule (v.eval bps) :=
  saneRule_of (List.all_eq_true.mp h _ (v.eval_mem bps))

theorem mod_sane : (modReqs.all fun e => e.1 == "typing_extensions" || saneVal e.2) = true := by decide +kernel
theorem mem_sane : (memReqs.all fun e => saneVal e.2) = true := by decide +kernel
theorem kw_sane : (kwReqs.all fun e => saneVal e.2) = true := by decide +kernel
theorem typing_extensions_val :
    (modReqs.all fun e => e.1 != "typing_extensions" ||
      match e.2 with
      | .bpv n d => n == "typing_extensions" && decide (d = Req.unknown)
      | _ => false) = true := by decide +kernel

/-- C12, modules: under every set of backports a module rule is sane; only `typing_extensions` without any of its backports
is (~2, ~3). -/
theorem C12_modules (bps : List String) {k : String} {v : RuleVal} (h : (k, v) ∈ modReqs) :
    SaneRule (v.eval bps) ∨ (k = "typing_extensions" ∧ v.eval bps = Req.unknown ∧
      "typing_extensions" ∉ bps ∧ "typing_extensions==4.3" ∉ bps ∧ "typing_extensions==4.0" ∉ bps) := by
  have h1 := List.all_eq_true.mp mod_sane _ h
  simp only [Bool.or_eq_true, beq_iff_eq] at h1
  rcases h1 with rfl | h1
  · have h2 := List.all_eq_true.mp typing_extensions_val _ h
    cases v with
    | const r => simp at h2
    | ifNotBp _ _ _ => simp at h2
    | bpv n d =>
      simp only [bne_self_eq_false, Bool.false_or, Bool.and_eq_true, beq_iff_eq, decide_eq_true_eq] at h2
      obtain ⟨rfl, rfl⟩ := h2
      have e : expandVersions "typing_extensions" =
          [("typing_extensions", r3 3 7), ("typing_extensions==4.3", r3 3 7), ("typing_extensions==4.0", r3 3 6)] := by
        decide +kernel
      simp only [RuleVal.eval, bpv, e, bpv.go, bp, List.contains_iff_mem]
      have s7 : SaneRule (r3 3 7) := saneRule_of rfl
      have s6 : SaneRule (r3 3 6) := saneRule_of rfl
      split
      · exact Or.inl s7
      · split
        · exact Or.inl s7
        · split
          · exact Or.inl s6
          · exact Or.inr ⟨trivial, rfl, by assumption, by assumption, by assumption⟩
  · exact Or.inl (sane_eval h1 bps)

/-- C12, members. -/
theorem C12_members (bps : List String) {k : String} {v : RuleVal} (h : (k, v) ∈ memReqs) : SaneRule (v.eval bps) :=
  sane_eval (List.all_eq_true.mp mem_sane _ h) bps

/-- C12, keyword arguments. -/
theorem C12_kwargs (bps : List String) {k : String × String} {v : RuleVal} (h : (k, v) ∈ kwReqs) :
    SaneRule (v.eval bps) :=
  sane_eval (List.all_eq_true.mp kw_sane _ h) bps

theorem small_sane : ([strftimeReqs, bytesReqs, arrayTypecodeReqs, codecsErrorHandlers, decoratorUserFunctions].all
    fun t => t.all fun e => saneRuleB e.2) = true := by decide +kernel
theorem enc_sane : (codecsEncodings.all fun e => saneRuleB e.2) = true := by decide +kernel

/-- C12, strftime and bytes directives, array type codes, codecs error handlers, decorators. -/
theorem C12_small {t : List (String × Req)}
    (ht : t ∈ [strftimeReqs, bytesReqs, arrayTypecodeReqs, codecsErrorHandlers, decoratorUserFunctions])
    {k : String} {r : Req} (h : (k, r) ∈ t) : SaneRule r :=
  saneRule_of (List.all_eq_true.mp (List.all_eq_true.mp small_sane _ ht) _ h)

/-- C12, codecs encodings. -/
theorem C12_encodings {k : EncKey} {r : Req} (h : (k, r) ∈ codecsEncodings) : SaneRule r :=
  saneRule_of (List.all_eq_true.mp enc_sane _ h)

/-- Every rule requirement is either sane in the sense of `Spec.Sane`, so that the order-independence theorems apply. -/
theorem SaneRule.sane {r : Req} (h : SaneRule r) : Sane r := by
  rcases r with ⟨_ | a, _ | b⟩ <;> simp_all [SaneRule, Sane]

example : ("asyncio", RuleVal.bpv "asyncio" (r3 3 4)) ∈ modReqs ∧
    (RuleVal.bpv "asyncio" (r3 3 4)).eval ["asyncio"] = r3 3 3 ∧ SaneRule (r3 3 3) := by
  refine ⟨?_, by decide +kernel, saneRule_of rfl⟩
  simp [modReqs, modReqsChunks, modReqs0]

/-! ### C13 -/

/-- C13: looking up a key in the dictionaries Python builds from the tables gives exactly the value written next to it. -/
theorem C13_lookup :
    (∀ k v, Dict.get? (dictDisplay modReqs) k = some v ↔ (k, v) ∈ modReqs) ∧
    (∀ k v, Dict.get? (dictDisplay memReqs) k = some v ↔ (k, v) ∈ memReqs) ∧
    (∀ k v, Dict.get? (dictDisplay kwReqs) k = some v ↔ (k, v) ∈ kwReqs) :=
  ⟨get?_dictDisplay C13_modules_nodup, get?_dictDisplay C13_members_nodup, get?_dictDisplay C13_kwargs_nodup⟩

theorem small_nodup : ([strftimeReqs, bytesReqs, arrayTypecodeReqs, codecsErrorHandlers, decoratorUserFunctions].all
    fun t => decide (t.map Prod.fst).Nodup) = true := by decide +kernel

/-- C13 for the small tables. -/
theorem C13_small {t : List (String × Req)}
    (ht : t ∈ [strftimeReqs, bytesReqs, arrayTypecodeReqs, codecsErrorHandlers, decoratorUserFunctions]) (k : String)
    (r : Req) : Dict.get? (dictDisplay t) k = some r ↔ (k, r) ∈ t :=
  get?_dictDisplay (by simpa using List.all_eq_true.mp small_nodup _ ht) k r

/-- With a repeated key the statement fails: the first entry is overridden. -/
example : Dict.get? (dictDisplay [("a", 1), ("b", 2), ("a", 3)]) "a" = some 3 := by decide +kernel

/-! ### C14 -/

def monoVal (v : RuleVal) : Bool := decide (v.vals.Pairwise fun a b => weakerB a b = true)

theorem mod_mono : (modReqs.all fun e => e.1 == "typing_extensions" || monoVal e.2) = true := by decide +kernel
theorem mem_mono : (memReqs.all fun e => monoVal e.2) = true := by decide +kernel
theorem kw_mono : (kwReqs.all fun e => monoVal e.2) = true := by decide +kernel

theorem eval_weaker {bps bps' : List String} (hsub : ∀ x ∈ bps, x ∈ bps') {v : RuleVal} (h : monoVal v = true) {w : Ver}
    (hw : Satisfies w (v.eval bps)) : Satisfies w (v.eval bps') :=
  satisfies_of_weakerB (RuleVal.eval_mono hsub (by simpa [monoVal] using h)) hw

/-- C14: with more backports enabled, every interpreter that satisfied a rule still does. -/
theorem C14_backports_never_raise {bps bps' : List String} (hsub : ∀ x ∈ bps, x ∈ bps') :
    (∀ k v, (k, v) ∈ modReqs → k ≠ "typing_extensions" → ∀ w, Satisfies w (v.eval bps) → Satisfies w (v.eval bps')) ∧
    (∀ k v, (k, v) ∈ memReqs → ∀ w, Satisfies w (v.eval bps) → Satisfies w (v.eval bps')) ∧
    (∀ k v, (k, v) ∈ kwReqs → ∀ w, Satisfies w (v.eval bps) → Satisfies w (v.eval bps')) := by
  refine ⟨fun k v h hk w hw => ?_, fun k v h w hw => ?_, fun k v h w hw => ?_⟩
  · have := List.all_eq_true.mp mod_mono _ h
    simp only [Bool.or_eq_true, beq_iff_eq] at this
    exact eval_weaker hsub (this.resolve_left hk) hw
  · exact eval_weaker hsub (List.all_eq_true.mp mem_mono _ h) hw
  · exact eval_weaker hsub (List.all_eq_true.mp kw_mono _ h) hw

/-- The exception in C14: 3.6 satisfies `typing_extensions` with backport 4.0 but not if the unversioned one is enabled as
well, nor does any 2.x once a backport is enabled. -/
theorem C14_typing_extensions :
    let v := RuleVal.bpv "typing_extensions" (rb 0 0 0 0)
    ("typing_extensions", v) ∈ modReqs ∧
    v.eval [] = rb 0 0 0 0 ∧ v.eval ["typing_extensions==4.0"] = r3 3 6 ∧
    v.eval ["typing_extensions==4.0", "typing_extensions"] = r3 3 7 := by
  refine ⟨?_, by decide +kernel, by decide +kernel, by decide +kernel⟩
  simp [modReqs, modReqsChunks, modReqs1]

example : ∃ w, Satisfies w ((RuleVal.bpv "enum" (r3 3 4)).eval ["enum"]) ∧ ¬ Satisfies w ((RuleVal.bpv "enum" (r3 3 4)).eval []) := by
  refine ⟨⟨2, 4⟩, Or.inl ⟨rfl, ⟨2, 4⟩, by decide +kernel, by decide⟩, ?_⟩
  have : (RuleVal.bpv "enum" (r3 3 4)).eval [] = r3 3 4 := by decide +kernel
  rw [this]
  rintro (⟨_, m, h, _⟩ | ⟨h, _⟩)
  · cases h
  · cases h

/-! ### C15 -/

/-- `row` is the backport `n` itself or a versioned variant `n==<version>` of it. -/
def Variant (row n : String) : Prop := row = n ∨ ∃ v : String, v ≠ "" ∧ row = n ++ "==" ++ v

/-- As test, for the names of the table. -/
def baseName (row : String) : String := String.ofList (row.toList.takeWhile (· != '='))

theorem table_bases : (backports.all fun r => versionFilter r.1 == baseName r.1 &&
    (r.1 == baseName r.1 || (String.ofList (r.1.toList.drop ((baseName r.1).length + 2)) != "" &&
      r.1 == baseName r.1 ++ "==" ++ String.ofList (r.1.toList.drop ((baseName r.1).length + 2))))) = true := by
  decide +kernel

theorem baseName_of_variant {row n : String} (hn : '=' ∉ n.toList) (h : Variant row n) : baseName row = n := by
  have hp : ∀ c ∈ n.toList, (c != '=') = true := by
    intro c hc; simp; rintro rfl; exact hn hc
  have key : ∀ s : List Char, (∀ c ∈ s, (c != '=') = true) → ∀ rest : List Char,
      (s ++ '=' :: rest).takeWhile (· != '=') = s ∧ s.takeWhile (· != '=') = s := by
    intro s hs rest
    induction s with
    | nil => simp
    | cons c s ih =>
      have hc := hs c (by simp)
      have := ih fun x hx => hs x (List.mem_cons_of_mem _ hx)
      simp only [List.cons_append, List.takeWhile_cons, hc, if_true, this.1, this.2, and_self]
  rcases h with rfl | ⟨v, _, rfl⟩
  · unfold baseName; rw [(key _ hp []).2, String.ofList_toList]
  · unfold baseName
    have : (n ++ "==" ++ v).toList = n.toList ++ '=' :: ('=' :: v.toList) := by simp
    rw [this, (key _ hp _).1, String.ofList_toList]

theorem versionFilter_iff {row : BackportRow} (hr : row ∈ backports) {n : String} (hn : '=' ∉ n.toList) :
    versionFilter row.1 = n ↔ Variant row.1 n := by
  have h := List.all_eq_true.mp table_bases _ hr
  simp only [Bool.and_eq_true, beq_iff_eq, Bool.or_eq_true, bne_iff_ne] at h
  rw [h.1]
  constructor
  · intro hb
    rw [hb] at h
    rcases h.2 with h2 | h2
    · exact Or.inl h2
    · exact Or.inr ⟨_, h2.1, h2.2⟩
  · exact baseName_of_variant hn

theorem bpv_go_spec (bps : List String) (d : Req) (rs : List BackportRow) :
    (∃ pre row post, rs = pre ++ row :: post ∧ row.1 ∈ bps ∧ (∀ r ∈ pre, r.1 ∉ bps) ∧ bpv.go bps d rs = row.2) ∨
    ((∀ r ∈ rs, r.1 ∉ bps) ∧ bpv.go bps d rs = d) := by
  induction rs with
  | nil => exact Or.inr ⟨by simp, rfl⟩
  | cons r rs ih =>
    rw [bpv.go]
    by_cases h : bp bps r.1 = true
    · refine Or.inl ⟨[], r, rs, rfl, by simpa [bp] using h, by simp, by rw [if_pos h]⟩
    · have hm : r.1 ∉ bps := by simpa [bp] using h
      rw [if_neg h]
      rcases ih with ⟨pre, row, post, rfl, h1, h2, h3⟩ | ⟨h1, h2⟩
      · refine Or.inl ⟨r :: pre, row, post, rfl, h1, ?_, h3⟩
        simp only [List.mem_cons]; rintro x (rfl | hx)
        · exact hm
        · exact h2 x hx
      · refine Or.inr ⟨?_, h2⟩
        simp only [List.mem_cons]; rintro x (rfl | hx)
        · exact hm
        · exact h1 x hx

theorem filter_split {α : Type} {p : α → Bool} {l : List α} {pre post : List α} {x : α} (h : l.filter p = pre ++ x :: post) :
    ∃ l1 l2, l = l1 ++ x :: l2 ∧ l1.filter p = pre ∧ l2.filter p = post ∧ p x = true := by
  induction l generalizing pre with
  | nil => simp at h
  | cons a l ih =>
    rw [List.filter_cons] at h
    split at h
    · rename_i hp
      cases pre with
      | nil =>
        simp only [List.nil_append, List.cons.injEq] at h
        exact ⟨[], l, by simp [h.1], rfl, h.2, h.1 ▸ hp⟩
      | cons y pre =>
        simp only [List.cons_append, List.cons.injEq] at h
        obtain ⟨l1, l2, e, h1, h2, h3⟩ := ih h.2
        exact ⟨a :: l1, l2, by simp [e], by rw [List.filter_cons, if_pos hp, h1, h.1], h2, h3⟩
    · rename_i hp
      obtain ⟨l1, l2, e, h1, h2, h3⟩ := ih h
      exact ⟨a :: l1, l2, by simp [e], by simp [hp, h1], h2, h3⟩

/-- C15: `bpv(n, default)` is the requirement of the last row of the table that is an enabled variant of `n`, otherwise
the default. -/
theorem C15_bpv_last_enabled (bps : List String) {n : String} (hn : '=' ∉ n.toList) (d : Req) :
    (∃ pre row post, backports = pre ++ row :: post ∧ Variant row.1 n ∧ row.1 ∈ bps ∧
      (∀ r ∈ post, Variant r.1 n → r.1 ∉ bps) ∧ bpv bps n d = row.2) ∨
    ((∀ r ∈ backports, Variant r.1 n → r.1 ∉ bps) ∧ bpv bps n d = d) := by
  rcases bpv_go_spec bps d (expandVersions n) with ⟨pre, row, post, h, h1, h2, h3⟩ | ⟨h1, h2⟩
  · left
    have hf : backports.filter (fun r => versionFilter r.1 == n) = post.reverse ++ row :: pre.reverse := by
      have := congrArg List.reverse h
      simpa [expandVersions] using this
    obtain ⟨l1, l2, e, _, e2, e3⟩ := filter_split hf
    refine ⟨l1, row, l2, e, ?_, h1, ?_, h3⟩
    · exact (versionFilter_iff (by rw [e]; simp) hn).mp (by simpa using e3)
    · intro r hr hv
      have hmem : r ∈ backports := by rw [e]; simp [hr]
      have : r ∈ l2.filter fun r => versionFilter r.1 == n :=
        List.mem_filter.mpr ⟨hr, by simpa using (versionFilter_iff hmem hn).mpr hv⟩
      rw [e2] at this
      exact h2 r (by simpa using this)
  · right
    refine ⟨fun r hr hv => h1 r ?_, h2⟩
    simp only [expandVersions, List.mem_reverse, List.mem_filter, hr, true_and, beq_iff_eq]
    exact (versionFilter_iff hr hn).mpr hv

/-- C15, the table: among the rows of one backport, the unversioned one is the last, and requirements never decrease, so
the unversioned one is never older than a versioned one. -/
theorem C15_table_order : backports.Pairwise fun r1 r2 => baseName r1.1 = baseName r2.1 →
    r1.1 ≠ baseName r1.1 ∧ weakerB r1.2 r2.2 = true := by decide +kernel

/-- C15, versioned variants are listed from oldest to newest (texts `major.minor` with one digit each). -/
theorem C15_versions_ascending : backports.Pairwise fun r1 r2 => baseName r1.1 = baseName r2.1 → r2.1 ≠ baseName r2.1 →
    leStr r1.1 r2.1 = true := by decide +kernel

/-- C15 for an unversioned backport that is enabled: its own requirement, whatever else is enabled. -/
theorem C15_unversioned_first {n : String} {r d : Req} (h : (n, r) ∈ backports) (hn : '=' ∉ n.toList)
    {bps : List String} (hb : n ∈ bps) : bpv bps n d = r := by
  have hbase : baseName n = n := baseName_of_variant hn (Or.inl rfl)
  have key : ∀ (pre post : List BackportRow) (x : BackportRow), backports = pre ++ x :: post → Variant x.1 n →
      (∀ y ∈ post, Variant y.1 n → y.1 ∉ bps) → x = (n, r) := by
    intro pre post x e hx hpost
    have hp := C15_table_order
    rw [e] at h hp
    rw [List.pairwise_append] at hp
    obtain ⟨_, hp2, hp3⟩ := hp
    rcases List.mem_append.mp h with h | h
    · have := hp3 _ h x (by simp) (by rw [hbase, baseName_of_variant hn hx])
      exact absurd hbase.symm this.1
    · rcases List.mem_cons.mp h with h | h
      · exact h.symm
      · exact absurd hb (hpost _ h (Or.inl rfl))
  rcases C15_bpv_last_enabled bps hn d with ⟨pre, row, post, e, h1, h2, h3, h4⟩ | ⟨h1, _⟩
  · rw [h4, key pre post row e h1 h3]
  · exact absurd hb (h1 _ h (Or.inl rfl))

example : bpv ["typing_extensions==4.0", "typing_extensions==4.3"] "typing_extensions" rn = r3 3 7 ∧
    bpv ["typing_extensions==4.0"] "typing_extensions" rn = r3 3 6 ∧ bpv ["enum"] "typing_extensions" rn = rn ∧
    ("enum", rb 2 4 3 3) ∈ backports ∧ '=' ∉ "enum".toList := by decide +kernel

/-! ### C16 -/

/-- The requirements a codecs encoding triggers (source_visitor.py:518-523). -/
def encodingReqs (e : String) : List Req :=
  (codecsEncodings.filter fun x => x.1.contains (String.ofList (lower e.toList))).map Prod.snd

/-- The encoding names written in the table. -/
def EncNames : EncKey → List String
  | .names l => l
  | .text s => [s]

/-- C16 is false: the texts `z2`, `e` and the empty text are no encoding names but trigger requirements, because four
table keys lack the comma that makes them tuples. -/
theorem C16_false : encodingReqs "z2" = [r3 3 4] ∧ encodingReqs "E" = [r3 3 4] ∧
    encodingReqs "" = [r3 3 4, r3 3 4, r3 3 4, r3 3 4] ∧
    (codecsEncodings.all fun x => !(EncNames x.1).contains "z2" && !(EncNames x.1).contains "") = true := by decide +kernel

theorem isSub_self (s : List Char) : isSub s s = true := by
  cases s with
  | nil => rfl
  | cons c s => simp [isSub]

theorem isSub_sublist_length {a : List Char} : ∀ {b : List Char}, isSub a b = true → a.length ≤ b.length
  | [], h => by simp_all [isSub]
  | c :: b, h => by
    simp only [isSub, Bool.or_eq_true, List.isPrefixOf_iff_prefix] at h
    rcases h with h | h
    · exact h.length_le
    · have := isSub_sublist_length h; simp; omega

theorem isSub_eq_of_length {a : List Char} : ∀ {b : List Char}, isSub a b = true → b.length ≤ a.length → a = b
  | [], h, _ => by simp_all [isSub]
  | c :: b, h, hl => by
    simp only [isSub, Bool.or_eq_true, List.isPrefixOf_iff_prefix] at h
    rcases h with h | h
    · exact h.eq_of_length (Nat.le_antisymm h.length_le hl)
    · have := isSub_sublist_length h; simp at hl; omega

theorem text_lengths : (codecsEncodings.all fun x => match x.1 with
    | .text s => decide (s.length ≤ 5)
    | .names _ => true) = true := by decide +kernel

/-- How a key of the table is matched: one of its names, or any part of a text. -/
def EncodedAs (e : String) : EncKey → Prop
  | .names l => e ∈ l
  | .text s => ∃ a b : List Char, s.toList = a ++ e.toList ++ b

theorem isSub_parts {a : List Char} : ∀ {b : List Char}, isSub a b = true ↔ ∃ x y, b = x ++ a ++ y
  | [] => by
    simp only [isSub, List.isEmpty_iff]
    refine ⟨fun h => ⟨[], [], by simp [h]⟩, fun ⟨x, y, h⟩ => ?_⟩
    have := congrArg List.length h
    simp at this
    exact List.length_eq_zero_iff.mp (by omega)
  | c :: b => by
    simp only [isSub, Bool.or_eq_true, List.isPrefixOf_iff_prefix]
    rw [isSub_parts]
    constructor
    · rintro (⟨t, h⟩ | ⟨x, y, h⟩)
      · exact ⟨[], t, by simpa using h.symm⟩
      · exact ⟨c :: x, y, by simp [h]⟩
    · rintro ⟨x, y, h⟩
      cases x with
      | nil => exact .inl ⟨y, by simpa using h.symm⟩
      | cons d x => injection h with h1 h2; exact .inr ⟨x, y, h2⟩

/-- **C16.** Exactly which requirements an encoding has, for all texts. -/
theorem C16_exact (e : String) (r : Req) :
    r ∈ encodingReqs e ↔ ∃ k, (k, r) ∈ codecsEncodings ∧ EncodedAs (String.ofList (lower e.toList)) k := by
  unfold encodingReqs
  rw [List.mem_map]
  have hk : ∀ k : EncKey, EncKey.contains (String.ofList (lower e.toList)) k = true ↔ EncodedAs (String.ofList (lower e.toList)) k := by
    intro k
    cases k with
    | names l => simp [EncKey.contains, EncodedAs]
    | text s => exact isSub_parts
  constructor
  · rintro ⟨⟨k, r⟩, h, rfl⟩
    obtain ⟨h1, h2⟩ := List.mem_filter.mp h
    exact ⟨k, h1, (hk k).mp h2⟩
  · rintro ⟨k, h1, h2⟩
    exact ⟨(k, r), List.mem_filter.mpr ⟨h1, (hk k).mpr h2⟩, rfl⟩

/-- C16, what holds: a listed encoding name triggers its rule, in every case; and an encoding of more than five characters
triggers exactly the rules that list it.  Missing: shorter texts, see `C16_false`. -/
theorem C16_encodings_partial (e : String) :
    (∀ k r, (k, r) ∈ codecsEncodings → String.ofList (lower e.toList) ∈ EncNames k → r ∈ encodingReqs e) ∧
    (5 < e.length → ∀ r, r ∈ encodingReqs e ↔
      ∃ k, (k, r) ∈ codecsEncodings ∧ String.ofList (lower e.toList) ∈ EncNames k) := by
  have h1 : ∀ k r, (k, r) ∈ codecsEncodings → String.ofList (lower e.toList) ∈ EncNames k → r ∈ encodingReqs e := by
    intro k r hk hm
    refine List.mem_map.mpr ⟨(k, r), List.mem_filter.mpr ⟨hk, ?_⟩, rfl⟩
    cases k with
    | names l => simpa [EncKey.contains, EncNames] using hm
    | text s =>
      simp only [EncNames, List.mem_singleton] at hm
      simp only [EncKey.contains, hm, isSub_self]
  refine ⟨h1, fun hl r => ⟨fun h => ?_, fun ⟨k, hk, hm⟩ => h1 k r hk hm⟩⟩
  obtain ⟨⟨k, r'⟩, hk, rfl⟩ := List.mem_map.mp h
  obtain ⟨hk, hc⟩ := List.mem_filter.mp hk
  refine ⟨k, hk, ?_⟩
  cases k with
  | names l => simpa [EncKey.contains, EncNames] using hc
  | text s =>
    simp only [EncKey.contains, String.toList_ofList] at hc
    have h5 := List.all_eq_true.mp text_lengths _ hk
    simp only [decide_eq_true_eq] at h5
    have := isSub_sublist_length hc
    simp only [lower, List.length_map, String.length_toList] at this
    omega

theorem names_lower : (codecsEncodings.all fun e => (EncNames e.1).all fun x => decide (String.ofList (lower x.toList) = x)) = true := by decide +kernel

/-- **C16.** No listed name is out of reach: every text that is the name, up to case, triggers its rule. -/
theorem C16_listed {k : EncKey} {r : Req} (hk : (k, r) ∈ codecsEncodings) {x : String} (hx : x ∈ EncNames k) {e : String}
    (he : lower e.toList = lower x.toList) : r ∈ encodingReqs e := by
  refine (C16_encodings_partial e).1 k r hk ?_
  rw [he, of_decide_eq_true (List.all_eq_true.mp (List.all_eq_true.mp names_lower _ hk) _ hx)]
  exact hx

example : encodingReqs "KOI8_T" = [r3 3 5] ∧ encodingReqs "base64_codec" = [r3 3 2] := by decide +kernel

end Vermin.Props
