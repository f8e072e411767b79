import Verif.Lemmas.Minimum
import Verif.Lemmas.Sort
import Verif.Props.Versions
import Verif.Props.Rules
/-
`minimum_versions` and `output_text`: C31, C32, C38, C39, C41.
-/
namespace Vermin.Props
open Vermin Vermin.Py Vermin.Spec

/-! ### C32: exactly the combination of the findings -/

/-- The requirement the program is documented to enforce for each language feature. -/
def Enforced : Flag → Option Req
  | .printv2 => some ⟨some ⟨2, 0⟩, some ⟨0, 0⟩⟩
  | .longv2 => some ⟨some ⟨2, 0⟩, none⟩
  | .printv3 => some ⟨some ⟨2, 0⟩, some ⟨3, 0⟩⟩
  | .boolConst => some ⟨some ⟨2, 3⟩, some ⟨3, 0⟩⟩
  | .functionDecorators => some ⟨some ⟨2, 4⟩, some ⟨3, 0⟩⟩
  | .withStatement => some ⟨some ⟨2, 5⟩, some ⟨3, 0⟩⟩
  | .bytesv3 | .classDecorators => some ⟨some ⟨2, 6⟩, some ⟨3, 0⟩⟩
  | .bytesFormat => some ⟨some ⟨2, 6⟩, some ⟨3, 5⟩⟩
  | .format27 | .setLiterals | .setComp | .dictComp => some ⟨some ⟨2, 7⟩, some ⟨3, 0⟩⟩
  | .multiWithitem => some ⟨some ⟨2, 7⟩, some ⟨3, 1⟩⟩
  | .annotations | .kwOnlyArgs | .nonlocalStmt | .raiseCause | .unpackingAssignment | .ellipsisOutOfSlices | .superNoArgs
  | .metaclassClassKeyword => some ⟨none, some ⟨3, 0⟩⟩
  | .yieldFrom | .raiseFromNone => some ⟨none, some ⟨3, 3⟩⟩
  | .coroutines | .asyncFor | .asyncWithStatement | .matMult | .generalizedUnpacking | .bytearrayFormat => some ⟨none, some ⟨3, 5⟩⟩
  | .fstrings | .varAnnotations | .asyncGenerator => some ⟨none, some ⟨3, 6⟩⟩
  | .asyncComprehension | .awaitInComprehension => some ⟨none, some ⟨3, 7⟩⟩
  | .fstringsSelfDoc | .finalAnnotations | .literalAnnotations | .namedExprs | .posOnlyArgs | .continueInFinally
  | .modInversePow => some ⟨none, some ⟨3, 8⟩⟩
  | .withParentheses | .dictUnion | .dictUnionMerge | .builtinGenericTypeAnnotations | .relaxedDecorators =>
    some ⟨none, some ⟨3, 9⟩⟩
  | .patternMatching | .unionTypes => some ⟨none, some ⟨3, 10⟩⟩
  | .exceptStar => some ⟨none, some ⟨3, 11⟩⟩
  | .typeAliasStatement => some ⟨none, some ⟨3, 12⟩⟩
  | .moduleDirFunc | .moduleGetattrFunc | .maybeAnnotations => none

/-- The requirements of what was found: of each detected feature, and of each finding that has a rule. -/
inductive Requires (env : Env) (s : S) : Req → Prop
  | feature {f r} : s.has f = true → Enforced f = some r → Requires env s r
  | strftime {d r} : d ∈ s.strftime → env.tables.strftime d = some r → Requires env s r
  | bytesDir {d r} : d ∈ s.bytesDirs → env.tables.bytes d = some r → Requires env s r
  | typecode {d r} : d ∈ s.typecodes → env.tables.typecode d = some r → Requires env s r
  | errorHandler {n r} : Const.str n ∈ s.codecsErr → env.tables.errorHandler n = some r → Requires env s r
  | encoding {n k r} : Const.str n ∈ s.codecsEnc → (k, r) ∈ env.tables.encodings → EncKey.contains (lowerStr n) k = true →
      Requires env s r
  | module {m r} : m ∈ s.modules → env.tables.mod m = some r → Requires env s r
  | member {m r} : m ∈ s.members → env.tables.mem m = some r → Requires env s r
  | kwarg {k r} : k ∈ s.kwargs → env.tables.kw k = some r → Requires env s r
  | decorator {u r} : u ∈ s.userFuncDecos → env.tables.deco u = some r → Requires env s r

theorem features_enforced (f : Flag) (r : Req) :
    Enforced f = some r ↔ (f = .printv2 ∧ r = ⟨some ⟨2, 0⟩, some ⟨0, 0⟩⟩) ∨ (f = .printv3 ∧ r = ⟨some ⟨2, 0⟩, some ⟨3, 0⟩⟩) ∨
      ∃ x ∈ features, x.flag = f ∧ x.req = r := by
  constructor
  · intro h
    cases f <;> first
      | (injection h with h; subst h; decide)
      | cases h
  · rintro (⟨rfl, rfl⟩ | ⟨rfl, rfl⟩ | ⟨x, hx, rfl, rfl⟩)
    · rfl
    · rfl
    · have hall : ∀ x ∈ features, Enforced x.flag = some x.req := by decide
      exact hall x hx

theorem mem_flatMap_opt {α : Type} {l : List α} {t : α → Option Req} {r : Req} :
    r ∈ l.flatMap (fun d => (t d).toList) ↔ ∃ d ∈ l, t d = some r := by
  simp [List.mem_flatMap]

theorem Enforced_sane {f : Flag} {r : Req} (h : Enforced f = some r) : Sane r := by
  cases f <;> first
    | (injection h with h; subst h; simp [Sane]; done)
    | cases h

theorem encodingReqs_mem {n : String} {k : EncKey} {r : Req} (hb : k.contains (lowerStr n) = true) :
    r ∈ Vermin.encodingReqs (.str n) (k, r) := by
  show r ∈ (if k.contains (lowerStr n) then [r] else [])
  rw [if_pos hb]; simp

/-- The list the fold runs over has exactly the requirements of the findings. -/
theorem mem_allReqs (env : Env) (s : S) (r : Req) : r ∈ allReqs env s ↔ Requires env s r := by
  unfold allReqs entityReqs printReqs
  simp only [List.mem_append, List.mem_flatMap, Option.mem_toList]
  constructor
  · rintro ((h | h) | ⟨x, hx, h⟩ | ⟨d, hd, h⟩ | ⟨d, hd, h⟩ | ⟨d, hd, h⟩ | ⟨c, hc, h⟩ | ⟨c, hc, e, he, h⟩ | ⟨d, hd, h⟩ | ⟨d, hd, h⟩ |
      ⟨d, hd, h⟩ | ⟨d, hd, h⟩)
    · split at h
      · rename_i hb
        exact .feature (f := .printv2) hb (by simp at h; rw [h]; rfl)
      · cases h
    · split at h
      · rename_i hb
        exact .feature (f := .printv3) hb (by simp at h; rw [h]; rfl)
      · cases h
    · split at h
      · rename_i hb
        exact .feature hb ((features_enforced _ _).mpr (.inr (.inr ⟨x, hx, rfl, (List.mem_singleton.mp h).symm⟩)))
      · cases h
    · exact .strftime hd h
    · exact .bytesDir hd h
    · exact .typecode hd h
    · cases c with
      | str n => exact .errorHandler hc (Option.mem_toList.mp h)
      | _ => cases h
    · cases c with
      | str n =>
        replace h : r ∈ (if e.1.contains (lowerStr n) then [e.2] else []) := h
        split at h
        · rename_i hb
          obtain ⟨k, r'⟩ := e
          have : r = r' := by simpa using h
          subst this
          exact .encoding hc he hb
        · cases h
      | _ => cases h
    · exact .module hd h
    · exact .member hd h
    · exact .kwarg hd h
    · exact .decorator hd h
  · intro h
    cases h with
    | feature hf he =>
      rcases (features_enforced _ _).mp he with ⟨rfl, rfl⟩ | ⟨rfl, rfl⟩ | ⟨x, hx, rfl, rfl⟩
      · exact .inl (.inl (by simp [hf]))
      · exact .inl (.inr (by simp [hf]))
      · exact .inr (.inl ⟨x, hx, by simp [hf]⟩)
    | strftime hd h => exact .inr (.inr (.inl ⟨_, hd, h⟩))
    | bytesDir hd h => exact .inr (.inr (.inr (.inl ⟨_, hd, h⟩)))
    | typecode hd h => exact .inr (.inr (.inr (.inr (.inl ⟨_, hd, h⟩))))
    | errorHandler hd h => exact .inr (.inr (.inr (.inr (.inr (.inl ⟨_, hd, Option.mem_toList.mpr h⟩)))))
    | encoding hc he hb =>
      exact .inr (.inr (.inr (.inr (.inr (.inr (.inl ⟨_, hc, _, he, encodingReqs_mem hb⟩))))))
    | module hd h => exact .inr (.inr (.inr (.inr (.inr (.inr (.inr (.inl ⟨_, hd, h⟩)))))))
    | member hd h => exact .inr (.inr (.inr (.inr (.inr (.inr (.inr (.inr (.inl ⟨_, hd, h⟩))))))))
    | kwarg hd h => exact .inr (.inr (.inr (.inr (.inr (.inr (.inr (.inr (.inr (.inl ⟨_, hd, h⟩)))))))))
    | decorator hd h => exact .inr (.inr (.inr (.inr (.inr (.inr (.inr (.inr (.inr (.inr ⟨_, hd, h⟩)))))))))

theorem minimum_combine {env : Env} {s s' : S} {m : Req} (h : minimumVersions env s = .ok (s', m)) :
    combineAll env.cfg.ignoreIncomp none (allReqs env s) = .ok m := by
  rcases minimumVersions_spec env s with ⟨e, h', _⟩ | ⟨m', s'', hc, h', _⟩ | ⟨e, msg, _, h'⟩
  · rw [h'] at h; cases h
  · rw [h'] at h
    injection h with h
    injection h with _ h
    rw [← h]; exact hc
  · rw [h'] at h; cases h

/-- C32: the interpreters that satisfy the returned minimum are exactly those (of Python 2 and 3) that satisfy the
requirement of every finding. -/
theorem C32_satisfies {env : Env} {s s' : S} {m : Req} (h : minimumVersions env s = .ok (s', m)) (v : Ver) :
    Satisfies v m ↔ (v.major = 2 ∨ v.major = 3) ∧ ∀ r, Requires env s r → Satisfies v r := by
  rw [C04_satisfies_all (minimum_combine h) v]
  simp only [mem_allReqs]

/-- `m` is the largest of the versions given by `P`, or 0.0 if there are none. -/
def IsMax (P : Ver → Prop) (m : Ver) : Prop := (P m ∨ (m = ⟨0, 0⟩)) ∧ ∀ x, P x → x ≤ m

theorem joinAll_py2 : ∀ (l : List Req) (acc : Req), (joinAll acc l).py2 = none ↔ acc.py2 = none ∨ ∃ r ∈ l, r.py2 = none
  | [], acc => by simp [joinAll]
  | r :: l, acc => by
    show (joinAll (joinReq acc r) l).py2 = none ↔ _
    rw [joinAll_py2 l, joinReq_py2]; simp [or_assoc]
theorem joinAll_py3 : ∀ (l : List Req) (acc : Req), (joinAll acc l).py3 = none ↔ acc.py3 = none ∨ ∃ r ∈ l, r.py3 = none
  | [], acc => by simp [joinAll]
  | r :: l, acc => by
    show (joinAll (joinReq acc r) l).py3 = none ↔ _
    rw [joinAll_py3 l, joinReq_py3]; simp [or_assoc]

theorem ver_max_cases (a b : Ver) : a.max b = a ∨ a.max b = b := by
  by_cases h : a ≤ b
  · right; exact Ver.le_antisymm (Ver.max_le_iff.mpr ⟨h, Ver.le_refl _⟩) (Ver.max_le_iff.mp (Ver.le_refl _)).2
  · left
    have hba : b ≤ a := by
      rcases Ver.le_total a b with h' | h'
      · exact absurd h' h
      · exact h'
    exact Ver.le_antisymm (Ver.max_le_iff.mpr ⟨Ver.le_refl _, hba⟩) (Ver.max_le_iff.mp (Ver.le_refl _)).1

theorem joinAll_max2 : ∀ (l : List Req) (acc : Req) (m : Ver), (joinAll acc l).py2 = some m →
    (acc.py2 = some m ∨ ∃ r ∈ l, r.py2 = some m) ∧ (∀ x, acc.py2 = some x → x ≤ m) ∧ ∀ r ∈ l, ∀ x, r.py2 = some x → x ≤ m
  | [], acc, m, h => by
    refine ⟨.inl h, fun x hx => ?_, by simp⟩
    have : acc.py2 = some m := h
    rw [this] at hx; injection hx with hx; rw [hx]; exact Ver.le_refl _
  | r :: l, acc, m, h => by
    obtain ⟨h1, h2, h3⟩ := joinAll_max2 l (joinReq acc r) m h
    have hn : (joinReq acc r).py2 ≠ none := by
      intro hn
      have := (joinAll_py2 l (joinReq acc r)).mpr (.inl hn)
      have h' : (joinAll (joinReq acc r) l).py2 = some m := h
      rw [this] at h'; cases h'
    rw [ne_eq, joinReq_py2, not_or] at hn
    obtain ⟨a, ha⟩ := Option.ne_none_iff_exists'.mp hn.1
    obtain ⟨b, hb⟩ := Option.ne_none_iff_exists'.mp hn.2
    have hj : (joinReq acc r).py2 = some (a.max b) := by simp [joinReq, combineOpt, ha, hb]
    have hle := h2 _ hj
    rw [Ver.max_le_iff] at hle
    refine ⟨?_, fun x hx => ?_, fun y hy x hx => ?_⟩
    · rcases h1 with h1 | ⟨y, hy, h1⟩
      · rw [hj] at h1; injection h1 with h1
        rcases ver_max_cases a b with e | e
        · left; rw [ha, ← h1, e]
        · right; exact ⟨r, by simp, by rw [hb, ← h1, e]⟩
      · exact .inr ⟨y, by simp [hy], h1⟩
    · rw [ha] at hx; injection hx with hx; rw [← hx]; exact hle.1
    · rcases List.mem_cons.mp hy with rfl | hy
      · rw [hb] at hx; injection hx with hx; rw [← hx]; exact hle.2
      · exact h3 y hy x hx

theorem joinAll_max3 : ∀ (l : List Req) (acc : Req) (m : Ver), (joinAll acc l).py3 = some m →
    (acc.py3 = some m ∨ ∃ r ∈ l, r.py3 = some m) ∧ (∀ x, acc.py3 = some x → x ≤ m) ∧ ∀ r ∈ l, ∀ x, r.py3 = some x → x ≤ m
  | [], acc, m, h => by
    refine ⟨.inl h, fun x hx => ?_, by simp⟩
    have : acc.py3 = some m := h
    rw [this] at hx; injection hx with hx; rw [hx]; exact Ver.le_refl _
  | r :: l, acc, m, h => by
    obtain ⟨h1, h2, h3⟩ := joinAll_max3 l (joinReq acc r) m h
    have hn : (joinReq acc r).py3 ≠ none := by
      intro hn
      have := (joinAll_py3 l (joinReq acc r)).mpr (.inl hn)
      have h' : (joinAll (joinReq acc r) l).py3 = some m := h
      rw [this] at h'; cases h'
    rw [ne_eq, joinReq_py3, not_or] at hn
    obtain ⟨a, ha⟩ := Option.ne_none_iff_exists'.mp hn.1
    obtain ⟨b, hb⟩ := Option.ne_none_iff_exists'.mp hn.2
    have hj : (joinReq acc r).py3 = some (a.max b) := by simp [joinReq, combineOpt, ha, hb]
    have hle := h2 _ hj
    rw [Ver.max_le_iff] at hle
    refine ⟨?_, fun x hx => ?_, fun y hy x hx => ?_⟩
    · rcases h1 with h1 | ⟨y, hy, h1⟩
      · rw [hj] at h1; injection h1 with h1
        rcases ver_max_cases a b with e | e
        · left; rw [ha, ← h1, e]
        · right; exact ⟨r, by simp, by rw [hb, ← h1, e]⟩
      · exact .inr ⟨y, by simp [hy], h1⟩
    · rw [ha] at hx; injection hx with hx; rw [← hx]; exact hle.1
    · rcases List.mem_cons.mp hy with rfl | hy
      · rw [hb] at hx; injection hx with hx; rw [← hx]; exact hle.2
      · exact h3 y hy x hx

/-- C32: each part of the minimum is "incompatible" iff that of some finding is, and otherwise the largest version among
the findings (0.0 if there are none). -/
theorem C32_parts {env : Env} {s s' : S} {m : Req} (h : minimumVersions env s = .ok (s', m)) :
    (m.py2 = none ↔ ∃ r, Requires env s r ∧ r.py2 = none) ∧ (m.py3 = none ↔ ∃ r, Requires env s r ∧ r.py3 = none) ∧
    (∀ v, m.py2 = some v → IsMax (fun x => ∃ r, Requires env s r ∧ r.py2 = some x) v) ∧
    (∀ v, m.py3 = some v → IsMax (fun x => ∃ r, Requires env s r ∧ r.py3 = some x) v) := by
  have hm := combineFrom_ok (minimum_combine h)
  subst hm
  refine ⟨?_, ?_, fun v hv => ?_, fun v hv => ?_⟩
  · rw [joinAll_py2]; simp only [mem_allReqs]; simp [Req.unknown]
  · rw [joinAll_py3]; simp only [mem_allReqs]; simp [Req.unknown]
  · obtain ⟨h1, _, h3⟩ := joinAll_max2 _ _ _ hv
    refine ⟨?_, fun x ⟨r, hr, hx⟩ => h3 r ((mem_allReqs env s r).mpr hr) x hx⟩
    rcases h1 with h1 | ⟨r, hr, h1⟩
    · right; injection h1 with h1; exact h1.symm
    · left; exact ⟨r, (mem_allReqs env s r).mp hr, h1⟩
  · obtain ⟨h1, _, h3⟩ := joinAll_max3 _ _ _ hv
    refine ⟨?_, fun x ⟨r, hr, hx⟩ => h3 r ((mem_allReqs env s r).mpr hr) x hx⟩
    rcases h1 with h1 | ⟨r, hr, h1⟩
    · right; injection h1 with h1; exact h1.symm
    · left; exact ⟨r, (mem_allReqs env s r).mp hr, h1⟩

/-- C32: if no rule excludes both majors, violations mode has targets and the encodings found are strings,
`minimum_versions` raises iff some finding needs Python 2 and some finding needs Python 3 (and that is not ignored), and
then it raises `InvalidVersionException`. -/
theorem C32_raises {env : Env} {s : S} (ht : TargetsOk env) (he : EncodingsOk s) (hs : ∀ r, Requires env s r → Sane r) :
    ((∃ e, minimumVersions env s = .error e) ↔
      env.cfg.ignoreIncomp = false ∧ (∃ a, Requires env s a ∧ Py2Only a) ∧ (∃ b, Requires env s b ∧ Py3Only b)) ∧
    ∀ e, minimumVersions env s = .error e → ∃ msg, e = .invalidVersion msg := by
  have hs' : ∀ r ∈ allReqs env s, Sane r := fun r hr => hs r ((mem_allReqs env s r).mp hr)
  have key := C03_error_iff env.cfg.ignoreIncomp none hs'
  simp only [mem_allReqs] at key
  rcases minimumVersions_spec env s with ⟨e, h', hc⟩ | ⟨m', s'', hc, h', _⟩ | ⟨e, msg, hc, h'⟩
  · exact absurd hc (minimumVersions_safe ht he h')
  · rw [← key]
    refine ⟨⟨?_, ?_⟩, ?_⟩
    · rintro ⟨e, he⟩; rw [h'] at he; cases he
    · rintro ⟨e, he⟩; rw [hc] at he; cases he
    · intro e he; rw [h'] at he; cases he
  · rw [← key]
    refine ⟨⟨fun _ => ⟨e, hc⟩, fun _ => ⟨_, h'⟩⟩, fun e' he' => ?_⟩
    rw [h'] at he'; injection he' with he'; exact ⟨msg, he'.symm⟩

theorem std_mem_sane (cfg : Config) {k : String} {r : Req} (h : (Tables.std cfg).mem k = some r) : Sane r := by
  simp only [Tables.std] at h
  cases hv : Dict.get? (dictDisplay Data.memReqs) k with
  | none => rw [hv] at h; cases h
  | some v =>
    rw [hv] at h
    injection h with h
    rw [← h]
    exact (C12_members _ ((C13_lookup.2.1 _ _).mp hv)).sane
theorem std_kw_sane (cfg : Config) {f k : String} {r : Req} (h : (Tables.std cfg).kw (f, some k) = some r) : Sane r := by
  simp only [Tables.std] at h
  cases hv : Dict.get? (dictDisplay Data.kwReqs) (f, k) with
  | none => rw [hv] at h; cases h
  | some v =>
    rw [hv] at h
    injection h with h
    rw [← h]
    exact (C12_kwargs _ ((C13_lookup.2.2 _ _).mp hv)).sane
/-- With the tables of rules.py no requirement of a finding excludes both majors. -/
theorem requires_sane {env : Env} (ht : env.tables = Tables.std env.cfg) {s : S} {r : Req} (h : Requires env s r) : Sane r := by
  have small : ∀ {t : List (String × Req)} {k : String},
      t ∈ [Data.strftimeReqs, Data.bytesReqs, Data.arrayTypecodeReqs, Data.codecsErrorHandlers, Data.decoratorUserFunctions] →
      Dict.get? (dictDisplay t) k = some r → Sane r := fun ht h => (C12_small ht ((C13_small ht _ _).mp h)).sane
  cases h with
  | feature _ he => exact Enforced_sane he
  | strftime _ h => rw [ht] at h; exact small (.head _) h
  | bytesDir _ h => rw [ht] at h; exact small (.tail _ (.head _)) h
  | typecode _ h => rw [ht] at h; exact small (.tail _ (.tail _ (.head _))) h
  | errorHandler _ h => rw [ht] at h; exact small (.tail _ (.tail _ (.tail _ (.head _)))) h
  | encoding _ he _ => rw [ht] at he; exact (C12_encodings he).sane
  | module _ h =>
    rw [ht] at h
    obtain ⟨v, hv, rfl⟩ := Option.map_eq_some_iff.mp h
    rcases C12_modules env.cfg.backports ((C13_lookup.1 _ _).mp hv) with h | ⟨_, h, _⟩
    · exact h.sane
    · rw [h]; exact sane_unknown
  | member _ h =>
    rw [ht] at h
    exact std_mem_sane _ h
  | @kwarg k _ _ h =>
    rw [ht] at h
    obtain ⟨f, k⟩ := k
    cases k with
    | none => cases h
    | some k =>
      exact std_kw_sane _ h
  | decorator _ h => rw [ht] at h; exact small (.tail _ (.tail _ (.tail _ (.tail _ (.head _))))) h

/-- C32 for the program's own tables: `minimum_versions` raises iff findings conflict. -/
theorem C32_raises_std {env : Env} {s : S} (htab : env.tables = Tables.std env.cfg) (ht : TargetsOk env) (he : EncodingsOk s) :
    ((∃ e, minimumVersions env s = .error e) ↔
      env.cfg.ignoreIncomp = false ∧ (∃ a, Requires env s a ∧ Py2Only a) ∧ (∃ b, Requires env s b ∧ Py3Only b)) ∧
    ∀ e, minimumVersions env s = .error e → ∃ msg, e = .invalidVersion msg :=
  C32_raises ht he fun _ hr => requires_sane htab hr

/-- A small environment. -/
def exampleEnv (cfg : Config) : Env :=
  { cfg := cfg, path := "a.py", source := none, noLines := [], dump := fun _ => "", order := id
    tables :=
      { mod := fun m => if m = "argparse" then some ⟨some ⟨2, 7⟩, some ⟨3, 2⟩⟩ else none
        mem := fun m => if m = "long.x" then some ⟨some ⟨2, 5⟩, none⟩ else none
        kw := fun _ => none, strftime := fun _ => none, bytes := fun _ => none, typecode := fun _ => none
        errorHandler := fun _ => none, encodings := [(.names ["utf8", "u8"], ⟨some ⟨2, 3⟩, some ⟨3, 0⟩⟩)], deco := fun _ => none
        errorsIndex := fun _ => none, encodingsIndices := fun _ => none, genericTypes := [], dictUnion := []
        dictUnionMerge := [] } }

/-- A state with findings. -/
def exampleState : S := { S.init with flags := [.fstrings, .withStatement], modules := ["argparse", "os"], codecsEnc := [.str "UTF8"] }

/-- Example: f-strings, `with`, `argparse` and an encoding need 3.6. -/
theorem C32_witness :
    (∃ s', minimumVersions (exampleEnv (Config.init 1)) exampleState = .ok (s', ⟨none, some ⟨3, 6⟩⟩)) ∧
    (∃ msg, minimumVersions (exampleEnv (Config.init 1)) { exampleState with members := ["long.x"] } = .error (.invalidVersion msg)) :=
  ⟨⟨_, rfl⟩, ⟨_, rfl⟩⟩

/-! ### C31: documented versions -/

/-- The versions in which Python introduced the features, by its documentation: "What's New in Python X.Y" and the language
reference. -/
def Introduced : Flag → Option Req
  | .longv2 => some ⟨some ⟨2, 0⟩, none⟩                                 -- removed in 3.0
  | .boolConst => some ⟨some ⟨2, 3⟩, some ⟨3, 0⟩⟩                       -- PEP 285
  | .functionDecorators => some ⟨some ⟨2, 4⟩, some ⟨3, 0⟩⟩              -- PEP 318
  | .withStatement => some ⟨some ⟨2, 5⟩, some ⟨3, 0⟩⟩                   -- PEP 343
  | .bytesv3 => some ⟨some ⟨2, 6⟩, some ⟨3, 0⟩⟩                         -- PEP 3112
  | .classDecorators => some ⟨some ⟨2, 6⟩, some ⟨3, 0⟩⟩                 -- PEP 3129
  | .format27 => some ⟨some ⟨2, 7⟩, some ⟨3, 1⟩⟩                        -- automatic numbering of fields
  | .setLiterals | .setComp | .dictComp => some ⟨some ⟨2, 7⟩, some ⟨3, 0⟩⟩
  | .multiWithitem => some ⟨some ⟨2, 7⟩, some ⟨3, 1⟩⟩
  | .annotations => some ⟨none, some ⟨3, 0⟩⟩                            -- PEP 3107
  | .kwOnlyArgs => some ⟨none, some ⟨3, 0⟩⟩                             -- PEP 3102
  | .nonlocalStmt => some ⟨none, some ⟨3, 0⟩⟩                           -- PEP 3104
  | .raiseCause => some ⟨none, some ⟨3, 0⟩⟩                             -- PEP 3134
  | .unpackingAssignment => some ⟨none, some ⟨3, 0⟩⟩                    -- PEP 3132
  | .ellipsisOutOfSlices => some ⟨none, some ⟨3, 0⟩⟩
  | .superNoArgs => some ⟨none, some ⟨3, 0⟩⟩                            -- PEP 3135
  | .metaclassClassKeyword => some ⟨none, some ⟨3, 0⟩⟩                  -- PEP 3115
  | .yieldFrom => some ⟨none, some ⟨3, 3⟩⟩                              -- PEP 380
  | .raiseFromNone => some ⟨none, some ⟨3, 3⟩⟩                          -- PEP 409
  | .coroutines | .asyncFor | .asyncWithStatement => some ⟨none, some ⟨3, 5⟩⟩   -- PEP 492
  | .matMult => some ⟨none, some ⟨3, 5⟩⟩                                -- PEP 465
  | .generalizedUnpacking => some ⟨none, some ⟨3, 5⟩⟩                   -- PEP 448
  | .bytesFormat => some ⟨some ⟨2, 6⟩, some ⟨3, 5⟩⟩                     -- PEP 461
  | .bytearrayFormat => some ⟨none, some ⟨3, 5⟩⟩                        -- PEP 461
  | .fstrings => some ⟨none, some ⟨3, 6⟩⟩                               -- PEP 498
  | .varAnnotations => some ⟨none, some ⟨3, 6⟩⟩                         -- PEP 526
  | .asyncGenerator => some ⟨none, some ⟨3, 6⟩⟩                         -- PEP 525
  | .asyncComprehension | .awaitInComprehension => some ⟨none, some ⟨3, 6⟩⟩   -- PEP 530
  | .fstringsSelfDoc => some ⟨none, some ⟨3, 8⟩⟩
  | .finalAnnotations => some ⟨none, some ⟨3, 8⟩⟩                       -- PEP 591
  | .literalAnnotations => some ⟨none, some ⟨3, 8⟩⟩                     -- PEP 586
  | .namedExprs => some ⟨none, some ⟨3, 8⟩⟩                             -- PEP 572
  | .posOnlyArgs => some ⟨none, some ⟨3, 8⟩⟩                            -- PEP 570
  | .continueInFinally => some ⟨none, some ⟨3, 8⟩⟩
  | .modInversePow => some ⟨none, some ⟨3, 8⟩⟩
  | .withParentheses => some ⟨none, some ⟨3, 9⟩⟩   -- accepted by the PEG parser of 3.9, official in 3.10
  | .dictUnion | .dictUnionMerge => some ⟨none, some ⟨3, 9⟩⟩            -- PEP 584
  | .builtinGenericTypeAnnotations => some ⟨none, some ⟨3, 9⟩⟩          -- PEP 585
  | .relaxedDecorators => some ⟨none, some ⟨3, 9⟩⟩                      -- PEP 614
  | .patternMatching => some ⟨none, some ⟨3, 10⟩⟩                       -- PEP 634
  | .unionTypes => some ⟨none, some ⟨3, 10⟩⟩                            -- PEP 604
  | .exceptStar => some ⟨none, some ⟨3, 11⟩⟩                            -- PEP 654
  | .typeAliasStatement => some ⟨none, some ⟨3, 12⟩⟩                    -- PEP 695
  | _ => none

theorem mem_features {f : Flag} {r : Req} (h : Introduced f = some r) (hf : f ≠ .format27) :
    ∃ q, Enforced f = some q ∧ ∀ v, Satisfies v q → Satisfies v r := by
  have key : ∀ a b : Req, (a.py2 = b.py2) → (a.py3 = b.py3 ∨ (a.py3 = some ⟨3, 7⟩ ∧ b.py3 = some ⟨3, 6⟩)) →
      ∀ v, Satisfies v a → Satisfies v b := by
    rintro ⟨a2, a3⟩ ⟨b2, b3⟩ h2 h3 v hv
    simp only at h2 h3
    subst h2
    rcases h3 with rfl | ⟨rfl, rfl⟩
    · exact hv
    · rcases hv with hv | ⟨hv, m, hm, hle⟩
      · exact .inl hv
      · injection hm with hm
        subst hm
        exact .inr ⟨hv, _, rfl, Ver.le_trans (by decide) hle⟩
  have hr : r = (Introduced f).getD r := by rw [h]; rfl
  cases f <;> first
    | exact absurd rfl hf
    | (injection h with h; subst h; exact ⟨_, rfl, key _ _ rfl (by decide)⟩)
    | cases h

/-- C31: if a feature was detected and a minimum is returned, every interpreter that satisfies the minimum has the feature.
Missing: `format27`, see `C31_false_format27`. -/
theorem C31_documented_partial {env : Env} {s s' : S} {m : Req} (h : minimumVersions env s = .ok (s', m)) {f : Flag} {r : Req}
    (hf : s.has f = true) (hr : Introduced f = some r) (hne : f ≠ .format27) {v : Ver} (hv : Satisfies v m) : Satisfies v r := by
  obtain ⟨q, hq, hle⟩ := mem_features hr hne
  exact hle v (((C32_satisfies h v).mp hv).2 q (.feature hf hq))

/-- What C31 leaves out holds for Python 2, and for Python 3 up to the version 3.0. -/
theorem C31_format27 {env : Env} {s s' : S} {m : Req} (h : minimumVersions env s = .ok (s', m)) (hf : s.has .format27 = true)
    {v : Ver} (hv : Satisfies v m) : Satisfies v ⟨some ⟨2, 7⟩, some ⟨3, 0⟩⟩ :=
  ((C32_satisfies h v).mp hv).2 _ (.feature hf rfl)

/-- Automatically numbered fields came with 3.1, but 3.0 satisfies the minimum reported for them. -/
theorem C31_false_format27 : ∃ s s' m, minimumVersions (exampleEnv (Config.init 1)) s = .ok (s', m) ∧ s.has .format27 = true ∧
    Satisfies ⟨3, 0⟩ m ∧ ¬ ∃ r, Introduced .format27 = some r ∧ Satisfies ⟨3, 0⟩ r := by
  refine ⟨S.init.set .format27, _, _, rfl, rfl, ?_, ?_⟩
  · exact .inr ⟨rfl, _, rfl, by decide⟩
  · rintro ⟨r, hr, h⟩
    injection hr with hr; subst hr
    rcases h with ⟨h, _⟩ | ⟨_, m, hm, hle⟩
    · exact absurd h (by decide)
    · injection hm with hm; subst hm
      exact absurd hle (by decide)

/-- Every feature except the markers has a documented version, but for `print`. -/
theorem C31_complete (f : Flag) : Introduced f = none ↔ f ∈ [.printv2, .printv3, .moduleDirFunc, .moduleGetattrFunc, .maybeAnnotations] := by
  cases f <;> decide

/-! ### C38: repeated calls -/

/-- `minimum_versions` called `n + 1` times: the last state and result. -/
def repeatMin (env : Env) : Nat → S → Except Err (S × Req)
  | 0, s => minimumVersions env s
  | n + 1, s =>
    match minimumVersions env s with
    | .ok (s', _) => repeatMin env n s'
    | .error e => .error e

theorem distinct_mem {x : String} : ∀ {l : List String}, x ∈ distinct l ↔ x ∈ l
  | [] => by simp [distinct]
  | y :: l => by
    simp only [distinct, List.mem_cons, List.mem_filter, distinct_mem (l := l), bne_iff_ne]
    constructor
    · rintro (h | h)
      · exact .inl h
      · exact .inr h.1
    · rintro (h | h)
      · exact .inl h
      · by_cases e : x = y
        · exact .inl e
        · exact .inr ⟨h, e⟩

theorem distinct_nodup : ∀ l : List String, (distinct l).Nodup
  | [] => by simp [distinct]
  | y :: l => by
    rw [distinct, List.nodup_cons]
    exact ⟨by simp [List.mem_filter], (distinct_nodup l).filter _⟩

theorem distinct_append_filter : ∀ (a b : List String) (p : String → Bool), (∀ y ∈ b, p y = true → y ∈ a) →
    (distinct (a ++ b)).filter p = (distinct a).filter p
  | [], b, p, h => by
    show (distinct b).filter p = []
    rw [List.filter_eq_nil_iff]
    intro y hy hp
    cases h y (distinct_mem.mp hy) hp
  | z :: a, b, p, h => by
    have ih := distinct_append_filter a b (fun y => p y && y != z) (fun y hy hp => by
      simp only [Bool.and_eq_true, bne_iff_ne, ne_eq] at hp
      rcases List.mem_cons.mp (h y hy hp.1) with e | e
      · exact absurd e hp.2
      · exact e)
    simp only [List.cons_append, distinct, List.filter_cons, List.filter_filter, ih]

theorem distinct_append_sub {a b : List String} (h : ∀ x ∈ b, x ∈ a) : distinct (a ++ b) = distinct a := by
  have := distinct_append_filter a b (fun _ => true) (fun y hy _ => h y hy)
  rwa [List.filter_eq_self.mpr (by simp), List.filter_eq_self.mpr (by simp)] at this

theorem repeatMin_spec (env : Env) {s s1 : S} {m : Req} (h : minimumVersions env s = .ok (s1, m)) :
    ∃ d, s1.out = s.out ++ d ∧ ∀ n (t : S), Frame s t → ∃ t', repeatMin env n t = .ok (t', m) ∧ Frame s t' ∧
      (∀ x ∈ d, x ∈ t'.out) ∧ ∃ e, t'.out = t.out ++ d ++ e ∧ ∀ x ∈ e, x ∈ d := by
  obtain ⟨d, _, h', hf1, hf2, hd, _⟩ := minimumVersions_repeats env (.refl s) (.refl s) h
  refine ⟨d, hd, fun n => ?_⟩
  induction n with
  | zero =>
    intro t ht
    obtain ⟨d', t', h1, _, hft, ho, ho'⟩ := minimumVersions_repeats env (.refl s) ht h
    have : d' = d := List.append_cancel_left (ho.symm.trans hd)
    subst this
    exact ⟨t', h1, ht.trans hft, fun x hx => by rw [ho']; simp [hx], [], by simp [ho'], by simp⟩
  | succ n ih =>
    intro t ht
    obtain ⟨d', t1, h1, _, hft, ho, ho'⟩ := minimumVersions_repeats env (.refl s) ht h
    have : d' = d := List.append_cancel_left (ho.symm.trans hd)
    subst this
    obtain ⟨t', h2, hf, hm, e, he, hsub⟩ := ih t1 (ht.trans hft)
    refine ⟨t', by simp only [repeatMin, h1]; exact h2, hf, hm, d' ++ e, by rw [he, ho']; simp [List.append_assoc], ?_⟩
    intro x hx
    rcases List.mem_append.mp hx with h | h
    · exact h
    · exact hsub x h

/-- C38: any number of calls of `minimum_versions` returns the minimum of the first one, and the output text afterwards is
that after one call, unless visits are printed. -/
theorem C38_repeat {env : Env} {s s1 : S} {m : Req} (h : minimumVersions env s = .ok (s1, m)) (n : Nat) :
    ∃ t, repeatMin env n s = .ok (t, m) ∧ (env.cfg.printVisits = false → outputText env t = outputText env s1) := by
  obtain ⟨d, hd, hr⟩ := repeatMin_spec env h
  obtain ⟨t, ht, _, _, e, he, hsub⟩ := hr n s (.refl s)
  refine ⟨t, ht, fun hp => ?_⟩
  have : distinct t.out = distinct s1.out := by
    rw [he, hd, distinct_append_sub]
    intro x hx
    simp [hsub x hx]
  unfold outputText outputLines
  simp only [hp, this, Bool.false_eq_true, if_false]

theorem sortOutputLines_perm (cfg : Config) (l : List String) : (sortOutputLines cfg l).Perm l := by
  unfold sortOutputLines
  split
  · split <;> exact sort_perm _
  · exact sort_perm _

/-- C38: the lines of the output are those recorded, and each is there once unless visits are printed. -/
theorem C38_once {env : Env} (ho : ∀ l, (env.order l).Perm l) (s : S) :
    (∀ x, x ∈ outputLines env s ↔ x ∈ s.out) ∧ (env.cfg.printVisits = false → (outputLines env s).Nodup) := by
  constructor
  · intro x
    unfold outputLines
    rw [(sortOutputLines_perm _ _).mem_iff]
    split
    · rfl
    · rw [(ho _).mem_iff, distinct_mem]
  · intro hp
    unfold outputLines
    rw [(sortOutputLines_perm _ _).nodup_iff]
    simp only [hp, Bool.false_eq_true, if_false]
    rw [(ho _).nodup_iff]
    exact distinct_nodup _

/-- Verbose configurations for the examples. -/
def verboseCfg (n : Nat) : Config := { Config.init 1 with verbose := n }

/-- Example: two lines, three calls. -/
theorem C38_witness :
    ∃ s1 m t, minimumVersions (exampleEnv (verboseCfg 3)) { exampleState with members := [] } = .ok (s1, m) ∧ s1.out.length = 2 ∧
      repeatMin (exampleEnv (verboseCfg 3)) 2 exampleState = .ok (t, m) ∧ t.out.length = 6 ∧
      (outputLines (exampleEnv (verboseCfg 3)) t).length = 2 := by
  refine ⟨_, _, _, rfl, ?_, rfl, ?_, ?_⟩ <;> decide +kernel

/-- The visits configuration -/
def visitsCfg : Config := { Config.init 1 with verbose := 4, printVisits := true }
/-- Without "unless visits are printed" the claim is false: the rule lines are repeated. -/
theorem C38_false_visits : ∃ s1 m t, minimumVersions (exampleEnv visitsCfg) exampleState = .ok (s1, m) ∧
    repeatMin (exampleEnv visitsCfg) 1 exampleState = .ok (t, m) ∧
    outputText (exampleEnv visitsCfg) t ≠ outputText (exampleEnv visitsCfg) s1 := by
  refine ⟨_, _, _, rfl, rfl, ?_⟩
  decide +kernel

/-! ### C39: reproducible order -/

/-- The key `sort` uses, if it sorts by a key. -/
def sortKey (cfg : Config) : Option (String → Nat) :=
  match cfg.format with
  | .parsable => some fun a => sortLineColumnParsable a.toList
  | .default => if cfg.verbose > 2 && !cfg.printVisits then some fun a => sortLineColumn a.toList else none

/-- `env` with another enumeration order. -/
def Env.withOrder (env : Env) (o : List String → List String) : Env := { env with order := o }

theorem sort_key_eq {f : String → Nat} {l l' : List String} (hp : l.Perm l') (hinj : ∀ a ∈ l, ∀ b ∈ l, f a = f b → a = b) :
    sort (fun a b => decide (f a ≤ f b)) l = sort (fun a b => decide (f a ≤ f b)) l' := by
  have pre : IsPreord (fun a b : String => decide (f a ≤ f b)) :=
    ⟨fun a b => by simp; omega, fun a b c => by simp; omega⟩
  refine sort_eq_of_perm pre hp fun a ha b hb h1 h2 => ?_
  simp only [decide_eq_true_eq] at h1 h2
  exact hinj a ha b hb (by omega)

/-- C39: the text does not depend on the order in which the set is enumerated, if the lines are sorted as texts, or if the
sort key tells the lines apart.  Missing: keys that collide (`C39_false_collision`). -/
theorem C39_order_partial {env : Env} {s : S} {o : List String → List String} (h1 : ∀ l, (env.order l).Perm l) (h2 : ∀ l, (o l).Perm l)
    (hk : ∀ f, sortKey env.cfg = some f → ∀ a ∈ s.out, ∀ b ∈ s.out, f a = f b → a = b) :
    outputText (Env.withOrder env o) s = outputText env s := by
  have : outputLines (Env.withOrder env o) s = outputLines env s := by
    unfold outputLines Env.withOrder
    simp only
    cases hp : env.cfg.printVisits with
    | true => rfl
    | false =>
      simp only [Bool.false_eq_true, if_false]
      have perm : (o (distinct s.out)).Perm (env.order (distinct s.out)) := (h2 _).trans (h1 _).symm
      have hm : ∀ x ∈ o (distinct s.out), x ∈ s.out := fun x hx => distinct_mem.mp ((h2 _).mem_iff.mp hx)
      unfold sortOutputLines
      unfold sortKey at hk
      split
      · rename_i hfm
        rw [hfm] at hk
        simp only [hp, Bool.not_false, Bool.and_true] at hk ⊢
        split
        · rename_i hv
          exact sort_key_eq (f := fun a => sortLineColumn a.toList) perm
            (fun a ha b hb => hk _ (by rw [if_pos hv]) a (hm a ha) b (hm b hb))
        · exact sort_eq_of_perm leStr_preord perm (fun _ _ _ _ => leStr_antisymm)
      · rename_i hfm
        rw [hfm] at hk
        exact sort_key_eq (f := fun a => sortLineColumnParsable a.toList) perm
          (fun a ha b hb => hk _ rfl a (hm a ha) b (hm b hb))
  unfold outputText
  rw [this]

/-- C39 for sets: only which lines were recorded matters, not when or how often. -/
theorem C39_set_partial {env : Env} {s t : S} (h1 : ∀ l, (env.order l).Perm l) (hp : env.cfg.printVisits = false)
    (hset : ∀ x, x ∈ s.out ↔ x ∈ t.out)
    (hk : ∀ f, sortKey env.cfg = some f → ∀ a ∈ s.out, ∀ b ∈ s.out, f a = f b → a = b) : outputText env t = outputText env s := by
  have perm : (env.order (distinct s.out)).Perm (env.order (distinct t.out)) := by
    refine (h1 _).trans (List.Perm.trans ?_ (h1 _).symm)
    rw [List.perm_ext_iff_of_nodup (distinct_nodup _) (distinct_nodup _)]
    intro x; rw [distinct_mem, distinct_mem]; exact hset x
  have hm : ∀ x ∈ env.order (distinct s.out), x ∈ s.out := fun x hx => distinct_mem.mp ((h1 _).mem_iff.mp hx)
  have : outputLines env s = outputLines env t := by
    unfold outputLines
    simp only [hp, Bool.false_eq_true, if_false]
    unfold sortOutputLines
    unfold sortKey at hk
    split
    · rename_i hfm
      rw [hfm] at hk
      simp only [hp, Bool.not_false, Bool.and_true] at hk ⊢
      split
      · rename_i hv
        exact sort_key_eq (f := fun a => sortLineColumn a.toList) perm
          (fun a ha b hb => hk _ (by rw [if_pos hv]) a (hm a ha) b (hm b hb))
      · exact sort_eq_of_perm leStr_preord perm (fun _ _ _ _ => leStr_antisymm)
    · rename_i hfm
      rw [hfm] at hk
      exact sort_key_eq (f := fun a => sortLineColumnParsable a.toList) perm
        (fun a ha b hb => hk _ rfl a (hm a ha) b (hm b hb))
  unfold outputText
  rw [this]

/-- C39 in full for the default format up to verbosity 2 and for visits. -/
theorem C39_plain {env : Env} {s : S} {o : List String → List String} (h1 : ∀ l, (env.order l).Perm l) (h2 : ∀ l, (o l).Perm l)
    (hf : env.cfg.format = .default) (hv : env.cfg.verbose ≤ 2 ∨ env.cfg.printVisits = true) :
    outputText (Env.withOrder env o) s = outputText env s := by
  refine C39_order_partial h1 h2 (fun f hfk => ?_)
  unfold sortKey at hfk
  rw [hf] at hfk
  simp only at hfk
  split at hfk
  · rename_i hc
    simp only [gt_iff_lt, Bool.and_eq_true, decide_eq_true_eq, Bool.not_eq_eq_eq_not, Bool.not_true] at hc
    rcases hv with hv | hv
    · omega
    · rw [hv] at hc; cases hc.2
  · cases hfk

/-- The sort key adds up the characters, so lines with the same letters collide: two modules on one line come out in the
order of the set.  Here the lines of `import dis, sid` (default format, verbosity 3). -/
theorem C39_false_collision : ∃ (s : S) (o : List String → List String), (∀ l, (o l).Perm l) ∧
    outputText (Env.withOrder (exampleEnv (verboseCfg 3)) o) s ≠ outputText (exampleEnv (verboseCfg 3)) s := by
  refine ⟨{ S.init with out := ["L1 C7: 'dis' module requires 2.5, 3.0", "L1 C7: 'sid' module requires 2.5, 3.0"] }, List.reverse,
    List.reverse_perm, ?_⟩
  decide +kernel

/-- Example of `C39_order_partial`: distinct lines of the text have distinct keys. -/
theorem C39_witness : ∀ f, sortKey (verboseCfg 3) = some f →
    let l := ["L2 C7: 'os' module requires 2.5, 3.0", "L1: print(expr) requires 2.0, 3.0", "L1: fstrings require !2, 3.6"]
    ∀ a ∈ l, ∀ b ∈ l, f a = f b → a = b := by
  intro f hf
  injection hf with hf
  subst hf
  decide +kernel

/-! ### C41: violations -/

/-- The targets of a configuration that names each major at most once. -/
structure DistinctMajors (ts : List (Bool × Ver)) : Prop where
  majors : ∀ t ∈ ts, t.2.major = 2 ∨ t.2.major = 3
  distinct : (ts.map (·.2.major)).Pairwise (· < ·)
  some : ts ≠ []

/-- The part of a requirement for a target's major is incompatible or above the target. -/
def Violates (r : Req) (t : Ver) : Prop :=
  (t.major = 2 ∧ (r.py2 = none ∨ ∃ v, r.py2 = some v ∧ t < v)) ∨ (t.major = 3 ∧ (r.py3 = none ∨ ∃ v, r.py3 = some v ∧ t < v))

theorem above_iff (v : Option Ver) (t : Ver) : above v t = true ↔ v = none ∨ ∃ x, v = some x ∧ t < x := by
  cases v <;> simp [above]

/-- C41: in violations mode a requirement is shown iff it violates a target. -/
theorem C41_violations {env : Env} (hv : env.cfg.onlyShowViolations = true) (ht : DistinctMajors env.cfg.targets) (r : Req) :
    ∃ b, violates env (some r) = .ok b ∧ (b = true ↔ ∃ t ∈ env.cfg.targets, Violates r t.2) := by
  obtain ⟨hm, hd, hs⟩ := ht
  unfold violates
  simp only [hv, Bool.not_true, Bool.false_eq_true, if_false]
  match hts : env.cfg.targets with
  | [] => exact absurd hts hs
  | [(e, t)] =>
    rw [hts] at hm
    have hmt := hm (e, t) (by simp)
    simp only at hmt ⊢
    rcases hmt with h | h
    · refine ⟨above r.py2 t, by simp [h], ?_⟩
      rw [above_iff]; simp [Violates, h]
    · refine ⟨above r.py3 t, by simp [h], ?_⟩
      rw [above_iff]; simp [Violates, h]
  | (e0, t0) :: (e1, t1) :: rest =>
    rw [hts] at hm hd
    have h0 := hm (e0, t0) (by simp)
    have h1 := hm (e1, t1) (by simp)
    simp only [List.map_cons, List.pairwise_cons, List.mem_cons, List.mem_map] at hd
    have h01 : t0.major < t1.major := hd.1 _ (.inl rfl)
    simp only at h0 h1
    have e0' : t0.major = 2 := by omega
    have e1' : t1.major = 3 := by omega
    have hrest : rest = [] := by
      cases rest with
      | nil => rfl
      | cons x rest =>
        have h2 := hm x (by simp)
        have := hd.2.1 x.2.major ⟨x, by simp, rfl⟩
        omega
    subst hrest
    refine ⟨_, rfl, ?_⟩
    rw [Bool.or_eq_true, above_iff, above_iff]
    simp [Violates, e0', e1']

/-- C41: otherwise everything is shown. -/
theorem C41_all {env : Env} (hv : env.cfg.onlyShowViolations = false) (r : Option Req) : violates env r = .ok true := by
  unfold violates
  cases r <;> simp [hv]

/-- C41: what `__verbose_print` does: with a requirement that is to be shown (and a format that prints lines, and the verbosity)
it appends one line, and otherwise nothing. -/
theorem C41_lines {env : Env} (ht : env.cfg.onlyShowViolations = true → DistinctMajors env.cfg.targets) (level : Nat) (msg : String)
    (ent : Option Ent) (line : LineArg) (r : Req) (plural : Option Bool) (s : S) :
    ∃ s', verbosePrint env level msg ent line (some r) plural s = .ok s' ∧ Frame s s' ∧
      (((env.cfg.onlyShowViolations = true → ∃ t ∈ env.cfg.targets, Violates r t.2) ∧ skipOutputLine env.cfg = false ∧
          level ≤ env.cfg.verbose) → s'.out = s.out ++ [verboseLine env s msg ent line (some r) plural]) ∧
      (¬ ((env.cfg.onlyShowViolations = true → ∃ t ∈ env.cfg.targets, Violates r t.2) ∧ skipOutputLine env.cfg = false ∧
          level ≤ env.cfg.verbose) → s' = s) := by
  have key : ∃ b, violates env (some r) = .ok b ∧
      (b = true ↔ (env.cfg.onlyShowViolations = true → ∃ t ∈ env.cfg.targets, Violates r t.2)) := by
    cases hv : env.cfg.onlyShowViolations with
    | true =>
      obtain ⟨b, h1, h2⟩ := C41_violations hv (ht hv) r
      exact ⟨b, h1, h2.trans ⟨fun h _ => h, fun h => h rfl⟩⟩
    | false => exact ⟨true, C41_all hv _, by simp⟩
  obtain ⟨b, hb, hiff⟩ := key
  rw [← hiff]
  unfold verbosePrint
  simp only [V.lift, hb, V.when]
  cases b with
  | false => exact ⟨s, rfl, .refl s, by simp, fun _ => rfl⟩
  | true =>
    cases hk : skipOutputLine env.cfg with
    | true => exact ⟨s, rfl, .refl s, by simp, fun _ => rfl⟩
    | false =>
      by_cases hl : env.cfg.verbose < level
      · refine ⟨s, by simp [hl, V.skip], .refl s, fun h => ?_, fun _ => rfl⟩
        exact absurd h.2.2 (by omega)
      · refine ⟨_, by simp only [hl]; rfl, ?_, fun _ => rfl, fun h => ?_⟩
        · rfl
        · exact absurd ⟨rfl, rfl, by omega⟩ h

/-- Violations mode with targets 2.7 and 3.4 -/
def violationsCfg : Config :=
  { Config.init 1 with verbose := 2, onlyShowViolations := true, targets := [(false, ⟨2, 7⟩), (false, ⟨3, 4⟩)] }

/-- Example: with targets 2.7 and 3.4, `fstrings` (!2, 3.6) violates and `with` (2.5, 3.0) does not. -/
theorem C41_witness : DistinctMajors violationsCfg.targets ∧
    violates (exampleEnv violationsCfg) (some ⟨none, some ⟨3, 6⟩⟩) = .ok true ∧
    violates (exampleEnv violationsCfg) (some ⟨some ⟨2, 5⟩, some ⟨3, 0⟩⟩) = .ok false := by
  refine ⟨⟨by decide, by decide, by decide⟩, rfl, rfl⟩

end Vermin.Props
