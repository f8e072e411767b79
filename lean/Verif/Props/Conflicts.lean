import Verif.Props.Minimum
import Verif.Props.Visit
import Verif.Spec.Literals
/-
The message about requirements that cannot be combined (C74).
-/
namespace Vermin.Props
open Vermin Vermin.Py Vermin.Spec Vermin.V

/-! ### Specification -/

/-- What language features are called. -/
def Titled : Flag → Option String
  | .printv2 | .printv3 | .longv2 | .moduleDirFunc | .moduleGetattrFunc | .maybeAnnotations => none
  | .format27 => "`\"..{}..\".format(..)`"
  | .bytesv3 => "'bytes' type"
  | .fstrings => "fstrings"
  | .fstringsSelfDoc => "self-documenting fstrings"
  | .boolConst => "'bool' constant"
  | .annotations => "annotations"
  | .varAnnotations => "variable annotations"
  | .finalAnnotations => "Final annotations"
  | .literalAnnotations => "Literal annotations"
  | .coroutines => "coroutines"
  | .asyncGenerator => "async generators"
  | .asyncComprehension => "async comprehensions"
  | .awaitInComprehension => "await in comprehension"
  | .asyncFor => "async for-loop"
  | .namedExprs => "named expressions"
  | .kwOnlyArgs => "keyword-only arguments"
  | .posOnlyArgs => "position only arguments"
  | .nonlocalStmt => "'nonlocal' statement"
  | .yieldFrom => "yield from"
  | .raiseCause => "exception cause"
  | .raiseFromNone => "raise ... from None"
  | .setLiterals => "set literals"
  | .setComp => "set comprehension"
  | .dictComp => "dict comprehension"
  | .matMult => "infix matrix multiplication"
  | .continueInFinally => "'continue' in 'finally'"
  | .modInversePow => "modular inverse 'pow()'"
  | .withStatement => "'with' statement"
  | .asyncWithStatement => "'async with' statement"
  | .multiWithitem => "multiple context expressions in a 'with' statement"
  | .withParentheses => "multiple context expressions in a `with` statement with parentheses"
  | .generalizedUnpacking => "generalized unpacking"
  | .unpackingAssignment => "unpacking assignment"
  | .ellipsisOutOfSlices => "ellipsis literal (`...`) out of slices"
  | .typeAliasStatement => "type alias statement (`type X = SomeType`)"
  | .bytesFormat => "bytes format"
  | .bytearrayFormat => "bytearray format"
  | .dictUnion => "dict union"
  | .dictUnionMerge => "dict union merge"
  | .builtinGenericTypeAnnotations => "builtin generic type annotations"
  | .functionDecorators => "function decorators"
  | .classDecorators => "class decorators"
  | .relaxedDecorators => "relaxed decorators"
  | .patternMatching => "pattern matching"
  | .unionTypes => "union types as `X | Y`"
  | .superNoArgs => "super() without arguments"
  | .exceptStar => "`except*`"
  | .metaclassClassKeyword => "'metaclass' class keyword"

/-- A finding is called `x` and has the requirement. -/
inductive Described (env : Env) (s : S) : String → Req → Prop
  | feature {f x r} : s.has f = true → Titled f = some x → Enforced f = some r → Described env s x r
  | strftime {d r} : d ∈ s.strftime → env.tables.strftime d = some r → Described env s ("strftime directive '" ++ d ++ "'") r
  | bytesDir {d r} : d ∈ s.bytesDirs → env.tables.bytes d = some r → Described env s ("bytes directive '" ++ d ++ "'") r
  | typecode {d r} : d ∈ s.typecodes → env.tables.typecode d = some r → Described env s ("array typecode '" ++ d ++ "'") r
  | errorHandler {n r} : Const.str n ∈ s.codecsErr → env.tables.errorHandler n = some r → Described env s ("codecs error handler name '" ++ n ++ "'") r
  | encoding {n k r} : Const.str n ∈ s.codecsEnc → (k, r) ∈ env.tables.encodings → EncKey.contains (lowerStr n) k = true →
      Described env s ("codecs encoding '" ++ n ++ "'") r
  | module {m r} : m ∈ s.modules → env.tables.mod m = some r → Described env s ("'" ++ m ++ "' module") r
  | member {m r} : m ∈ s.members → env.tables.mem m = some r → Described env s ("'" ++ m ++ "' member") r
  | kwarg {f k r} : (f, some k) ∈ s.kwargs → env.tables.kw (f, some k) = some r → Described env s ("'" ++ f ++ "(" ++ k ++ ")'") r
  /-- `**` in a call is a keyword argument without a name. -/
  | unnamed {f r} : (f, none) ∈ s.kwargs → env.tables.kw (f, none) = some r → Described env s ("'" ++ f ++ "(None)'") r
  | decorator {u r} : u ∈ s.userFuncDecos → env.tables.deco u = some r → Described env s ("'" ++ u ++ "' user function decorator") r

/-- Texts as they are mentioned: one alone, several as a list. -/
def Mentions (t : String) (l : List String) : Prop := l ≠ [] ∧ (l = [t] ∨ (l.length ≠ 1 ∧ ListLit t.toList l))

/-- The message says that what is called `xs` and requires `a` conflicts with what is called `ys` and requires `b`. -/
def NamedConflict (a b : Req) (xs ys : List String) (msg : String) : Prop :=
  ∃ x y, Mentions x xs ∧ Mentions y ys ∧ msg = x ++ " (requires " ++ reqString a ++ ") vs. " ++ y ++ " (requires " ++ reqString b ++ ")"

/-- The message only has the requirements. -/
def PlainConflict (a b : Req) (msg : String) : Prop := msg = "Versions could not be combined: " ++ reqString a ++ " and " ++ reqString b

/-! ### Literals -/

theorem unescapes_repr (q : Char) (hq : q = '\'' ∨ q = '"') : ∀ s : List Char,
    Unescapes q (s.flatMap fun c =>
    if c == '\\' then ['\\', '\\']
    else if c == q then ['\\', c]
    else if c == '\n' then ['\\', 'n']
    else if c == '\r' then ['\\', 'r']
    else if c == '\t' then ['\\', 't']
    else [c]) s
  | [] => .nil
  | c :: s => by
    have ih := unescapes_repr q hq s
    rw [List.flatMap_cons]
    by_cases h1 : c = '\\'
    · subst h1; exact .escape (by decide) ih
    by_cases h2 : c = q
    · subst h2
      have e1 : (c == '\\') = false := by simpa using h1
      simp only [e1, beq_self_eq_true, if_true, Bool.false_eq_true, if_false]
      exact .escape (by rcases hq with rfl | rfl <;> decide) ih
    have e1 : (c == '\\') = false := by simpa using h1
    have e2 : (c == q) = false := by simpa using h2
    simp only [e1, e2, Bool.false_eq_true, if_false]
    by_cases h3 : c = '\n'
    · subst h3; exact .escape (by decide) ih
    by_cases h4 : c = '\r'
    · subst h4; exact .escape (by decide) ih
    by_cases h5 : c = '\t'
    · subst h5; exact .escape (by decide) ih
    have e3 : (c == '\n') = false := by simpa using h3
    have e4 : (c == '\r') = false := by simpa using h4
    have e5 : (c == '\t') = false := by simpa using h5
    simp only [e3, e4, e5, Bool.false_eq_true, if_false]
    exact .plain h2 h1 h3 h4 ih

theorem strLit_repr (s : String) : StrLit (Py.reprStr s).toList s := by
  unfold Py.reprStr
  simp only [String.toList_ofList]
  refine ⟨_, _, ?_, by rw [List.append_assoc, List.singleton_append], unescapes_repr _ ?_ _⟩ <;> · split <;> simp

theorem strLits_repr : ∀ l : List String, StrLits (join ", ".toList (l.map fun s => (Py.reprStr s).toList)) l
  | [] => .nil
  | [s] => .one (strLit_repr s)
  | s :: x :: l => by
    have := StrLits.more (strLit_repr s) (strLits_repr (x :: l))
    simpa [join] using this

theorem mentions_getRef {l : List String} (h : l ≠ []) : Mentions (getRef l) l := by
  refine ⟨h, ?_⟩
  unfold getRef
  split
  · exact .inl rfl
  · rename_i hn
    refine .inr ⟨fun h1 => ?_, _, ?_, strLits_repr l⟩
    · obtain ⟨x, rfl⟩ := List.length_eq_one_iff.mp h1
      exact hn x rfl
    · simp [reprStrList]

/-! ### The message -/

theorem incompMsg_named {a b : Req} {d : Refs} {xs ys : List String} (hx : Dict.get? d a = some xs) (hy : Dict.get? d b = some ys) :
    incompMsg a b (some d) = getRef xs ++ " (requires " ++ reqString a ++ ") vs. " ++ getRef ys ++ " (requires " ++ reqString b ++ ")" := by
  unfold incompMsg
  simp only [hx, hy]
theorem incompMsg_plain {a b : Req} {refs : Option Refs} (h : ∀ d, refs = some d → Dict.get? d a = none ∨ Dict.get? d b = none) :
    incompMsg a b refs = "Versions could not be combined: " ++ reqString a ++ " and " ++ reqString b := by
  unfold incompMsg
  cases refs with
  | none => simp only
  | some d =>
    cases hx : Dict.get? d a with
    | none => simp only [hx]
    | some xs =>
      rcases h d rfl with e | e
      · rw [e] at hx; cases hx
      · simp only [hx, e]

/-- **C74.** The message mentions what is known of both requirements; if nothing is known of one, only the requirements. -/
theorem C74_message {ign : Bool} {a b : Req} {refs : Option Refs} {msg : String} (h : combineVersions ign a b refs = .error (.invalidVersion msg))
    (hn : ∀ d, refs = some d → ∀ r, Dict.get? d r ≠ some []) :
    (∀ d xs ys, refs = some d → Dict.get? d a = some xs → Dict.get? d b = some ys → NamedConflict a b xs ys msg) ∧
    ((∀ d, refs = some d → Dict.get? d a = none ∨ Dict.get? d b = none) → PlainConflict a b msg) := by
  unfold combineVersions at h
  split at h
  · have h := Err.invalidVersion.inj (Except.error.inj h)
    refine ⟨fun d xs ys hd hx hy => ?_, fun hd => ?_⟩
    · rw [hd, incompMsg_named hx hy] at h
      exact ⟨_, _, mentions_getRef (fun e => hn d hd a (e ▸ hx)), mentions_getRef (fun e => hn d hd b (e ▸ hy)), h.symm⟩
    · unfold PlainConflict
      rw [← h, incompMsg_plain hd]
  · cases h

/-- What is recorded of requirements are texts of findings with them. -/
def InfosOf (P : String → Req → Prop) (s : S) : Prop := ∀ r l, Dict.get? s.infoVersions r = some l → l ≠ [] ∧ ∀ x ∈ l, P x r

/-- All of `a` is due to requirements: each part is unknown or the part of a requirement. -/
structure DueTo (Q : Req → Prop) (a : Req) : Prop where
  py2 : a.py2 = some ⟨0, 0⟩ ∨ ∃ r, Q r ∧ r.py2 = a.py2
  py3 : a.py3 = some ⟨0, 0⟩ ∨ ∃ r, Q r ∧ r.py3 = a.py3

/-- The message is right about findings `P` and requirements `Q`. -/
def RightMessage (P : String → Req → Prop) (Q : Req → Prop) (msg : String) : Prop :=
  ∃ a b, Conflict a b ∧ DueTo Q a ∧ Q b ∧ (PlainConflict a b msg ∨ ∃ xs ys, (∀ x ∈ xs, P x a) ∧ (∀ y ∈ ys, P y b) ∧ NamedConflict a b xs ys msg)

/-- A step of `minimum_versions` records texts of findings, and its message is right. -/
def Informs (P : String → Req → Prop) (Q : Req → Prop) (s0 : S) (f : M) : Prop := ∀ s m, Frame s0 s → InfosOf P s → DueTo Q m →
  (∀ s' m', f (s, m) = .ok (s', m') → Frame s0 s' ∧ InfosOf P s' ∧ DueTo Q m') ∧ ∀ msg, f (s, m) = .error (.invalidVersion msg) → RightMessage P Q msg

namespace Informs
variable {P : String → Req → Prop} {Q : Req → Prop} {s0 : S}

theorem skip : Informs P Q s0 fun x => .ok x := fun s m hf hi hd => ⟨fun s' m' h => by cases h; exact ⟨hf, hi, hd⟩, fun msg h => by cases h⟩

theorem andThen {f g : M} (hf : Informs P Q s0 f) (hg : Informs P Q s0 g) : Informs P Q s0 (thenM f g) := fun s m h hi hd => by
  unfold thenM
  obtain ⟨h1, h2⟩ := hf s m h hi hd
  cases hx : f (s, m) with
  | ok y => obtain ⟨h3, h4, h5⟩ := h1 y.1 y.2 hx; exact hg y.1 y.2 h3 h4 h5
  | error e => exact ⟨fun s' m' h => (nomatch h), fun msg h => h2 msg (by rw [hx]; exact h)⟩

theorem each {α : Type} {f : α → M} : ∀ {l : List α}, (∀ a ∈ l, Informs P Q s0 (f a)) → Informs P Q s0 (eachM f l)
  | [], _ => skip
  | a :: _, h => andThen (h a (.head _)) (each fun x hx => h x (.tail _ hx))

end Informs

theorem dueTo_combine {Q : Req → Prop} {ign : Bool} {a b c : Req} {refs : Option Refs} (ha : DueTo Q a) (hb : Q b) (h : combineVersions ign a b refs = .ok c) :
    DueTo Q c := by
  rw [combineVersions_ok h]
  have key : ∀ {x y : Option Ver} {p : Req → Option Ver}, (x = some ⟨0, 0⟩ ∨ ∃ r, Q r ∧ p r = x) → (∃ r, Q r ∧ p r = y) →
      combineOpt x y = some ⟨0, 0⟩ ∨ ∃ r, Q r ∧ p r = combineOpt x y := fun {x y p} hx hy => by
    cases x with
    | none => exact .inr (hx.resolve_left nofun)
    | some v =>
      cases y with
      | none => exact .inr hy
      | some w =>
        rcases ver_max_cases v w with e | e
        · show some (v.max w) = _ ∨ ∃ r, Q r ∧ p r = some (v.max w)
          rw [e]; exact hx
        · show some (v.max w) = _ ∨ ∃ r, Q r ∧ p r = some (v.max w)
          rw [e]; exact .inr hy
  exact ⟨key (p := Req.py2) ha.py2 ⟨b, hb, rfl⟩, key (p := Req.py3) ha.py3 ⟨b, hb, rfl⟩⟩

theorem infosOf_same {P : String → Req → Prop} {s s' : S} (h : s'.infoVersions = s.infoVersions) (hi : InfosOf P s) : InfosOf P s' := by
  unfold InfosOf
  rw [h]
  exact hi

theorem infosOf_add {P : String → Req → Prop} {s : S} {r : Req} {x : String} (hp : P x r) (hi : InfosOf P s) : InfosOf P (s.addInfo r x) := by
  intro r' l hl
  unfold S.addInfo at hl
  simp only [Dict.get?_set] at hl
  split at hl
  · rename_i he
    obtain rfl := Option.some.inj hl
    refine ⟨by simp, fun y hy => ?_⟩
    rcases List.mem_append.mp hy with hy | hy
    · cases hg : Dict.get? s.infoVersions r with
      | none => rw [hg] at hy; cases hy
      | some l => rw [hg] at hy; subst he; exact (hi _ _ hg).2 y hy
    · rw [List.mem_singleton.mp hy]; subst he; exact hp
  · exact hi r' l hl

theorem infoStep_infos {P : String → Req → Prop} {env : Env} {r : Req} {info : Option String} {ent : Option Ent} {s s' : S}
    (hp : ∀ x, info = some x → P x r) (hi : InfosOf P s) (h : infoStep env r info ent s = .ok s') : InfosOf P s' := by
  unfold infoStep at h
  cases hv : violates env (some r) with
  | error e => rw [hv] at h; cases h
  | ok b =>
    rw [hv] at h
    cases b with
    | false => cases h; exact hi
    | true =>
      cases info with
      | none => cases h; exact hi
      | some x =>
        have hx : InfosOf P (s.addInfo r x) := infosOf_add (hp x rfl) hi
        cases ent with
        | none => cases h; exact hx
        | some e =>
          obtain ⟨u, hu, hv⟩ := seq_run (a := upd fun s => s.addInfo r x) (b := vv env x (some r) .absent none (some e)) h
          cases hu
          obtain ⟨o, ho⟩ := verbosePrint_run hv
          exact infosOf_same (by rw [ho]) hx

theorem addEntity_informs {P : String → Req → Prop} {Q : Req → Prop} {s0 : S} {env : Env} {r : Req} {info : Option String} {ent : Option Ent}
    (hp : ∀ x, info = some x → P x r) (hq : Q r) : Informs P Q s0 (addEntity env r info ent) := by
  intro s m hf hi hm
  unfold addEntity
  rcases Prints.infoStep (env := env) (r := r) (info := info) (ent := ent) with ⟨e, he, h⟩ | h
  · simp only [h s]
    exact ⟨nofun, fun msg h => (he msg (Except.error.inj h)).elim⟩
  · obtain ⟨d, h⟩ := h s0
    obtain ⟨s', h, hf', _⟩ := h s hf
    have hi' := infoStep_infos hp hi h
    simp only [h]
    cases hc : combineVersions env.cfg.ignoreIncomp m r (some s'.infoVersions) with
    | ok m' => exact ⟨fun s'' m'' h => by cases h; exact ⟨hf.trans hf', hi', dueTo_combine hm hq hc⟩, nofun⟩
    | error e =>
      refine ⟨nofun, fun msg h => ?_⟩
      obtain rfl := Except.error.inj h
      have hconf := (C02_combine_raises_iff _ _ _ _).mp ⟨_, hc⟩
      obtain ⟨h1, h2⟩ := C74_message hc fun d hd r hr => by cases hd; exact (hi' r _ hr).1 rfl
      refine ⟨m, r, hconf.2, hm, hq, ?_⟩
      cases hx : Dict.get? s'.infoVersions m with
      | none => exact .inl (h2 fun d hd => by cases hd; exact .inl hx)
      | some xs =>
        cases hy : Dict.get? s'.infoVersions r with
        | none => exact .inl (h2 fun d hd => by cases hd; exact .inr hy)
        | some ys => exact .inr ⟨xs, ys, (hi' _ _ hx).2, (hi' _ _ hy).2, h1 _ xs ys rfl hx hy⟩

theorem ruleM_informs {P : String → Req → Prop} {Q : Req → Prop} {s0 : S} {env : Env} {o : Option Req} {info : String} {ent : Ent}
    (hp : ∀ r, o = some r → P info r ∧ Q r) : Informs P Q s0 (ruleM env o info ent) := by
  cases o with
  | none => exact .skip
  | some r => exact addEntity_informs (fun x hx => by cases hx; exact (hp r rfl).1) (hp r rfl).2

theorem featureM_informs {env : Env} {s0 : S} {f : Feature} (hf : f ∈ features) : Informs (Described env s0) (Requires env s0) s0 (featureM env f) := by
  intro s m h hi hm
  unfold featureM
  have hh := has_frame h f.flag
  dsimp only
  cases hb : s.has f.flag with
  | false =>
    simp only [Bool.false_eq_true, if_false]
    exact Informs.skip s m h hi hm
  | true =>
    simp only [if_true]
    have he : Enforced f.flag = some f.req := (features_enforced _ _).mpr (.inr (.inr ⟨f, hf, rfl, rfl⟩))
    have ht : ∀ x, f.info = some x → Titled f.flag = some x := by
      have : ∀ f ∈ features, ∀ x, f.info = some x → Titled f.flag = some x := by
        have : ∀ f ∈ features, f.info.isSome → Titled f.flag = f.info := by decide +kernel
        exact fun f hf x hx => by rw [this f hf (by rw [hx]; rfl), hx]
      exact this f hf
    exact addEntity_informs (P := Described env s0) (Q := Requires env s0) (fun x hx => .feature (hh ▸ hb) (ht x hx) he) (.feature (hh ▸ hb) he) s m h hi hm

theorem described_as {env : Env} {s : S} {x y : String} {r : Req} (h : Described env s x r) (e : y = x) : Described env s y r := e ▸ h

theorem entities_informs (env : Env) (s0 : S) : Informs (Described env s0) (Requires env s0) s0 (fun x => entitiesM env x.1 x) := by
  have key : Informs (Described env s0) (Requires env s0) s0 (entitiesM env s0) := by
    unfold entitiesM
    refine .andThen (.each fun d hd => ruleM_informs fun r hr => ⟨described_as (.strftime hd hr) (by rw [String.ext_iff]; simp [quoted]), .strftime hd hr⟩) ?_
    refine .andThen (.each fun d hd => ruleM_informs fun r hr => ⟨described_as (.bytesDir hd hr) (by rw [String.ext_iff]; simp [quoted]), .bytesDir hd hr⟩) ?_
    refine .andThen (.each fun d hd => ruleM_informs fun r hr => ⟨described_as (.typecode hd hr) (by rw [String.ext_iff]; simp [quoted]), .typecode hd hr⟩) ?_
    refine .andThen (.each fun c hc => ?_) ?_
    · unfold errorHandlerM
      split
      · exact ruleM_informs fun r hr => ⟨described_as (.errorHandler hc hr) (by rw [String.ext_iff]; simp [quoted]), .errorHandler hc hr⟩
      · exact .skip
    refine .andThen (.each fun c hc => .each fun e he => ?_) ?_
    · intro s m h hi hm
      unfold encodingEntryM
      cases c with
      | str n =>
        dsimp only
        split
        · rename_i hk
          exact addEntity_informs (fun x hx => by cases hx; exact described_as (.encoding hc he hk) (by rw [String.ext_iff]; simp [quoted])) (.encoding hc he hk) s m h hi hm
        · exact Informs.skip s m h hi hm
      | bytes b =>
        dsimp only
        split
        · exact ⟨nofun, nofun⟩
        · exact Informs.skip s m h hi hm
      | _ => exact ⟨nofun, nofun⟩
    refine .andThen (.each fun d hd => ruleM_informs fun r hr => ⟨?_, .module hd hr⟩) ?_
    · exact described_as (Described.module hd hr) (by rw [String.ext_iff]; simp [quoted, kwText])
    refine .andThen (.each fun d hd => ruleM_informs fun r hr => ⟨?_, .member hd hr⟩) ?_
    · exact described_as (Described.member hd hr) (by rw [String.ext_iff]; simp [quoted, kwText])
    refine .andThen (.each fun k hk => ruleM_informs fun r hr => ⟨?_, .kwarg hk hr⟩) ?_
    · obtain ⟨f, o⟩ := k
      cases o with
      | none => exact described_as (Described.unnamed hk hr) (by rw [String.ext_iff]; simp [quoted, kwText])
      | some k => exact .kwarg hk hr
    refine .each fun d hd => ruleM_informs fun r hr => ⟨?_, .decorator hd hr⟩
    exact described_as (Described.decorator hd hr) (by rw [String.ext_iff]; simp [quoted, kwText])
  intro s m hs
  simp only [entitiesM_frame hs]
  exact key s m hs

theorem printFn_informs {env : Env} {s0 : S} (h3 : s0.has .printv3 = true) : Informs (Described env s0) (Requires env s0) s0 (printFn env) := by
  intro s m h hi hm
  unfold printFn
  rcases vv_frame env "print(expr)" (from23 0 0) .hide none none with ⟨e, he, hv⟩ | hv
  · simp only [hv s]
    exact ⟨nofun, fun msg h => (he msg (Except.error.inj h)).elim⟩
  · obtain ⟨d, hv⟩ := hv s0
    obtain ⟨s', hv, hf, _⟩ := hv s h
    simp only [hv]
    obtain ⟨o, ho⟩ := verbosePrint_run hv
    exact addEntity_informs (fun x hx => nomatch hx) (.feature h3 rfl) s' m (h.trans hf) (infosOf_same (by rw [ho]) hi) hm

/-- **C74.** If findings cannot be combined the message is right: a requirement of a finding conflicts with the requirement of those before, and whatever is
mentioned as requiring a version is a finding that does. -/
theorem C74_right {env : Env} {s : S} {msg : String} (hs : s.infoVersions = []) (h : minimumVersions env s = .error (.invalidVersion msg)) :
    RightMessage (Described env s) (Requires env s) msg := by
  rw [minimumVersions_eq] at h
  have hi : InfosOf (Described env s) s := fun r l hl => by rw [hs] at hl; cases hl
  have hm : DueTo (Requires env s) (printStart s) := by
    unfold printStart
    cases h2 : s.has .printv2 with
    | true => exact ⟨.inr ⟨_, .feature h2 rfl, rfl⟩, .inl rfl⟩
    | false => exact ⟨.inl rfl, .inl rfl⟩
  have ha : Informs (Described env s) (Requires env s) s (afterPrint env) :=
    .andThen (.each fun f hf => featureM_informs hf) (entities_informs env s)
  cases h3 : s.has .printv3 with
  | true =>
    rw [h3] at h
    exact (Informs.andThen (printFn_informs h3) ha s _ (.refl s) hi hm).2 msg h
  | false =>
    rw [h3] at h
    exact (ha s _ (.refl s) hi hm).2 msg h

/-- **C74.** So it is for programs. -/
theorem C74_program {env : Env} {p : Node} {s : S} {msg : String} (hp : tour env p S.init = .ok s) (h : minimumVersions env s = .error (.invalidVersion msg)) :
    RightMessage (Described env s) (Requires env s) msg := by
  refine C74_right ?_ h
  obtain ⟨u, o, hv, rfl⟩ := tour_run hp
  exact (visit_steps env p _ u hv).info

/-- Example: `f""`, and `long` in a program -/
theorem C74_witness : ∃ s msg, tour (exampleEnv (Config.init 1)) (prog [st 1 (nd .value .joinedStr 1 []), st 2 (nm .value "long" 2)]) S.init = .ok s ∧
    minimumVersions (exampleEnv (Config.init 1)) s = .error (.invalidVersion msg) := ⟨_, _, rfl, rfl⟩
/-- Example: two features and a member -/
theorem C74_witness_named : minimumVersions (exampleEnv (Config.init 1)) { S.init with flags := [.fstrings, .varAnnotations], members := ["long.x"] } =
    .error (.invalidVersion "['fstrings', 'variable annotations'] (requires !2, 3.6) vs. 'long.x' member (requires 2.5, !3)") := by decide +kernel

end Vermin.Props
