import Verif.Spec.Fatal
import Verif.Props.Records
import Verif.Props.Safe
import Verif.Props.Spelt
/-
C36: programs whose analysis crashes.
-/
namespace Vermin.Props
open Vermin Vermin.Py Vermin.Spec Vermin.V

theorem each_mem_error {α : Type} {f : α → V} {a : α} : ∀ {l : List α}, a ∈ l → (∀ s t, f a s ≠ .ok t) → ∀ s t, each f l s ≠ .ok t
  | x :: xs, h, hf, s, t, hr => by
    obtain ⟨u, h1, h2⟩ := seq_run hr
    rcases List.mem_cons.mp h with rfl | h
    · exact hf _ _ h1
    · exact each_mem_error h hf _ _ h2

theorem attrLoop_complex (ma : Dict String String) {c : Node} {t : String} (hc : c.kind = .const (.complex t)) (post : List Node) :
    ∀ {pre : List Node}, (∀ m ∈ pre, Nameless m) → attrLoop ma [] false (pre ++ c :: post) = .error .indexError
  | [], _ => by
    rw [List.nil_append]
    unfold attrLoop attrStep
    simp [hc, headBuiltin, attrConst]
  | m :: pre, h => by
    have hm : Nameless m := h m (by simp)
    have ih := attrLoop_complex ma hc post (pre := pre) fun k hk => h k (by simp [hk])
    rw [List.cons_append]
    unfold attrLoop
    have hs : attrStep ma [] (false || headBuiltin []) m = .ok [] := by
      unfold Nameless at hm
      unfold attrStep
      split at hm
      all_goals first | exact hm.elim | skip
      split <;> first | simp_all; done | skip
      rename_i c _
      cases c <;> first | simp_all [attrConst]; done | rfl
    have hb : (false || headBuiltin ([] : List (Option String))) = false := rfl
    rw [hb] at hs
    dsimp only
    rw [hb, hs]
    exact ih

theorem complexFirst_error {e : Node} (h : ComplexFirst e) (ma : Dict String String) : dottedAttr ma e = .error .indexError := by
  obtain ⟨pre, c, post, t, hq, hp, hc⟩ := h
  rw [C73_walk] at hq
  unfold dottedAttr attributeName
  rw [← hq, attrLoop_complex ma hc post hp]

theorem unwritable_error {e : Node} (h : Unwritable e) (ma : Dict String String) : ∃ x, extractFstring ma e = .error x := by
  obtain ⟨i, ks⟩ := e
  unfold extractFstring fInfo
  dsimp only
  rcases h with ⟨l, hk, hl⟩ | ⟨a, v, t, hk, hra, hks, hv, hvk⟩
  · have : ∃ x, fItem ma (.mk i ks) (fInfos ma ks) = .error x := by
      have key : ∀ (l : List Bool) rs, true ∈ l → ∃ x, allOk (fKeys l rs) = .error x := by
        intro l
        induction l with
        | nil => nofun
        | cons b l ih =>
          intro rs hl
          cases b with
          | true => exact ⟨_, rfl⟩
          | false =>
            have hl : true ∈ l := by simpa using hl
            cases rs with
            | nil => exact ⟨_, rfl⟩
            | cons r rs =>
              cases r with
              | error x => exact ⟨x, rfl⟩
              | ok r =>
                obtain ⟨x, hx⟩ := ih rs hl
                refine ⟨x, ?_⟩
                simp only [fKeys, allOk, hx]
      obtain ⟨x, hx⟩ := key l (fAll (fInfos ma ks) .keys) hl
      refine ⟨x, ?_⟩
      unfold fItem
      simp only [hk, hx]
      rfl
    obtain ⟨x, hx⟩ := this
    exact ⟨x, by rw [hx]; rfl⟩
  · obtain ⟨i', ks'⟩ := v
    have hks : ks = [.mk i' ks'] := hks
    have hvk : ks' = [] := hvk
    subst hks hvk
    refine ⟨.typeError, ?_⟩
    have hw : walk (.mk i [.mk i' []]) = [.mk i [.mk i' []], .mk i' []] := by simp [walk, levels, levelsList, mergeLevels]
    have ha : attributeName ma (.mk i [.mk i' []]) = .ok [none, some a] := by
      unfold attributeName
      rw [hw]
      have h1 : ∀ b, attrStep ma [] b (.mk i [.mk i' []]) = .ok [some a] := by
        intro b
        unfold attrStep
        simp only [hk]
        unfold attrNames
        have : ((Node.mk i [.mk i' []]).field .value).bind Node.nameId = none := by
          cases hf : (Node.mk i [.mk i' []]).field .value with
          | none => rfl
          | some w =>
            have := field_mem hf
            have hw : w = .mk i' [] := by simpa [Node.kids] using this
            subst hw
            simp [Node.nameId, hv]
        rw [this]
        rfl
      have h2 : attrStep ma [some a] false (.mk i' []) = .ok [some a, none] := by
        unfold attrStep
        simp only [hv]
        rfl
      have hb : (false || headBuiltin [some a]) = false := by rcases hra with rfl | rfl <;> decide
      simp only [attrLoop, h1, Bool.false_or]
      simp only [Bool.false_or] at hb
      have hb' : headBuiltin ([] : List (Option String)) = false := rfl
      rw [hb', Bool.false_or, hb, h2]
      rfl
    have hi : fItem ma (.mk i [.mk i' []]) (fInfos ma [.mk i' []]) = .ok ⟨[none, some a], true, false⟩ := by
      unfold fItem
      simp only [hk, ha]
      rfl
    rw [hi]
    rfl

/-- The visit of such a part raises. -/
theorem fatal_error {env : Env} {n : Node} (h : Fatal env n) (hm : ¬ Marked env n) (s t : S) : visit env n s ≠ .ok t := by
  have hgate : Markable n.kind → env.isNoLine n.line = false := fun hk => by
    cases hl : env.isNoLine n.line with
    | false => rfl
    | true => exact absurd ⟨hk, by simpa [Env.isNoLine] using hl⟩ hm
  intro hr
  rw [visitMk env n] at hr
  unfold visitAlg at hr
  cases h with
  | strftime hk hf hx hxx ha hc hn =>
    simp only [hk] at hr
    unfold visitCall gate at hr
    rw [hgate (by rw [hk]; trivial)] at hr
    obtain ⟨_, hr, _⟩ := seq_run (by simpa using hr)
    obtain ⟨_, hr, _⟩ := seq_run hr
    obtain ⟨_, hr, _⟩ := seq_run hr
    rw [hf] at hr
    simp only [opt, callFunc, hx] at hr
    obtain ⟨_, hr, _⟩ := seq_run hr
    unfold callAttrSpecial at hr
    rw [if_neg (by rcases hxx with rfl | rfl <;> decide), decide_eq_true hxx] at hr
    refine each_mem_error ha (fun s t h => ?_) _ _ hr
    have : ∀ c : Const, (∀ t, c ≠ .str t) → strftimeArg n c s ≠ .ok t := by
      intro c hc h
      cases c <;> first | exact absurd rfl (hc _) | (cases h; done)
    unfold Node.constVal at h
    rw [hc] at h
    exact this _ hn h
  | @annotation g ps a e pre post hk hret hps hargs hpre hann hlit hcf =>
    have key : ∀ cs s t, handleFunctionDef env n g cs s ≠ .ok t := by
      intro cs s t hr
      obtain ⟨u, _, hr⟩ := seq_run hr
      unfold funcAnns at hr
      rw [hret] at hr
      simp only [Option.isSome_none, alt, Bool.false_eq_true, if_false] at hr
      unfold paramsOf at hr
      rw [hps] at hr
      dsimp only at hr
      rw [hargs] at hr
      have step : ∀ (pre : List Node), (∀ b ∈ pre, b.field .annotation = none) → argAnns env n (pre ++ a :: post) = argAnns env n (a :: post) := by
        intro pre hp
        induction pre with
        | nil => rfl
        | cons b pre ih =>
          rw [List.cons_append]
          conv => lhs; unfold argAnns
          rw [hp b (by simp)]
          exact ih fun k hk => hp k (by simp [hk])
      rw [step pre hpre] at hr
      unfold argAnns at hr
      rw [hann] at hr
      obtain ⟨v, _, hr⟩ := seq_run hr
      unfold rd isLiteralAnn at hr
      have hl : isAnn e "Literal" = false := by
        cases h : isAnn e "Literal" with
        | false => rfl
        | true => exact absurd (isAnn_iff h) hlit
      dsimp only at hr
      rw [hl, complexFirst_error hcf] at hr
      cases hr
    rcases hk with hk | hk
    · simp only [hk] at hr
      unfold visitFunctionDef gate at hr
      rw [hgate (by rw [hk]; trivial)] at hr
      obtain ⟨_, hr, _⟩ := seq_run (show (handleFunctionDef env n g _ ;; upd _) s = .ok t from hr)
      exact key _ _ _ hr
    · simp only [hk] at hr
      unfold visitAsyncFunctionDef gate at hr
      rw [hgate (by rw [hk]; trivial)] at hr
      obtain ⟨_, hr, _⟩ := seq_run (show (handleFunctionDef env n g _ ;; found env .coroutines "coroutines (async)" (from3 5) (.at n.line) (some true) ;; _ ;; upd _) s = .ok t from hr)
      obtain ⟨_, hr, _⟩ := seq_run hr
      obtain ⟨_, hr, _⟩ := seq_run hr
      exact key _ _ _ hr
  | @fstring a b e rest t u w hf hk hv ha ht hw hb he hu =>
    simp only [hk] at hr
    unfold visitJoinedStr at hr
    obtain ⟨_, hr, _⟩ := seq_run hr
    obtain ⟨v, _, hr⟩ := seq_run hr
    rw [hf, hv] at hr
    obtain ⟨x, hx⟩ := unwritable_error hu v.moduleAs
    have : selfDocPair v a b = .error x := by
      unfold selfDocPair Node.strVal
      rw [ha]
      dsimp only
      rw [ht, strip_ends hw, hb, he]
      simp [hx]
    unfold when rd selfDoc at hr
    simp only [if_true, this] at hr
    cases hr

/-- **C36 (converse).** A program crashes the visit if any part of it that is looked at and not marked to be left out is such that: a constant other than
a string is given to `.strftime` or `.strptime`; the first annotation of a parameter has a complex number in it; or, with the feature "fstring-self-doc", the
expression of an f-string is a dict with `**`. There is then no minimum version. -/
theorem C36_fatal (env : Env) (p n : Node) (h : Seen env p n p) (hm : ¬ Marked env n) (hf : Fatal env n) (s : S) : tour env p S.init ≠ .ok s := by
  intro hr
  obtain ⟨_, _, hv, _⟩ := tour_run hr
  obtain ⟨a, b, hn, _⟩ := seen_visited h hv
  exact fatal_error hf hm a b hn

/-- So it is not analysed. -/
theorem C36_fatal_detect (c : Config) (hst : Host) (path : String) (p n : Node) (toks : List Tok) (h : Seen (Env.make c hst path toks) p n p)
    (hm : ¬ Marked (Env.make c hst path toks) n) (hf : Fatal (Env.make c hst path toks) n) (r : Req) : detectSource c hst path p toks ≠ .ok r := by
  have := C36_fatal _ p n h hm hf
  unfold detectSource visitSource
  cases badPath c path with
  | true => exact nofun
  | false =>
    cases ht : tour (Env.make c hst path toks) p S.init with
    | error e => exact nofun
    | ok s => exact absurd ht (this s)

theorem thenM_run {f g : M} {x y : S × Req} (h : thenM f g x = .ok y) : ∃ z, f x = .ok z ∧ g z = .ok y := by
  unfold thenM at h
  cases hf : f x with
  | ok z => rw [hf] at h; exact ⟨z, rfl, h⟩
  | error e => rw [hf] at h; cases h

theorem eachM_mem {α : Type} {f : α → M} {a : α} : ∀ {l : List α} {x y : S × Req}, a ∈ l → eachM f l x = .ok y → ∃ u v, f a u = .ok v
  | b :: l, x, y, h, hr => by
    unfold eachM at hr
    cases hb : f b x with
    | error e => rw [hb] at hr; cases hr
    | ok z =>
      rw [hb] at hr
      rcases List.mem_cons.mp h with rfl | h
      · exact ⟨x, z, hb⟩
      · exact eachM_mem h hr

/-- If minimum versions are found, then every encoding could be compared with the entries of the table. -/
theorem minimum_encoding {env : Env} {s : S} {x : S × Req} (h : minimumVersions env s = .ok x) {c : Const} (hc : c ∈ s.codecsEnc)
    {e : EncKey × Req} (he : e ∈ env.tables.encodings) : ∃ u v, encodingEntryM env c e u = .ok v := by
  obtain ⟨⟨s1, m1⟩, h1, h2⟩ := thenM_run h
  obtain ⟨⟨s2, m2⟩, h3, h4⟩ := thenM_run h2
  have f1 : Frame s s1 := by
    rw [printM_unknown] at h1
    split at h1
    · rcases printFn_adds env s s (printStart s) (.refl s) with ⟨e, h, _⟩ | ⟨m', s', _, h, hf⟩ | ⟨e, msg, _, h⟩ <;> rw [h] at h1 <;> cases h1
      exact hf
    · cases h1; exact .refl s
  have f2 : Frame s s2 := by
    rcases Adds.each (fun f => featureM_adds env s1 f) features s1 m1 (.refl s1) with ⟨e, h, _⟩ | ⟨m', s', _, h, hf⟩ | ⟨e, msg, _, h⟩ <;> rw [h] at h3 <;> cases h3
    exact f1.trans hf
  dsimp only at h4
  rw [entitiesM_frame f2] at h4
  obtain ⟨_, _, h4⟩ := thenM_run h4
  obtain ⟨_, _, h4⟩ := thenM_run h4
  obtain ⟨_, _, h4⟩ := thenM_run h4
  obtain ⟨_, _, h4⟩ := thenM_run h4
  obtain ⟨_, h4, _⟩ := thenM_run h4
  obtain ⟨_, _, h5⟩ := eachM_mem hc h4
  exact eachM_mem he h5

/-- **C36 (converse).** Nor is a program that gives a constant to be an encoding that is not a string, if the table of encodings has an entry with a single
name (`"bz2"` for example). -/
theorem C36_fatal_encoding (env : Env) (p k n : Node) (l₁ l₂ : List Node) (c : Const) (hp : p.kind = .module) (hk : p.kids = l₁ ++ k :: l₂)
    (hr : Seen env p n k) (hm : ¬ Marked env n) (hg : Gives env p l₁ n (.encoding c)) (hs : ∀ t, c ≠ .str t)
    {y : String} {q : Req} (he : (.text y, q) ∈ env.tables.encodings) (s : S) (h : tour env p S.init = .ok s) (x : S × Req) : minimumVersions env s ≠ .ok x := by
  intro hx
  obtain ⟨u, v, huv⟩ := minimum_encoding hx (C71_recorded env p k n l₁ l₂ _ s h hp hk hr hm hg) he
  cases c <;> first | exact absurd rfl (hs _) | (cases huv; done)

/-- So it is not analysed. -/
theorem C36_fatal_encoding_detect (cfg : Config) (hst : Host) (path : String) (toks : List Tok) (p k n : Node) (l₁ l₂ : List Node) (c : Const)
    (hp : p.kind = .module) (hk : p.kids = l₁ ++ k :: l₂) (hr : Seen (Env.make cfg hst path toks) p n k) (hm : ¬ Marked (Env.make cfg hst path toks) n)
    (hg : Gives (Env.make cfg hst path toks) p l₁ n (.encoding c)) (hs : ∀ t, c ≠ .str t) (r : Req) :
    detectSource cfg hst path p toks ≠ .ok r := by
  have := C36_fatal_encoding _ p k n l₁ l₂ c hp hk hr hm hg hs (y := "bz2") (q := r3 3 4) (by simp [Env.make, Tables.std, Data.codecsEncodings])
  unfold detectSource visitSource
  cases badPath cfg path with
  | true => exact nofun
  | false =>
    cases ht : tour (Env.make cfg hst path toks) p S.init with
    | error e => exact nofun
    | ok s =>
      simp only [Bool.false_eq_true, if_false]
      cases hx : minimumVersions (Env.make cfg hst path toks) s with
      | error e => exact nofun
      | ok x => exact absurd hx (this s ht x)

/-! ### Examples -/

/-- `def f(self, x: -1j): pass` -/
def negativeComplex : Node :=
  prog [nd .body (.functionDef "f") 1 [nd .args .arguments 1 [nd .args (.arg "self") 1 [],
    nd .args (.arg "x") 1 [nd .annotation .unaryOp 1 [nd .op (.op .uSub) 1 [], nd .operand (.const (.complex "1j")) 1 []]]], nd .body .pass 1 []]]
/-- `f"{1j.real=}"` -/
def realPart : Node := prog [st 1 (nd .value .joinedStr 1 [nd .values (.const (.str "1j.real=")) 1 [],
  nd .values .formattedValue 1 [nd .value (.attribute "real") 1 [nd .value (.const (.complex "1j")) 1 []]]])]
/-- A table of encodings with a single name. -/
def textEnv : Env := { codecsEnv with tables := { codecsEnv.tables with encodings := [(.text "hex", ⟨none, some ⟨3, 4⟩⟩)] } }

/-- Such parts in programs: a number is given to `strftime`; `-1j` is an annotation; the real part of a complex number in an f-string. -/
theorem C36_fatal_witness :
    (∀ s, tour (exampleEnv (Config.init 1)) strftimeInt S.init ≠ .ok s) ∧
    (∀ s, tour (exampleEnv (Config.init 1)) negativeComplex S.init ≠ .ok s) ∧
    ∀ s, tour (exampleEnv { Config.init 1 with features := ["fstring-self-doc"] }) realPart S.init ≠ .ok s := by
  have hm : ∀ cfg n, ¬ Marked (exampleEnv cfg) n := fun _ _ h => nomatch h.2
  refine ⟨?_, ?_, ?_⟩
  · refine C36_fatal _ _ (nd .value .call 1 [nd .func (.attribute "strftime") 1 [nm .value "x"], nd .args (.const (.int 1)) 1 []]) ?_ (hm _ _)
      (.strftime rfl rfl rfl (.inl rfl) (.head _) rfl nofun)
    exact .kid ⟨.head _, hm _ _, nofun, by rintro ⟨_, h | ⟨⟨_, h | h⟩, _⟩⟩ <;> cases h⟩ (.kid ⟨.head _, hm _ _, nofun, by rintro ⟨_, h | ⟨⟨_, h | h⟩, _⟩⟩ <;> cases h⟩ (.self _))
  · refine C36_fatal _ _ _ (.kid ⟨.head _, hm _ _, nofun, by rintro ⟨_, h | ⟨⟨_, h | h⟩, _⟩⟩ <;> cases h⟩ (.self _)) (hm _ _)
      (.annotation (pre := [nd .args (.arg "self") 1 []]) (.inl rfl) rfl rfl rfl (by simp; rfl) rfl ?_ ?_)
    · rintro (⟨_, h⟩ | ⟨h, _⟩) <;> cases h
    · refine ⟨[nd .annotation .unaryOp 1 [nd .op (.op .uSub) 1 [], nd .operand (.const (.complex "1j")) 1 []], nd .op (.op .uSub) 1 []], _, [], "1j",
        (C73_walk _ _).mpr rfl, ?_, rfl⟩
      intro m hm
      rcases List.mem_cons.mp hm with rfl | hm
      · exact trivial
      · rw [List.mem_singleton.mp hm]; exact trivial
  · refine C36_fatal _ _ (nd .value .joinedStr 1 _) (.kid ⟨.head _, hm _ _, nofun, by rintro ⟨_, h | ⟨⟨_, h | h⟩, _⟩⟩ <;> cases h⟩
      (.kid ⟨.head _, hm _ _, nofun, by rintro ⟨_, h | ⟨⟨_, h | h⟩, _⟩⟩ <;> cases h⟩ (.self _))) (hm _ _)
      (.fstring (u := "1j.real".toList) (w := []) (by decide +kernel) rfl rfl rfl (by decide +kernel) nofun rfl rfl (.inr ⟨"real", _, "1j", rfl, .inl rfl, rfl, rfl, rfl⟩))

/-- `codecs.open(p, "r", None)` is looked at, but there are no minimum versions then. -/
theorem C36_fatal_encoding_witness : ∃ s, tour textEnv openNone S.init = .ok s ∧ ∀ x, minimumVersions textEnv s ≠ .ok x := by
  have : (tour textEnv openNone S.init).toBool = true := by decide +kernel
  cases h : tour textEnv openNone S.init with
  | error e => rw [h] at this; cases this
  | ok s =>
    have hm : ∀ n, ¬ Marked textEnv n := fun _ h => nomatch h.2
    refine ⟨s, rfl, C36_fatal_encoding textEnv openNone _ _ [nd .body .import 1 [nd .names (.alias "codecs" none) 1 []]] [] .none rfl rfl
      (.kid ⟨.head _, hm _, nofun, by rintro ⟨_, h | ⟨⟨_, h | h⟩, _⟩⟩ <;> cases h⟩ (.self _)) (hm _)
      (.encoding rfl rfl (.chain (bs := ["open"]) (chain_attr_nd ..) (notAs_of (by decide +kernel))) (is := [2]) (by decide +kernel) (.head _) rfl rfl (by decide +kernel))
      nofun (.head _) s h⟩

end Vermin.Props
