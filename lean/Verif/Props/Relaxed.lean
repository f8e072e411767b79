import Verif.Lemmas.Relax
import Verif.Props.File
import Verif.Props.Display
/-
C85: excluding more and enabling more backports never raises what a source requires; C89: enabling more features never lowers it.
-/
namespace Vermin.Props
open Vermin Vermin.Py Vermin.Spec Vermin.V

/-! ### Encodings -/

theorem thenM_ok {f g : M} {x z : MState} (h : thenM f g x = .ok z) : ∃ y, f x = .ok y ∧ g y = .ok z := by
  unfold thenM at h
  cases hf : f x with
  | error e => rw [hf] at h; cases h
  | ok y => rw [hf] at h; exact ⟨y, rfl, h⟩
theorem eachM_ok {α : Type} {f : α → M} : ∀ {l : List α} {x z : MState}, eachM f l x = .ok z → ∀ a ∈ l, ∃ y w, f a y = .ok w
  | [], _, _, _, _, ha => nomatch ha
  | b :: l, x, z, h, a, ha => by
    unfold eachM at h
    cases hf : f b x with
    | error e => rw [hf] at h; cases h
    | ok y =>
      rw [hf] at h
      rcases List.mem_cons.mp ha with rfl | ha
      · exact ⟨x, y, hf⟩
      · exact eachM_ok h a ha

/-- If the table of encodings has a string as a key, as that of the program has, other constants than strings as encodings crash. -/
theorem encodings_ok {env : Env} (ht : ∃ t r, (EncKey.text t, r) ∈ env.tables.encodings) {s s' : S} {m : Req}
    (h : minimumVersions env s = .ok (s', m)) : EncodingsOk s := by
  obtain ⟨y, hf, hy⟩ : ∃ y : MState, Frame s y.1 ∧ ∃ z, entitiesM env y.1 y = .ok z := by
    have after : ∀ {u : S} {k : Req} {z : MState}, afterPrint env (u, k) = .ok z → ∃ y : MState, Frame u y.1 ∧ ∃ z, entitiesM env y.1 y = .ok z := by
      intro u k z h
      obtain ⟨y, h1, h2⟩ := thenM_ok h
      rcases Adds.each (fun f => featureM_adds env u f) features u k (.refl u) with ⟨e, h', _⟩ | ⟨m', u', _, h', hf⟩ | ⟨e, msg, _, h'⟩
      · rw [h'] at h1; cases h1
      · rw [h'] at h1
        cases h1
        exact ⟨_, hf, _, h2⟩
      · rw [h'] at h1; cases h1
    rw [minimumVersions_eq] at h
    split at h
    · obtain ⟨⟨u, k⟩, h1, h2⟩ := thenM_ok h
      rcases printFn_adds env s s (printStart s) (.refl s) with ⟨e, h', _⟩ | ⟨m', u', _, h', hf⟩ | ⟨e, msg, _, h'⟩
      · rw [h'] at h1; cases h1
      · rw [h'] at h1
        cases h1
        obtain ⟨y, h3, h4⟩ := after h2
        exact ⟨y, hf.trans h3, h4⟩
      · rw [h'] at h1; cases h1
    · exact after h
  obtain ⟨z, hz⟩ := hy
  rw [entitiesM_frame hf] at hz
  intro c hc
  obtain ⟨_, _, hz⟩ := thenM_ok hz
  obtain ⟨_, _, hz⟩ := thenM_ok hz
  obtain ⟨_, _, hz⟩ := thenM_ok hz
  obtain ⟨_, _, hz⟩ := thenM_ok hz
  obtain ⟨_, hz, _⟩ := thenM_ok hz
  obtain ⟨_, _, hz⟩ := eachM_ok hz c hc
  obtain ⟨t, r, ht⟩ := ht
  obtain ⟨_, _, hz⟩ := eachM_ok hz _ ht
  cases c with
  | str n => exact ⟨n, rfl⟩
  | _ => cases hz

/-! ### Detection -/

theorem detect_ok_iff (c : Config) (h : Host) (path : String) (node : Node) (toks : List Tok) (m : Req) :
    detectSource c h path node toks = .ok m ↔ badPath c path = false ∧ ∃ s s', tour (Env.make c h path toks) node S.init = .ok s ∧
      minimumVersions (Env.make c h path toks) s = .ok (s', m) := by
  unfold detectSource visitSource
  cases hb : badPath c path with
  | true => simp
  | false =>
    simp only [Bool.false_eq_true, if_false]
    cases ht : tour (Env.make c h path toks) node S.init with
    | error e => simp
    | ok s =>
      dsimp only
      cases hv : minimumVersions (Env.make c h path toks) s with
      | error e => simp [hv]
      | ok x =>
        obtain ⟨s', m'⟩ := x
        have hf := minimumVersions_frame hv
        dsimp only
        obtain ⟨s2, hr⟩ : ∃ s2, minimumVersions (Env.make c h path toks) s' = .ok (s2, m') := by
          obtain ⟨_, s2, h2, _⟩ := minimumVersions_repeats _ (.refl s) hf hv
          exact ⟨s2, h2⟩
        rw [hr]
        simp [hv]

/-! ### Relaxations -/

/-- An exclusion of a keyword argument, `function(keyword)`. -/
def NamesKeyword (x : String) : Prop := ∃ f k, x = f ++ "(" ++ k ++ ")"

/-- The second configuration is about the same analysis, except that it excludes at least the same names and enables at least the same
backports; but no further keyword arguments are excluded and no further backports of `typing_extensions` are enabled. -/
structure Relaxation (c c' : Config) : Prop where
  ignoreIncomp : c'.ignoreIncomp = c.ignoreIncomp
  features : c'.features = c.features
  evalAnnotations : c'.evalAnnotations = c.evalAnnotations
  parseComments : c'.parseComments = c.parseComments
  exclusions : ∀ x ∈ c.exclusions, x ∈ c'.exclusions
  keywords : ∀ x ∈ c'.exclusions, NamesKeyword x → x ∈ c.exclusions
  backports : ∀ b ∈ c.backports, b ∈ c'.backports
  typing : ∀ b ∈ c'.backports, Variant b "typing_extensions" → b ∈ c.backports

/-- The same, except that the second configuration enables at most the same features. -/
structure Loosening (c c' : Config) : Prop where
  ignoreIncomp : c'.ignoreIncomp = c.ignoreIncomp
  features : ∀ x ∈ c'.features, x ∈ c.features
  evalAnnotations : c'.evalAnnotations = c.evalAnnotations
  parseComments : c'.parseComments = c.parseComments
  exclusions : ∀ x ∈ c.exclusions, x ∈ c'.exclusions
  keywords : ∀ x ∈ c'.exclusions, NamesKeyword x → x ∈ c.exclusions
  backports : ∀ b ∈ c.backports, b ∈ c'.backports
  typing : ∀ b ∈ c'.backports, Variant b "typing_extensions" → b ∈ c.backports

theorem Relaxation.loosens {c c' : Config} (h : Relaxation c c') : Loosening c c' :=
  ⟨h.ignoreIncomp, fun x hx => h.features ▸ hx, h.evalAnnotations, h.parseComments, h.exclusions, h.keywords, h.backports, h.typing⟩

theorem Loosening.excludedKwarg {c c' : Config} (hr : Loosening c c') (f k : String) : c'.isExcludedKwarg f k = c.isExcludedKwarg f k := by
  unfold Config.isExcludedKwarg
  rw [Bool.eq_iff_iff, List.contains_iff_mem, List.contains_iff_mem]
  exact ⟨fun h => hr.keywords _ h ⟨f, k, rfl⟩, hr.exclusions _⟩

/-- Rules exist regardless of backports. -/
theorem std_mem_isSome (c c' : Config) (m : String) : ((Tables.std c').mem m).isSome = ((Tables.std c).mem m).isSome := by
  unfold Tables.std
  dsimp only
  rw [Option.isSome_map, Option.isSome_map]

theorem typing_same {c c' : Config} (hr : Loosening c c') (v : RuleVal) (h : ("typing_extensions", v) ∈ Data.modReqs) :
    v.eval c'.backports = v.eval c.backports := by
  have h2 := List.all_eq_true.mp typing_extensions_val _ h
  cases v with
  | const r => rfl
  | ifNotBp _ _ _ => simp at h2
  | bpv n dflt =>
    simp only [bne_self_eq_false, Bool.false_or, Bool.and_eq_true, beq_iff_eq, decide_eq_true_eq] at h2
    obtain ⟨rfl, rfl⟩ := h2
    have e : expandVersions "typing_extensions" =
        [("typing_extensions", r3 3 7), ("typing_extensions==4.3", r3 3 7), ("typing_extensions==4.0", r3 3 6)] := by
      decide +kernel
    have key : ∀ b, Variant b "typing_extensions" → c'.backports.contains b = c.backports.contains b := by
      intro b hb
      rw [Bool.eq_iff_iff, List.contains_iff_mem, List.contains_iff_mem]
      exact ⟨fun h => hr.typing b h hb, hr.backports b⟩
    have k1 := key "typing_extensions" (.inl rfl)
    have k2 := key "typing_extensions==4.3" (.inr ⟨"4.3", by decide, by decide⟩)
    have k3 := key "typing_extensions==4.0" (.inr ⟨"4.0", by decide, by decide⟩)
    simp only [RuleVal.eval, bpv, e, bpv.go, bp, k1, k2, k3]
    rfl

/-- Satisfied by no fewer interpreters, and not restricted to one major version unless the other is. -/
structure Milder (r r' : Req) : Prop where
  satisfies : ∀ v, Satisfies v r → Satisfies v r'
  py2Only : Py2Only r' → Py2Only r
  py3Only : Py3Only r' → Py3Only r

theorem Milder.refl (r : Req) : Milder r r := ⟨fun _ h => h, id, id⟩

theorem SaneRule.milder {r r' : Req} (hs : SaneRule r) (hw : ∀ v, Satisfies v r → Satisfies v r') : Milder r r' := by
  have h2 : r'.py2 = none → r.py2 = none := by
    intro h
    rcases hs.1 with h0 | ⟨m, _, h0⟩
    · exact h0
    · rcases hw ⟨2, m⟩ (.inl ⟨rfl, _, h0, Ver.le_refl _⟩) with ⟨_, x, hx, _⟩ | ⟨h1, _⟩
      · rw [h] at hx; cases hx
      · cases h1
  have h3 : r'.py3 = none → r.py3 = none := by
    intro h
    rcases hs.2.1 with h0 | ⟨m, _, h0⟩
    · exact h0
    · rcases hw ⟨3, m⟩ (.inr ⟨rfl, _, h0, Ver.le_refl _⟩) with ⟨h1, _⟩ | ⟨_, x, hx, _⟩
      · cases h1
      · rw [h] at hx; cases hx
  refine ⟨hw, fun h => ?_, fun h => ?_⟩
  · exact ⟨Option.ne_none_iff_exists'.mp fun hn => hs.2.2 ⟨hn, h3 h.2⟩, h3 h.2⟩
  · exact ⟨h2 h.1, Option.ne_none_iff_exists'.mp fun hn => hs.2.2 ⟨h2 h.1, hn⟩⟩

/-- The rules of modules, members and keyword arguments get milder. -/
theorem rules_milder {c c' : Config} (hr : Loosening c c') :
    (∀ m r', (Tables.std c').mod m = some r' → ∃ r, (Tables.std c).mod m = some r ∧ Milder r r') ∧
    (∀ m r', (Tables.std c').mem m = some r' → ∃ r, (Tables.std c).mem m = some r ∧ Milder r r') ∧
    ∀ k r', (Tables.std c').kw k = some r' → ∃ r, (Tables.std c).kw k = some r ∧ Milder r r' := by
  obtain ⟨h1, h2, h3⟩ := C14_backports_never_raise hr.backports
  unfold Tables.std
  dsimp only
  refine ⟨fun m r' hm => ?_, fun m r' hm => ?_, fun k r' hm => ?_⟩
  · obtain ⟨v, hv, rfl⟩ := Option.map_eq_some_iff.mp hm
    refine ⟨_, by rw [hv]; rfl, ?_⟩
    have hv := (C13_lookup.1 _ _).mp hv
    by_cases ht : m = "typing_extensions"
    · subst ht
      rw [typing_same hr v hv]
      exact .refl _
    · rcases C12_modules c.backports hv with hs | ⟨hc, _⟩
      · exact hs.milder (h1 m v hv ht)
      · exact absurd hc ht
  · obtain ⟨v, hv, rfl⟩ := Option.map_eq_some_iff.mp hm
    have hv' := (C13_lookup.2.1 _ _).mp hv
    exact ⟨_, by rw [hv]; rfl, (C12_members c.backports hv').milder (h2 m v hv')⟩
  · obtain ⟨f, k⟩ := k
    cases k with
    | none => cases hm
    | some k =>
      obtain ⟨v, hv, rfl⟩ := Option.map_eq_some_iff.mp hm
      have hv' := (C13_lookup.2.2 _ _).mp hv
      exact ⟨_, by dsimp only; rw [hv]; rfl, (C12_kwargs c.backports hv').milder (h3 (f, k) v hv')⟩

/-- What a visit with fewer findings requires is mild. -/
theorem requires_milder {c c' : Config} (hr : Loosening c c') {h : Host} {path : String} {toks : List Tok} {s : S} {y : Findings} (hy : Fewer y s.findings) {r' : Req}
    (hq : Requires (Env.make c' h path toks) (s.withOut y) r') : ∃ r, Requires (Env.make c h path toks) s r ∧ Milder r r' := by
  obtain ⟨h1, h2, h3⟩ := rules_milder hr
  cases hq with
  | feature hf he => exact ⟨r', .feature (List.contains_iff_mem.mpr (hy.flags _ (List.contains_iff_mem.mp hf))) he, .refl _⟩
  | strftime hd ht => exact ⟨r', .strftime hd ht, .refl _⟩
  | bytesDir hd ht => exact ⟨r', .bytesDir hd ht, .refl _⟩
  | typecode hd ht => exact ⟨r', .typecode hd ht, .refl _⟩
  | errorHandler hd ht => exact ⟨r', .errorHandler (hy.errs _ hd) ht, .refl _⟩
  | encoding hd hk ht => exact ⟨r', .encoding (hy.encs _ hd) hk ht, .refl _⟩
  | module hd ht =>
    obtain ⟨r, hr, hm⟩ := h1 _ _ ht
    exact ⟨r, .module (hy.modules _ hd) hr, hm⟩
  | member hd ht =>
    obtain ⟨r, hr, hm⟩ := h2 _ _ ht
    exact ⟨r, .member (hy.members _ hd) hr, hm⟩
  | kwarg hd ht =>
    obtain ⟨r, hr, hm⟩ := h3 _ _ ht
    exact ⟨r, .kwarg (hy.kwargs _ hd) hr, hm⟩
  | decorator hd ht => exact ⟨r', .decorator (hy.decos _ hd) ht, .refl _⟩

theorem std_text (c : Config) : ∃ t r, (EncKey.text t, r) ∈ (Tables.std c).encodings := by
  refine ⟨"bz2", r3 3 4, ?_⟩
  show _ ∈ Data.codecsEncodings
  simp [Data.codecsEncodings]

/-- **C85 (visit).** With a relaxed configuration the visit of a source ends in the same way: it raises the same exception, or it leads to the same state,
but with no other modules, members, features, keyword arguments, decorators, error handlers and encodings found. -/
theorem C85_visit (c c' : Config) (h : Host) (path : String) (node : Node) (toks : List Tok) (hr : Relaxation c c') (hp : Printable c path)
    (hp' : Printable c' path) :
    (∀ e, tour (Env.make c h path toks) node S.init = .error e ↔ tour (Env.make c' h path toks) node S.init = .error e) ∧
    ∀ s, tour (Env.make c h path toks) node S.init = .ok s → ∃ s', tour (Env.make c' h path toks) node S.init = .ok s' ∧
      s' = s.withOut s'.findings ∧ Fewer s'.findings s.findings := by
  have hrun := tour_relax (P := True) (env := Env.make c h path toks) (d := c'.display (Tables.std c')) rfl hr.loosens.features (fun _ => hr.features) hr.exclusions
    hr.loosens.excludedKwarg (fun m => by simp only [Config.display, Env.make]; exact std_mem_isSome c c' m) hp.1 hp'.1 node S.init S.init.findings (.refl _)
  rw [← Env.make_show hr.ignoreIncomp hr.evalAnnotations hr.parseComments, S.withOut_self] at hrun
  revert hrun
  cases tour (Env.make c h path toks) node S.init with
  | error e =>
    intro he
    rw [he trivial]
    exact ⟨fun _ => Iff.rfl, nofun⟩
  | ok s =>
    cases tour (Env.make c' h path toks) node S.init with
    | error e => exact False.elim
    | ok t =>
      rintro ⟨y, rfl, hy⟩
      refine ⟨fun e => ⟨nofun, nofun⟩, fun s1 hs1 => ?_⟩
      cases hs1
      exact ⟨_, rfl, rfl, hy⟩

/-- **C89 (visit).** If a source can be visited, it can be visited with fewer features enabled (and more excluded): this leads to the same state, but with no
other modules, members, features, keyword arguments, decorators, error handlers and encodings found. -/
theorem C89_visit (c c' : Config) (h : Host) (path : String) (node : Node) (toks : List Tok) (hr : Loosening c c') (hp : Printable c path)
    (hp' : Printable c' path) (s : S) (hs : tour (Env.make c h path toks) node S.init = .ok s) :
    ∃ s', tour (Env.make c' h path toks) node S.init = .ok s' ∧ s' = s.withOut s'.findings ∧ Fewer s'.findings s.findings := by
  have hrun := tour_relax (P := False) (env := Env.make c h path toks) (d := c'.display (Tables.std c')) rfl hr.features False.elim hr.exclusions
    hr.excludedKwarg (fun m => by simp only [Config.display, Env.make]; exact std_mem_isSome c c' m) hp.1 hp'.1 node S.init S.init.findings (.refl _)
  rw [← Env.make_show hr.ignoreIncomp hr.evalAnnotations hr.parseComments, S.withOut_self, hs] at hrun
  revert hrun
  cases tour (Env.make c' h path toks) node S.init with
  | error e => exact False.elim
  | ok t =>
    rintro ⟨y, rfl, hy⟩
    exact ⟨_, rfl, rfl, hy⟩

/-- **C89.** If minimum versions are detected for a source, they are also detected with fewer features enabled (and more excluded and more backports enabled), and
every interpreter that satisfies the former satisfies the latter: enabling features never lowers what a source requires. -/
theorem C89_loosened (c c' : Config) (h : Host) (path : String) (node : Node) (toks : List Tok) (hr : Loosening c c') (hp : Printable c path)
    (hp' : Printable c' path) (m : Req) (hm : detectSource c h path node toks = .ok m) :
    ∃ m', detectSource c' h path node toks = .ok m' ∧ ∀ v, Satisfies v m → Satisfies v m' := by
  obtain ⟨_, s, s1, hs, hv⟩ := (detect_ok_iff c h path node toks m).mp hm
  obtain ⟨s', hs', hw, hf⟩ := C89_visit c c' h path node toks hr hp hp' s hs
  have hq : ∀ r', Requires (Env.make c' h path toks) s' r' → ∃ r, Requires (Env.make c h path toks) s r ∧ Milder r r' := by
    intro r' hq
    rw [hw] at hq
    exact requires_milder hr hf hq
  have he := encodings_ok (std_text c) hv
  have he' : EncodingsOk s' := fun k hk => he k (hf.encs k hk)
  obtain ⟨k1, _⟩ := C32_raises_std (env := Env.make c h path toks) (s := s) rfl hp.1 he
  obtain ⟨k2, _⟩ := C32_raises_std (env := Env.make c' h path toks) (s := s') rfl hp'.1 he'
  cases hv' : minimumVersions (Env.make c' h path toks) s' with
  | error e =>
    obtain ⟨hi, ⟨a, ha, ha2⟩, ⟨b, hb, hb3⟩⟩ := k2.mp ⟨e, hv'⟩
    obtain ⟨a0, ha0, hma⟩ := hq a ha
    obtain ⟨b0, hb0, hmb⟩ := hq b hb
    obtain ⟨e', he'⟩ := k1.mpr ⟨hr.ignoreIncomp.symm.trans hi, ⟨a0, ha0, hma.py2Only ha2⟩, ⟨b0, hb0, hmb.py3Only hb3⟩⟩
    rw [hv] at he'; cases he'
  | ok x =>
    obtain ⟨s2, m'⟩ := x
    refine ⟨m', (detect_ok_iff c' h path node toks m').mpr ⟨hp'.goodPath, s', s2, hs', hv'⟩, fun v hs => ?_⟩
    obtain ⟨hmaj, hall⟩ := (C32_satisfies hv v).mp hs
    refine (C32_satisfies hv' v).mpr ⟨hmaj, fun r' hr' => ?_⟩
    obtain ⟨r, hr1, hr2⟩ := hq r' hr'
    exact hr2.satisfies v (hall r hr1)

/-- **C85.** If minimum versions are detected for a source, they are also detected with a relaxed configuration, and every interpreter that satisfies the former
satisfies the latter. -/
theorem C85_relaxed (c c' : Config) (h : Host) (path : String) (node : Node) (toks : List Tok) (hr : Relaxation c c') (hp : Printable c path)
    (hp' : Printable c' path) (m : Req) (hm : detectSource c h path node toks = .ok m) :
    ∃ m', detectSource c' h path node toks = .ok m' ∧ ∀ v, Satisfies v m → Satisfies v m' :=
  C89_loosened c c' h path node toks hr.loosens hp hp' m hm

/-- `f(k=(long := x))`, then `long`. -/
def keywordSource : Node := prog [
  st 1 (nd .value .call 1 [nm .func "f" 1, nd .keywords (.keyword (some "k")) 1
    [nd .value .namedExpr 1 [nd .target (.name "long" .store) 1 [], nm .value "x" 1]]]),
  st 2 (nm .value "long" 2)]

/-- What is required of the source of a tree, with the tables of the example. -/
def requirement (c : Config) (n : Node) : Option Req :=
  match tour (exampleEnv c) n S.init with
  | .error _ => none
  | .ok s =>
    match minimumVersions (exampleEnv c) s with
    | .error _ => none
    | .ok (_, r) => some r

/-- Why no further keyword arguments may be excluded: the value of an excluded one is not visited, so names defined in it are not known. -/
theorem C85_false_keywords : requirement (Config.init 1) keywordSource = some ⟨none, some ⟨3, 8⟩⟩ ∧
    requirement { Config.init 1 with exclusions := ["f(k)"] } keywordSource = some ⟨some ⟨2, 0⟩, none⟩ := by decide +kernel

/-- Example: excluding `argparse` and enabling the backport of `enum`. -/
def relaxed : Config := { Config.init 1 with exclusions := ["argparse"], backports := ["enum"] }

theorem C85_witness : Relaxation (Config.init 1) relaxed ∧ Printable (Config.init 1) "a.py" ∧ Printable relaxed "a.py" ∧
    requirement (Config.init 1) (prog [nd .body .import 1 [nd .names (.alias "argparse" none) 1 []]]) = some ⟨some ⟨2, 7⟩, some ⟨3, 2⟩⟩ ∧
    requirement relaxed (prog [nd .body .import 1 [nd .names (.alias "argparse" none) 1 []]]) = some ⟨some ⟨0, 0⟩, some ⟨0, 0⟩⟩ := by
  refine ⟨⟨rfl, rfl, rfl, rfl, nofun, ?_, nofun, ?_⟩, ⟨nofun, nofun⟩, ⟨nofun, nofun⟩, by decide +kernel, by decide +kernel⟩
  · rintro x hx ⟨f, k, rfl⟩
    have h := List.mem_singleton.mp hx
    have h := congrArg (fun s => s.toList.contains ')') h
    simp only [String.toList_append, List.contains_append] at h
    revert h
    simp
  · rintro b hb hv
    rw [List.mem_singleton.mp hb] at hv
    rcases hv with h | ⟨v, _, h⟩
    · exact absurd h (by decide)
    · have h := congrArg (fun s => s.toList.head?) h
      simp [String.toList_append] at h

/-- `int | str` -/
def unionSource : Node := prog [st 1 (nd .value .binOp 1 [nm .left "int" 1, nd .op (.op .bitOr) 1 [], nm .right "str" 1])]

/-- A configuration with a feature enabled. -/
def featured (x : String) : Config := { Config.init 1 with features := [x] }

/-- Example: union types are looked for only if the feature is enabled. -/
theorem C89_witness : Loosening (featured "union-types") (Config.init 1) ∧ Printable (featured "union-types") "a.py" ∧ Printable (Config.init 1) "a.py" ∧
    requirement (featured "union-types") unionSource = some ⟨none, some ⟨3, 10⟩⟩ ∧
    requirement (Config.init 1) unionSource = some ⟨some ⟨0, 0⟩, some ⟨0, 0⟩⟩ :=
  ⟨⟨rfl, nofun, rfl, rfl, nofun, nofun, nofun, nofun⟩, ⟨nofun, nofun⟩, ⟨nofun, nofun⟩, by decide +kernel, by decide +kernel⟩

/-- `x: int = (long := 1)`, then `long` -/
def annotatedSource : Node := prog [
  nd .body .annAssign 1 [nd .target (.name "x" .store) 1 [], nm .annotation "int" 1,
    nd .value .namedExpr 1 [nd .target (.name "long" .store) 1 [], nm .value "y" 1]],
  st 2 (nm .value "long" 2)]

/-- `import argparse`, then `argparse = y` -/
def redefinedSource : Node := prog [
  nd .body .import 1 [nd .names (.alias "argparse" none) 1 []],
  nd .body .assign 2 [nd .targets (.name "argparse" .store) 2 [], nm .value "y" 2]]

/-- What is required with some lines marked by comments. -/
def requirementWithout (lines : List Nat) (n : Node) : Option Req :=
  match tour { exampleEnv (Config.init 1) with noLines := lines } n S.init with
  | .error _ => none
  | .ok s =>
    match minimumVersions (exampleEnv (Config.init 1)) s with
    | .error _ => none
    | .ok (_, r) => some r

/-- Why the options about annotations and comments are left out: evaluating annotations may reveal a definition, without which the name is taken for a builtin of
Python 2, and a comment may hide one. -/
theorem C89_false_annotations : requirement (Config.init 1) annotatedSource = none ∧
    requirement { Config.init 1 with evalAnnotations := true } annotatedSource = some ⟨none, some ⟨3, 8⟩⟩ := by decide +kernel
theorem C89_false_comments : requirementWithout [] redefinedSource = some ⟨some ⟨0, 0⟩, some ⟨0, 0⟩⟩ ∧
    requirementWithout [2] redefinedSource = some ⟨some ⟨2, 7⟩, some ⟨3, 2⟩⟩ := by decide +kernel
end Vermin.Props
