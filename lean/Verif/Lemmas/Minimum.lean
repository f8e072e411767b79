import Verif.Model.Minimum
import Verif.Lemmas.Combine
/- `minimum_versions` as a fold over a list of requirements. -/
namespace Vermin
open Py V

/-- Only the printed lines and the record of texts differ. -/
def Frame (s s' : S) : Prop := s' = { s with out := s'.out, infoVersions := s'.infoVersions }

theorem Frame.refl (s : S) : Frame s s := rfl

theorem Frame.trans {a b c : S} (h1 : Frame a b) (h2 : Frame b c) : Frame a c := by
  unfold Frame at *
  rw [h2, h1]

theorem Frame.symm {a b : S} (h : Frame a b) : Frame b a := by
  unfold Frame at *
  rw [h]

/-- Any exception but `InvalidVersionException`. -/
def Crash (e : Err) : Prop := ∀ msg, e ≠ .invalidVersion msg

/-- `f`, from states that agree with `s0` on the findings, combines the requirements `l` (or crashes). -/
def Adds (env : Env) (s0 : S) (f : M) (l : List Req) : Prop :=
  ∀ s m, Frame s0 s →
    (∃ e, f (s, m) = .error e ∧ Crash e) ∨
    (∃ m' s', combineFrom env.cfg.ignoreIncomp none m l = .ok m' ∧ f (s, m) = .ok (s', m') ∧ Frame s s') ∨
    (∃ e msg, combineFrom env.cfg.ignoreIncomp none m l = .error e ∧ f (s, m) = .error (.invalidVersion msg))

/-- `f` does the same from all states that agree with `s0` on the findings. -/
def Repeats (s0 : S) (f : M) : Prop :=
  ∀ s1 s2 m s1' m', Frame s0 s1 → Frame s0 s2 → f (s1, m) = .ok (s1', m') →
    ∃ d s2', f (s2, m) = .ok (s2', m') ∧ Frame s1 s1' ∧ Frame s2 s2' ∧ s1'.out = s1.out ++ d ∧ s2'.out = s2.out ++ d

/-- The only exception is `InvalidVersionException`. -/
def Safe (f : M) : Prop := ∀ x e, f x = .error e → ¬ Crash e

theorem combineFrom_append (ign refs) : ∀ (l1 l2 : List Req) (m : Req), combineFrom ign refs m (l1 ++ l2) =
    (combineFrom ign refs m l1).bind fun m' => combineFrom ign refs m' l2
  | [], l2, m => rfl
  | r :: l1, l2, m => by
    rw [List.cons_append, combineFrom_cons, combineFrom_cons]
    cases combineVersions ign m r refs with
    | error e => rfl
    | ok a => exact combineFrom_append ign refs l1 l2 a

theorem Adds.then {env : Env} {s0 : S} {f g : M} {l1 l2 : List Req} (hf : Adds env s0 f l1) (hg : Adds env s0 g l2) :
    Adds env s0 (thenM f g) (l1 ++ l2) := by
  intro s m hs
  rw [combineFrom_append]
  unfold thenM
  rcases hf s m hs with ⟨e, h, he⟩ | ⟨m', s', hc, h, hs'⟩ | ⟨e, msg, hc, h⟩
  · exact .inl ⟨e, by rw [h], he⟩
  · rw [h, hc]
    show (∃ e, g (s', m') = .error e ∧ Crash e) ∨ _
    rcases hg s' m' (hs.trans hs') with h | ⟨m'', s'', hc', h', hs''⟩ | h
    · exact .inl h
    · exact .inr (.inl ⟨m'', s'', hc', h', hs'.trans hs''⟩)
    · exact .inr (.inr h)
  · exact .inr (.inr ⟨e, msg, by rw [hc]; rfl, by rw [h]⟩)

theorem Repeats.then {s0 : S} {f g : M} (hf : Repeats s0 f) (hg : Repeats s0 g) : Repeats s0 (thenM f g) := by
  intro s1 s2 m s1' m' h1 h2 h
  unfold thenM at h ⊢
  cases hfe : f (s1, m) with
  | error e => rw [hfe] at h; cases h
  | ok x =>
    obtain ⟨t1, n⟩ := x
    rw [hfe] at h
    obtain ⟨d, t2, e2, f1, f2, o1, o2⟩ := hf s1 s2 m t1 n h1 h2 hfe
    obtain ⟨d', u2, e3, f3, f4, o3, o4⟩ := hg t1 t2 n s1' m' (h1.trans f1) (h2.trans f2) h
    refine ⟨d ++ d', u2, by rw [e2]; exact e3, f1.trans f3, f2.trans f4, ?_, ?_⟩
    · rw [o3, o1, List.append_assoc]
    · rw [o4, o2, List.append_assoc]

theorem Safe.then {f g : M} (hf : Safe f) (hg : Safe g) : Safe (thenM f g) := by
  intro x e h
  unfold thenM at h
  cases hfe : f x with
  | error e' =>
    rw [hfe] at h
    injection h with h; subst h
    exact hf x e' hfe
  | ok y => rw [hfe] at h; exact hg y e h

theorem Adds.skip {env : Env} {s0 : S} : Adds env s0 (fun x => .ok x) [] :=
  fun s m _ => .inr (.inl ⟨m, s, rfl, rfl, .refl s⟩)
theorem Repeats.skip {s0 : S} : Repeats s0 (fun x => .ok x) := by
  intro s1 s2 m s1' m' _ _ h
  injection h with h
  injection h with ha hb
  subst ha; subst hb
  exact ⟨[], s2, rfl, .refl _, .refl _, by simp, by simp⟩
theorem Safe.skip : Safe (fun x => .ok x) := by intro x e h; cases h

theorem eachM_cons {α : Type} (f : α → M) (a : α) (as : List α) : eachM f (a :: as) = thenM (f a) (eachM f as) := rfl

theorem Adds.each {α : Type} {env : Env} {s0 : S} {f : α → M} {r : α → List Req} (h : ∀ a, Adds env s0 (f a) (r a)) :
    ∀ l : List α, Adds env s0 (eachM f l) (l.flatMap r)
  | [] => Adds.skip
  | a :: as => by
    rw [eachM_cons, List.flatMap_cons]
    exact (h a).then (Adds.each h as)

theorem Repeats.each {α : Type} {s0 : S} {f : α → M} (h : ∀ a, Repeats s0 (f a)) : ∀ l : List α, Repeats s0 (eachM f l)
  | [] => Repeats.skip
  | a :: as => by rw [eachM_cons]; exact (h a).then (Repeats.each h as)

theorem Safe.each {α : Type} {f : α → M} : ∀ {l : List α}, (∀ a ∈ l, Safe (f a)) → Safe (eachM f l)
  | [], _ => Safe.skip
  | a :: as, h => by
    rw [eachM_cons]
    exact (h a (by simp)).then (Safe.each fun x hx => h x (by simp [hx]))

/-! ### Printing -/

theorem violates_error {env : Env} {v : Option Req} {e : Err} (h : violates env v = .error e) :
    e = .indexError ∧ env.cfg.onlyShowViolations = true ∧ env.cfg.targets = [] := by
  unfold violates at h
  split at h
  · cases h
  · split at h
    · cases h
    · rename_i hv
      split at h
      · rename_i ht
        injection h with h
        exact ⟨h.symm, by simpa using hv, ht⟩
      · split at h <;> cases h
      · cases h

/-- An action that fails independently of the state or appends lines that depend on the findings alone. -/
def Prints (v : V) : Prop :=
  (∃ e, Crash e ∧ ∀ s, v s = .error e) ∨
  (∀ s0, ∃ d, ∀ s, Frame s0 s → ∃ s', v s = .ok s' ∧ Frame s s' ∧ s'.out = s.out ++ d)

theorem Prints.skip : Prints V.skip := .inr fun _ => ⟨[], fun s _ => ⟨s, rfl, .refl _, by simp⟩⟩

theorem seq_ok {v w : V} {s s' : S} (h : v s = .ok s') : (v ;; w) s = w s' := by
  unfold V.seq; rw [h]
theorem seq_error {v w : V} {s : S} {e : Err} (h : v s = .error e) : (v ;; w) s = .error e := by
  unfold V.seq; rw [h]

theorem Prints.seq {v w : V} (hv : Prints v) (hw : Prints w) : Prints (v ;; w) := by
  rcases hv with ⟨e, he, hv⟩ | hv
  · exact .inl ⟨e, he, fun s => seq_error (hv s)⟩
  · rcases hw with ⟨e, he, hw⟩ | hw
    · refine .inl ⟨e, he, fun s => ?_⟩
      obtain ⟨d, h⟩ := hv s
      obtain ⟨s', h, _⟩ := h s (.refl s)
      rw [seq_ok h]; exact hw s'
    · refine .inr fun s0 => ?_
      obtain ⟨d, h⟩ := hv s0
      obtain ⟨d', h'⟩ := hw s0
      refine ⟨d ++ d', fun s hs => ?_⟩
      obtain ⟨s1, e1, f1, o1⟩ := h s hs
      obtain ⟨s2, e2, f2, o2⟩ := h' s1 (hs.trans f1)
      exact ⟨s2, by rw [seq_ok e1]; exact e2, f1.trans f2, by rw [o2, o1, List.append_assoc]⟩

theorem Prints.when {b : Bool} {v : V} (h : Prints v) : Prints (V.when b v) := by
  unfold V.when
  split
  · exact h
  · exact .skip

theorem Prints.opt {α : Type} {o : Option α} {v : V} {k : α → V} (hv : Prints v) (hk : ∀ a, Prints (k a)) :
    Prints (V.opt o v k) := by
  unfold V.opt
  split
  · exact hk _
  · exact hv

theorem Prints.violates {env : Env} {r : Option Req} {k : Bool → V} (hk : ∀ b, Prints (k b)) :
    Prints (V.lift (violates env r) k) := by
  unfold V.lift
  split
  · exact hk _
  · rename_i e h
    refine .inl ⟨e, ?_, fun s => rfl⟩
    rw [(violates_error h).1]
    intro msg h; cases h

theorem verboseLine_frame {env : Env} {s0 s : S} (h : Frame s0 s) (msg ent line versions plural) :
    verboseLine env s msg ent line versions plural = verboseLine env s0 msg ent line versions plural := by
  rw [h]; rfl

theorem Prints.verbose {env : Env} {n : Nat} {msg : String} {ent line versions plural} :
    Prints (verbosePrint env n msg ent line versions plural) := by
  unfold verbosePrint
  refine Prints.violates fun b => Prints.when (.inr fun s0 => ⟨[verboseLine env s0 msg ent line versions plural], fun s hs => ?_⟩)
  refine ⟨_, rfl, rfl, ?_⟩
  show s.out ++ [_] = _
  rw [verboseLine_frame hs]

theorem Prints.infoStep {env : Env} {r : Req} {info : Option String} {ent : Option Ent} : Prints (infoStep env r info ent) := by
  unfold Vermin.infoStep
  refine Prints.violates fun b => Prints.when (Prints.opt .skip fun i => Prints.seq ?_ (Prints.opt .skip fun e => Prints.verbose))
  exact .inr fun s0 => ⟨[], fun s hs => ⟨_, rfl, rfl, by simp [S.addInfo]⟩⟩

/-! ### Combining -/

theorem combine_refs_ok {ign : Bool} {a b r : Req} {refs refs' : Option Refs} (h : combineVersions ign a b refs = .ok r) :
    combineVersions ign a b refs' = .ok r := by
  have hn : ¬ (ign = false ∧ Spec.Conflict a b) := by
    intro hc
    obtain ⟨e, he⟩ := (combineVersions_error_iff (refs := refs)).mpr hc
    rw [he] at h; cases h
  rw [combineVersions_eq_ok hn, combineVersions_ok h]

theorem combine_refs_error {ign : Bool} {a b : Req} {refs refs' : Option Refs} {e : Err}
    (h : combineVersions ign a b refs = .error e) : ∃ e', combineVersions ign a b refs' = .error e' :=
  combineVersions_error_iff.mpr (combineVersions_error_iff.mp ⟨e, h⟩)

theorem combine_error_kind {ign : Bool} {a b : Req} {refs : Option Refs} {e : Err}
    (h : combineVersions ign a b refs = .error e) : ∃ msg, e = .invalidVersion msg := by
  unfold combineVersions at h
  split at h
  · injection h with h; exact ⟨_, h.symm⟩
  · cases h

theorem combineFrom_one (ign refs m r) : combineFrom ign refs m [r] = combineVersions ign m r refs := by
  rw [combineFrom_cons]
  cases combineVersions ign m r refs <;> rfl

theorem addEntity_adds (env : Env) (s0 : S) (r : Req) (info : Option String) (ent : Option Ent) :
    Adds env s0 (addEntity env r info ent) [r] := by
  intro s m hs
  unfold addEntity
  rcases Prints.infoStep (env := env) (r := r) (info := info) (ent := ent) with ⟨e, he, h⟩ | h
  · exact .inl ⟨e, by simp only [h s], he⟩
  · obtain ⟨d, h⟩ := h s0
    obtain ⟨s', h, hf, _⟩ := h s hs
    simp only [h]
    rw [combineFrom_one]
    cases hc : combineVersions env.cfg.ignoreIncomp m r (some s'.infoVersions) with
    | ok m' => exact .inr (.inl ⟨m', s', combine_refs_ok hc, rfl, hf⟩)
    | error e =>
      obtain ⟨e', he'⟩ := combine_refs_error (refs' := none) hc
      obtain ⟨msg, rfl⟩ := combine_error_kind hc
      exact .inr (.inr ⟨e', msg, he', rfl⟩)

theorem addEntity_repeats (env : Env) (s0 : S) (r : Req) (info : Option String) (ent : Option Ent) :
    Repeats s0 (addEntity env r info ent) := by
  intro s1 s2 m s1' m' h1 h2 h
  unfold addEntity at h ⊢
  rcases Prints.infoStep (env := env) (r := r) (info := info) (ent := ent) with ⟨e, he, hp⟩ | hp
  · simp only [hp s1] at h; cases h
  · obtain ⟨d, hp⟩ := hp s0
    obtain ⟨t1, e1, f1, o1⟩ := hp s1 h1
    obtain ⟨t2, e2, f2, o2⟩ := hp s2 h2
    simp only [e1] at h
    simp only [e2]
    cases hc : combineVersions env.cfg.ignoreIncomp m r (some t1.infoVersions) with
    | error e => rw [hc] at h; cases h
    | ok n =>
      rw [hc] at h
      injection h with h
      injection h with ha hb
      subst ha; subst hb
      rw [combine_refs_ok hc]
      exact ⟨d, t2, rfl, f1, f2, o1, o2⟩

/-- Violations are shown only if there are targets. -/
def TargetsOk (env : Env) : Prop := env.cfg.onlyShowViolations = true → env.cfg.targets ≠ []

theorem violates_ok {env : Env} (h : TargetsOk env) (r : Option Req) : ∃ b, violates env r = .ok b := by
  cases hv : violates env r with
  | ok b => exact ⟨b, rfl⟩
  | error e =>
    obtain ⟨_, h1, h2⟩ := violates_error hv
    exact absurd h2 (h h1)

theorem verbosePrint_ok {env : Env} (h : TargetsOk env) (n msg ent line versions plural) (s : S) :
    ∃ s', verbosePrint env n msg ent line versions plural s = .ok s' := by
  obtain ⟨b, hb⟩ := violates_ok h versions
  simp only [verbosePrint, hb, V.lift, V.when]
  split
  · exact ⟨_, rfl⟩
  · exact ⟨_, rfl⟩

theorem infoStep_ok {env : Env} (h : TargetsOk env) (r : Req) (info : Option String) (ent : Option Ent) (s : S) :
    ∃ s', infoStep env r info ent s = .ok s' := by
  obtain ⟨b, hb⟩ := violates_ok h (some r)
  simp only [infoStep, hb, V.lift, V.when]
  split
  · cases info with
    | none => exact ⟨_, rfl⟩
    | some i =>
      cases ent with
      | none => exact ⟨_, rfl⟩
      | some e => exact verbosePrint_ok h _ _ _ _ _ _ _
  · exact ⟨_, rfl⟩

theorem addEntity_safe {env : Env} (h : TargetsOk env) (r : Req) (info : Option String) (ent : Option Ent) :
    Safe (addEntity env r info ent) := by
  rintro ⟨s, m⟩ e he hc
  unfold addEntity at he
  obtain ⟨s', hs⟩ := infoStep_ok h r info ent s
  simp only [hs] at he
  split at he
  · cases he
  · rename_i e' hce
    injection he with he; subst he
    obtain ⟨msg, rfl⟩ := combine_error_kind hce
    exact hc msg rfl

theorem ruleM_adds (env : Env) (s0 : S) (o : Option Req) (info : String) (ent : Ent) :
    Adds env s0 (ruleM env o info ent) o.toList := by
  cases o with
  | none => exact Adds.skip
  | some r => exact addEntity_adds env s0 r _ _
theorem ruleM_repeats (env : Env) (s0 : S) (o : Option Req) (info : String) (ent : Ent) : Repeats s0 (ruleM env o info ent) := by
  cases o with
  | none => exact Repeats.skip
  | some r => exact addEntity_repeats env s0 r _ _
theorem ruleM_safe {env : Env} (h : TargetsOk env) (o : Option Req) (info : String) (ent : Ent) : Safe (ruleM env o info ent) := by
  cases o with
  | none => exact Safe.skip
  | some r => exact addEntity_safe h r _ _

theorem has_frame {s0 s : S} (h : Frame s0 s) (f : Flag) : s.has f = s0.has f := by rw [h]; rfl

theorem featureM_adds (env : Env) (s0 : S) (f : Feature) : Adds env s0 (featureM env f) (if s0.has f.flag then [f.req] else []) := by
  intro s m hs
  unfold featureM
  simp only [has_frame hs]
  cases s0.has f.flag with
  | true => exact addEntity_adds env s0 _ _ _ s m hs
  | false => exact Adds.skip s m hs
theorem featureM_repeats (env : Env) (s0 : S) (f : Feature) : Repeats s0 (featureM env f) := by
  intro s1 s2 m s1' m' h1 h2 h
  unfold featureM at h ⊢
  simp only [has_frame h1] at h
  simp only [has_frame h2]
  cases hb : s0.has f.flag with
  | true => rw [hb] at h; exact addEntity_repeats env s0 _ _ _ s1 s2 m s1' m' h1 h2 h
  | false => rw [hb] at h; exact Repeats.skip s1 s2 m s1' m' h1 h2 h
theorem featureM_safe {env : Env} (h : TargetsOk env) (f : Feature) : Safe (featureM env f) := by
  rintro ⟨s, m⟩ e he
  simp only [featureM] at he
  split at he
  · exact addEntity_safe h _ _ _ _ _ he
  · cases he

/-- The requirements of an error handler. -/
def errorHandlerReqs (env : Env) : Const → List Req
  | .str n => (env.tables.errorHandler n).toList
  | _ => []

theorem errorHandlerM_adds (env : Env) (s0 : S) (c : Const) : Adds env s0 (errorHandlerM env c) (errorHandlerReqs env c) := by
  cases c with
  | str n => exact ruleM_adds _ _ _ _ _
  | _ => exact Adds.skip
theorem errorHandlerM_repeats (env : Env) (s0 : S) (c : Const) : Repeats s0 (errorHandlerM env c) := by
  unfold errorHandlerM
  split
  · exact ruleM_repeats _ _ _ _ _
  · exact Repeats.skip
theorem errorHandlerM_safe {env : Env} (h : TargetsOk env) (c : Const) : Safe (errorHandlerM env c) := by
  unfold errorHandlerM
  split
  · exact ruleM_safe h _ _ _
  · exact Safe.skip

/-- The requirements of an encoding by one entry. -/
def encodingReqs (c : Const) (e : EncKey × Req) : List Req :=
  match c with
  | .str n => if e.1.contains (lowerStr n) then [e.2] else []
  | _ => []

theorem encodingEntryM_adds (env : Env) (s0 : S) (c : Const) (e : EncKey × Req) :
    Adds env s0 (encodingEntryM env c e) (encodingReqs c e) := by
  intro s m hs
  obtain ⟨k, r⟩ := e
  cases c with
  | str n =>
    show _ ∨ _
    unfold encodingEntryM encodingReqs
    by_cases hb : k.contains (lowerStr n) = true
    · simp only [hb, if_true]; exact addEntity_adds env s0 _ _ _ s m hs
    · simp only [hb]; exact Adds.skip s m hs
  | bytes t =>
    cases k with
    | text x => exact .inl ⟨_, rfl, fun _ h => nomatch h⟩
    | names x => exact Adds.skip s m hs
  | _ => exact .inl ⟨_, rfl, fun _ h => nomatch h⟩
theorem encodingEntryM_repeats (env : Env) (s0 : S) (c : Const) (e : EncKey × Req) : Repeats s0 (encodingEntryM env c e) := by
  intro s1 s2 m s1' m' h1 h2 h
  unfold encodingEntryM at h ⊢
  split at h
  · split at h
    · rename_i hb
      rw [if_pos hb]
      exact addEntity_repeats env s0 _ _ _ s1 s2 m s1' m' h1 h2 h
    · rename_i hb
      rw [if_neg hb]
      exact Repeats.skip s1 s2 m s1' m' h1 h2 h
  · split at h
    · cases h
    · exact Repeats.skip s1 s2 m s1' m' h1 h2 h
  · cases h
theorem encodingEntryM_safe {env : Env} (h : TargetsOk env) (n : String) (e : EncKey × Req) :
    Safe (encodingEntryM env (.str n) e) := by
  intro x err he
  simp only [encodingEntryM] at he
  split at he
  · exact addEntity_safe h _ _ _ _ _ he
  · cases he

theorem vv_frame (env : Env) (msg : String) (v : Option Req) (line : LineArg) (p : Option Bool) (ent : Option Ent) :
    Prints (vv env msg v line p ent) := Prints.verbose

/-- The requirements of the print flags. -/
def printReqs (s : S) : List Req :=
  (if s.has .printv2 then [⟨some ⟨2, 0⟩, some ⟨0, 0⟩⟩] else []) ++ (if s.has .printv3 then [⟨some ⟨2, 0⟩, some ⟨3, 0⟩⟩] else [])

theorem combine_print2 (ign : Bool) :
    combineFrom ign none Req.unknown [⟨some ⟨2, 0⟩, some ⟨0, 0⟩⟩] = .ok ⟨some ⟨2, 0⟩, some ⟨0, 0⟩⟩ := by
  cases ign <;> decide

/-- `minimum_versions` after the print flags. -/
def afterPrint (env : Env) : M := thenM (eachM (featureM env) features) (fun x => entitiesM env x.1 x)

/-- The requirements with rule tables. -/
def entityReqs (env : Env) (s : S) : List Req :=
  (s.strftime.flatMap fun d => (env.tables.strftime d).toList) ++
  ((s.bytesDirs.flatMap fun d => (env.tables.bytes d).toList) ++
  ((s.typecodes.flatMap fun d => (env.tables.typecode d).toList) ++
  ((s.codecsErr.flatMap (errorHandlerReqs env)) ++
  ((s.codecsEnc.flatMap fun c => env.tables.encodings.flatMap (encodingReqs c)) ++
  ((s.modules.flatMap fun m => (env.tables.mod m).toList) ++
  ((s.members.flatMap fun m => (env.tables.mem m).toList) ++
  ((s.kwargs.flatMap fun k => (env.tables.kw k).toList) ++
  (s.userFuncDecos.flatMap fun u => (env.tables.deco u).toList))))))))

theorem entitiesM_frame {env : Env} {s0 s : S} (h : Frame s0 s) : entitiesM env s = entitiesM env s0 := by rw [h]; rfl

theorem entitiesM_adds (env : Env) (s0 : S) : Adds env s0 (fun x => entitiesM env x.1 x) (entityReqs env s0) := by
  have key : Adds env s0 (entitiesM env s0) (entityReqs env s0) := by
    unfold entitiesM entityReqs
    refine Adds.then (Adds.each (fun d => ruleM_adds _ _ _ _ _) _) ?_
    refine Adds.then (Adds.each (fun d => ruleM_adds _ _ _ _ _) _) ?_
    refine Adds.then (Adds.each (fun d => ruleM_adds _ _ _ _ _) _) ?_
    refine Adds.then (Adds.each (fun d => errorHandlerM_adds _ _ _) _) ?_
    refine Adds.then (Adds.each (fun d => Adds.each (fun e => encodingEntryM_adds _ _ _ _) _) _) ?_
    refine Adds.then (Adds.each (fun d => ruleM_adds _ _ _ _ _) _) ?_
    refine Adds.then (Adds.each (fun d => ruleM_adds _ _ _ _ _) _) ?_
    refine Adds.then (Adds.each (fun d => ruleM_adds _ _ _ _ _) _) ?_
    exact Adds.each (fun d => ruleM_adds _ _ _ _ _) _
  intro s m hs
  show (∃ e, entitiesM env s (s, m) = .error e ∧ Crash e) ∨ _
  have e : entitiesM env s = entitiesM env s0 := entitiesM_frame hs
  simp only [e]
  exact key s m hs

theorem entitiesM_repeats (env : Env) (s0 : S) : Repeats s0 (fun x => entitiesM env x.1 x) := by
  have key : Repeats s0 (entitiesM env s0) := by
    unfold entitiesM
    refine Repeats.then (Repeats.each (fun d => ruleM_repeats _ _ _ _ _) _) ?_
    refine Repeats.then (Repeats.each (fun d => ruleM_repeats _ _ _ _ _) _) ?_
    refine Repeats.then (Repeats.each (fun d => ruleM_repeats _ _ _ _ _) _) ?_
    refine Repeats.then (Repeats.each (fun d => errorHandlerM_repeats _ _ _) _) ?_
    refine Repeats.then (Repeats.each (fun d => Repeats.each (fun e => encodingEntryM_repeats _ _ _ _) _) _) ?_
    refine Repeats.then (Repeats.each (fun d => ruleM_repeats _ _ _ _ _) _) ?_
    refine Repeats.then (Repeats.each (fun d => ruleM_repeats _ _ _ _ _) _) ?_
    refine Repeats.then (Repeats.each (fun d => ruleM_repeats _ _ _ _ _) _) ?_
    exact Repeats.each (fun d => ruleM_repeats _ _ _ _ _) _
  intro s1 s2 m s1' m' h1 h2 h
  simp only [entitiesM_frame h1] at h
  simp only [entitiesM_frame h2]
  exact key s1 s2 m s1' m' h1 h2 h

/-- All encodings found are strings. -/
def EncodingsOk (s : S) : Prop := ∀ c ∈ s.codecsEnc, ∃ n, c = .str n

theorem entitiesM_safe {env : Env} (h : TargetsOk env) {s : S} (he : EncodingsOk s) : Safe (entitiesM env s) := by
  unfold entitiesM
  refine Safe.then (Safe.each fun d _ => ruleM_safe h _ _ _) ?_
  refine Safe.then (Safe.each fun d _ => ruleM_safe h _ _ _) ?_
  refine Safe.then (Safe.each fun d _ => ruleM_safe h _ _ _) ?_
  refine Safe.then (Safe.each fun d _ => errorHandlerM_safe h _) ?_
  refine Safe.then (Safe.each fun c hc => Safe.each fun e _ => ?_) ?_
  · obtain ⟨n, rfl⟩ := he c hc
    exact encodingEntryM_safe h _ _
  refine Safe.then (Safe.each fun d _ => ruleM_safe h _ _ _) ?_
  refine Safe.then (Safe.each fun d _ => ruleM_safe h _ _ _) ?_
  refine Safe.then (Safe.each fun d _ => ruleM_safe h _ _ _) ?_
  exact Safe.each fun d _ => ruleM_safe h _ _ _

/-- All requirements in the order `minimum_versions` combines them. -/
def allReqs (env : Env) (s : S) : List Req :=
  printReqs s ++ ((features.flatMap fun f => if s.has f.flag then [f.req] else []) ++ entityReqs env s)

theorem afterPrint_adds (env : Env) (s0 : S) : Adds env s0 (afterPrint env)
    ((features.flatMap fun f => if s0.has f.flag then [f.req] else []) ++ entityReqs env s0) :=
  Adds.then (Adds.each (fun f => featureM_adds env s0 f) features) (entitiesM_adds env s0)

theorem afterPrint_repeats (env : Env) (s0 : S) : Repeats s0 (afterPrint env) :=
  Repeats.then (Repeats.each (fun f => featureM_repeats env s0 f) features) (entitiesM_repeats env s0)

/-- `print(expr)` in `minimum_versions`, when it is used as a function. -/
def printFn (env : Env) : M := fun (s, mins) =>
  match (vv env "print(expr)" (from23 0 0) .hide : V) s with
  | .ok s' => addEntity env (both23 0 0) none none (s', mins)
  | .error e => .error e

theorem printFn_adds (env : Env) (s0 : S) : Adds env s0 (printFn env) [both23 0 0] := by
  intro s m hs
  unfold printFn
  rcases vv_frame env "print(expr)" (from23 0 0) .hide none none with ⟨e, he, h⟩ | h
  · exact .inl ⟨e, by simp only [h s], he⟩
  · obtain ⟨d, h⟩ := h s0
    obtain ⟨s', h, hf, _⟩ := h s hs
    simp only [h]
    rcases addEntity_adds env s0 (both23 0 0) none none s' m (hs.trans hf) with h | ⟨m', s'', h1, h2, h3⟩ | h
    · exact .inl h
    · exact .inr (.inl ⟨m', s'', h1, h2, hf.trans h3⟩)
    · exact .inr (.inr h)

theorem printFn_repeats (env : Env) (s0 : S) : Repeats s0 (printFn env) := by
  intro s1 s2 m s1' m' h1 h2 h
  unfold printFn at h ⊢
  rcases vv_frame env "print(expr)" (from23 0 0) .hide none none with ⟨e, he, hp⟩ | hp
  · simp only [hp s1] at h; cases h
  · obtain ⟨d, hp⟩ := hp s0
    obtain ⟨t1, e1, f1, o1⟩ := hp s1 h1
    obtain ⟨t2, e2, f2, o2⟩ := hp s2 h2
    simp only [e1] at h
    simp only [e2]
    obtain ⟨d', s2', e3, f3, f4, o3, o4⟩ := addEntity_repeats env s0 _ none none t1 t2 m s1' m' (h1.trans f1) (h2.trans f2) h
    exact ⟨d ++ d', s2', e3, f1.trans f3, f2.trans f4, by rw [o3, o1, List.append_assoc], by rw [o4, o2, List.append_assoc]⟩

theorem printFn_safe {env : Env} (h : TargetsOk env) : Safe (printFn env) := by
  rintro ⟨s, m⟩ e he
  unfold printFn at he
  obtain ⟨s', hs⟩ := verbosePrint_ok h 2 "print(expr)" none .hide (from23 0 0) none s
  have hs' : (vv env "print(expr)" (from23 0 0) .hide : V) s = .ok s' := hs
  simp only [hs'] at he
  exact addEntity_safe h _ _ _ _ _ he

/-- The start of `minimum_versions`. -/
def printStart (s : S) : Req := if s.has .printv2 then ⟨some ⟨2, 0⟩, some ⟨0, 0⟩⟩ else Req.unknown

theorem printM_unknown (env : Env) (s : S) :
    printM env (s, Req.unknown) = if s.has .printv3 then printFn env (s, printStart s) else .ok (s, printStart s) := by
  cases h2 : s.has .printv2 <;> cases h3 : s.has .printv3 <;>
    simp [printM, printFn, printStart, h2, h3] <;> rfl

theorem minimumVersions_eq (env : Env) (s : S) :
    minimumVersions env s = if s.has .printv3 then thenM (printFn env) (afterPrint env) (s, printStart s)
      else afterPrint env (s, printStart s) := by
  show thenM (printM env) (afterPrint env) (s, Req.unknown) = _
  conv => lhs; unfold thenM
  rw [printM_unknown]
  cases s.has .printv3 with
  | true => rfl
  | false => rfl

theorem combine_start (ign : Bool) (s : S) (l : List Req) :
    combineFrom ign none Req.unknown ((if s.has .printv2 then [⟨some ⟨2, 0⟩, some ⟨0, 0⟩⟩] else []) ++ l) =
      combineFrom ign none (printStart s) l := by
  unfold printStart
  cases s.has .printv2 with
  | true =>
    rw [if_pos rfl, if_pos rfl, combineFrom_append, combine_print2]; rfl
  | false => rfl

/-- `minimum_versions` combines the requirements `allReqs`, or crashes. -/
theorem minimumVersions_spec (env : Env) (s : S) :
    (∃ e, minimumVersions env s = .error e ∧ Crash e) ∨
    (∃ m s', combineAll env.cfg.ignoreIncomp none (allReqs env s) = .ok m ∧ minimumVersions env s = .ok (s', m) ∧ Frame s s') ∨
    (∃ e msg, combineAll env.cfg.ignoreIncomp none (allReqs env s) = .error e ∧
      minimumVersions env s = .error (.invalidVersion msg)) := by
  rw [minimumVersions_eq]
  unfold combineAll allReqs printReqs
  rw [List.append_assoc, combine_start]
  cases s.has .printv3 with
  | true => exact Adds.then (printFn_adds env s) (afterPrint_adds env s) s (printStart s) (.refl s)
  | false => exact afterPrint_adds env s s (printStart s) (.refl s)

theorem minimumVersions_repeats (env : Env) {s0 s1 s2 s1' : S} {m : Req} (h1 : Frame s0 s1) (h2 : Frame s0 s2)
    (h : minimumVersions env s1 = .ok (s1', m)) :
    ∃ d s2', minimumVersions env s2 = .ok (s2', m) ∧ Frame s1 s1' ∧ Frame s2 s2' ∧ s1'.out = s1.out ++ d ∧ s2'.out = s2.out ++ d := by
  rw [minimumVersions_eq] at h ⊢
  have e1 : printStart s1 = printStart s0 := by rw [h1]; rfl
  have e2 : printStart s2 = printStart s0 := by rw [h2]; rfl
  rw [has_frame h1, e1] at h
  rw [has_frame h2, e2]
  cases hb : s0.has .printv3 with
  | true =>
    rw [hb] at h
    exact Repeats.then (printFn_repeats env s0) (afterPrint_repeats env s0) s1 s2 _ s1' m h1 h2 h
  | false =>
    rw [hb] at h
    exact afterPrint_repeats env s0 s1 s2 _ s1' m h1 h2 h

theorem afterPrint_safe {env : Env} (h : TargetsOk env) {s : S} (he : EncodingsOk s) (m : Req) {e : Err}
    (hx : afterPrint env (s, m) = .error e) : ¬ Crash e := by
  unfold afterPrint at hx
  rcases Adds.each (fun f => featureM_adds env s f) features s m (.refl s) with ⟨e', h', hc⟩ | ⟨m', s', _, h', hf⟩ | ⟨e', msg, _, h'⟩
  · exact absurd hc (Safe.each (fun f _ => featureM_safe h f) _ _ h')
  · unfold thenM at hx
    rw [h'] at hx
    have : EncodingsOk s' := by rw [hf]; exact he
    exact entitiesM_safe h this _ _ hx
  · unfold thenM at hx
    rw [h'] at hx
    injection hx with hx; subst hx
    exact fun hc => hc msg rfl

theorem minimumVersions_safe {env : Env} (h : TargetsOk env) {s : S} (he : EncodingsOk s) {e : Err}
    (hx : minimumVersions env s = .error e) : ¬ Crash e := by
  rw [minimumVersions_eq] at hx
  split at hx
  · unfold thenM at hx
    rcases printFn_adds env s s (printStart s) (.refl s) with ⟨e', h', hc⟩ | ⟨m', s', _, h', hf⟩ | ⟨e', msg, _, h'⟩
    · exact absurd hc (printFn_safe h _ _ h')
    · rw [h'] at hx
      have : EncodingsOk s' := by rw [hf]; exact he
      exact afterPrint_safe h this _ hx
    · rw [h'] at hx
      injection hx with hx; subst hx
      exact fun hc => hc msg rfl
  · exact afterPrint_safe h he _ hx

end Vermin
