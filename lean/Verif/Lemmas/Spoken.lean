import Verif.Lemmas.Step
import Verif.Lemmas.Dict
import Verif.Lemmas.Minimum
import Verif.Spec.Entries
/-
What the visitor prints about its findings.
-/
namespace Vermin
open Py V Spec

/-- Entries with this requirement are printed from verbosity `l` on. -/
def Shows (env : Env) (l : Nat) (r : Req) : Prop :=
  violates env (some r) = .ok true ∧ skipOutputLine env.cfg = false ∧ l ≤ env.cfg.verbose

/-- The verbosity from which on a feature is printed. -/
def levelOf (f : Flag) : Nat := if f = .boolConst then 3 else 2

/-- Every requirement an entry states is shown, and is that of a feature at a node of `n`, at the line of that node or of one
of its decorators if it is not roaming. -/
def Backed (env : Env) (n : Node) (t : S) : Entry → Prop
  | .node _ => env.cfg.printVisits = true ∧ env.cfg.quiet = false
  | .message _ line col versions _ => ∀ r, versions = some r → violates env (some r) = .ok true ∧ ∃ k f, In k n ∧ Construct env f k ∧ t.has f = true ∧
      (∃ x ∈ features, x.flag = f ∧ x.req = r) ∧ col = none ∧ f ≠ .longv2 ∧
      (roaming f = false → line = some k.line ∨ ∃ d ∈ k.fields .decoratorList, line = some d.line)

/-- The requirement of a feature is stated by some entry, if it is shown. -/
def Stated (env : Env) (es : List Entry) (f : Flag) : Prop :=
  ∀ x ∈ features, x.flag = f → f ≠ .longv2 → Shows env (levelOf f) x.req → ∃ e ∈ es, ∃ r, e.states r ∧ (r = x.req ∨ f = .annotations ∧ r = only3 6)

/-- Something is recorded under the key. -/
def Holds (s : S) : Ent → Prop
  | .name x => x ∈ s.modules ∨ x ∈ s.members ∨ x ∈ s.userFuncDecos ∨ x ∈ s.strftime ∨ x ∈ s.bytesDirs ∨ x ∈ s.typecodes ∨ .str x ∈ s.codecsErr ∨
      .str x ∈ s.codecsEnc
  | .kw f k => (f, k) ∈ s.kwargs
  | .const _ => False

/-- What is printed from `s` to `t`, and about what. -/
structure Speaks (env : Env) (n : Node) (s t : S) (es : List Entry) : Prop where
  out : t.out = s.out ++ es.map (Entry.text env)
  keep : ∀ f, s.has f = true → t.has f = true
  sound : ∀ e ∈ es, Backed env n t e
  full : ∀ f, t.has f = true → s.has f = true ∨ Stated env es f
  sites : ∀ e l c, Dict.get? t.lineCol e = some (l, c) → Dict.get? s.lineCol e = some (l, c) ∨ ∃ m, In m n ∧ Recorded env m e l
  kept : ∀ e, (Dict.get? s.lineCol e).isSome = true → (Dict.get? t.lineCol e).isSome = true
  placed : ∀ e, Holds t e → Holds s e ∨ (Dict.get? t.lineCol e).isSome = true

theorem backed_mono {env : Env} {n : Node} {s t : S} (h : ∀ f, s.has f = true → t.has f = true) {e : Entry} (he : Backed env n s e) : Backed env n t e := by
  cases e with
  | node x => exact he
  | message msg line col vs pl =>
    intro r hr
    obtain ⟨hv, k, f, h1, h2, h3, h4⟩ := he r hr
    exact ⟨hv, k, f, h1, h2, h f h3, h4⟩

namespace Speaks
variable {env : Env} {n : Node}

theorem refl (s : S) : Speaks env n s s [] := ⟨by simp, fun _ h => h, nofun, fun _ h => .inl h, fun _ _ _ h => .inl h, fun _ h => h, fun _ h => .inl h⟩

theorem trans {s t u : S} {es es' : List Entry} (h : Speaks env n s t es) (h' : Speaks env n t u es') : Speaks env n s u (es ++ es') where
  out := by rw [h'.out, h.out]; simp
  keep f hf := h'.keep f (h.keep f hf)
  sound e he := (List.mem_append.mp he).elim (fun he => backed_mono h'.keep (h.sound e he)) (h'.sound e)
  full f hf := by
    have mono : ∀ {a b : List Entry}, (∀ e ∈ a, e ∈ b) → Stated env a f → Stated env b f := fun hab hs x hx h1 h2 h3 => by
      obtain ⟨e, he, hr⟩ := hs x hx h1 h2 h3
      exact ⟨e, hab e he, hr⟩
    rcases h'.full f hf with hf | hf
    · exact (h.full f hf).imp id (mono fun e he => List.mem_append_left _ he)
    · exact .inr (mono (fun e he => List.mem_append_right _ he) hf)
  sites e l c he := by
    rcases h'.sites e l c he with he | he
    · exact h.sites e l c he
    · exact .inr he
  kept e he := h'.kept e (h.kept e he)
  placed e he := by
    rcases h'.placed e he with he | he
    · exact (h.placed e he).imp id (h'.kept e)
    · exact .inr he

theorem up {k : Node} (hk : k ∈ n.kids) {s t : S} {es : List Entry} (h : Speaks env k s t es) : Speaks env n s t es where
  out := h.out
  keep := h.keep
  sound e he := by
    have := h.sound e he
    cases e with
    | node x => exact this
    | message msg line col vs pl =>
      intro r hr
      obtain ⟨hv, m, f, h1, h2⟩ := this r hr
      exact ⟨hv, m, f, .kid hk h1, h2⟩
  full := h.full
  sites e l c he := (h.sites e l c he).imp id fun ⟨m, hm, hr⟩ => ⟨m, .kid hk hm, hr⟩
  kept := h.kept
  placed := h.placed

/-- Changes that print nothing and concern neither the features nor the positions. -/
theorem other {s t : S} (h1 : t.out = s.out) (h2 : t.flags = s.flags) (h3 : t.lineCol = s.lineCol) (h4 : ∀ e, Holds t e → Holds s e) :
    Speaks env n s t [] where
  out := by simp [h1]
  keep f hf := by unfold S.has at hf ⊢; rw [h2]; exact hf
  sound := nofun
  full f hf := by unfold S.has at hf ⊢; rw [h2] at hf; exact .inl hf
  sites e l c he := by rw [h3] at he; exact .inl he
  kept e he := by rw [h3]; exact he
  placed e he := .inl (h4 e he)

/-- A position is recorded. -/
theorem site {s t : S} {e : Ent} {l : Nat} {c : Option Nat} (h1 : t.out = s.out) (h2 : t.flags = s.flags) (h3 : t.lineCol = Dict.set s.lineCol e (l, c))
    (h4 : ∀ x, Holds t x → Holds s x ∨ x = e) (hr : Recorded env n e l) : Speaks env n s t [] where
  out := by simp [h1]
  keep f hf := by unfold S.has at hf ⊢; rw [h2]; exact hf
  sound := nofun
  full f hf := by unfold S.has at hf ⊢; rw [h2] at hf; exact .inl hf
  sites e' l' c' he := by
    rw [h3] at he
    by_cases hx : e' = e
    · subst hx
      rw [Dict.get?_set_self] at he
      injection he with he
      injection he with he1 he2
      subst he1
      exact .inr ⟨n, .self n, hr⟩
    · rw [Dict.get?_set_ne _ _ hx] at he
      exact .inl he
  kept x hx := by
    rw [h3, Dict.get?_set]
    split
    · rfl
    · exact hx
  placed x hx := (h4 x hx).imp id fun h => by rw [h3, h, Dict.get?_set_self]; rfl
end Speaks

/-- What running `v` at `n` prints. -/
def Voices (env : Env) (n : Node) (v : V) : Prop := ∀ s t, v s = .ok t → ∃ es, Speaks env n s t es

theorem features_unique : ∀ x ∈ features, ∀ y ∈ features, x.flag = y.flag → x.req = y.req := by decide +kernel

/-- Either nothing is printed, for a reason, or an entry. -/
theorem verbosePrint_entry {env : Env} {l : Nat} {msg : String} {ent : Option Ent} {line : LineArg} {vs : Option Req} {pl : Option Bool}
    {s t : S} (h : verbosePrint env l msg ent line vs pl s = .ok t) :
    (t = s ∧ ¬ (violates env vs = .ok true ∧ skipOutputLine env.cfg = false ∧ l ≤ env.cfg.verbose)) ∨
    ((violates env vs = .ok true ∧ skipOutputLine env.cfg = false ∧ l ≤ env.cfg.verbose) ∧
      t = { s with out := s.out ++ [verboseLine env s msg ent line vs pl] }) := by
  unfold verbosePrint at h
  cases hv : violates env vs with
  | error e => rw [hv] at h; cases h
  | ok b =>
    rw [hv] at h
    replace h : when _ _ s = .ok t := h
    unfold V.when at h
    split at h
    · rename_i hc
      refine .inr ⟨?_, upd_run h⟩
      simp only [Bool.and_eq_true, Bool.not_eq_true', Bool.or_eq_false_iff, decide_eq_false_iff_not, Nat.not_lt] at hc
      exact ⟨by rw [hc.1], hc.2⟩
    · rename_i hc
      injection h with h
      refine .inl ⟨h.symm, fun ⟨h1, h2, h3⟩ => hc ?_⟩
      injection h1 with h1
      simp [h1, h2, h3]

/-- The line shown. -/
def shownLine (env : Env) (s : S) : LineArg → Option Nat
  | .hide => none
  | .absent => if env.cfg.verbose > 2 then some s.line else none
  | .at n => some n

theorem verboseLine_plain (env : Env) (s : S) (msg line vs pl) :
    verboseLine env s msg none line vs pl = (Entry.message msg (shownLine env s line) none vs pl).text env := by
  unfold verboseLine Entry.text shownLine
  simp only [Option.bind_none, ite_self]
  cases line <;> rfl

/-- The position shown with an entity. -/
def shownAt (env : Env) (s : S) (ent : Option Ent) (line : LineArg) : Option Nat × Option Nat :=
  match (if env.cfg.verbose > 2 then ent.bind (Dict.get? s.lineCol) else none) with
  | some (l, c) => (some l, c)
  | none => (shownLine env s line, none)

theorem verboseLine_some (env : Env) (s : S) (msg ent line vs pl) :
    verboseLine env s msg ent line vs pl = (Entry.message msg (shownAt env s ent line).1 (shownAt env s ent line).2 vs pl).text env := by
  unfold verboseLine Entry.text shownAt
  dsimp only
  generalize (if env.cfg.verbose > 2 then ent.bind (Dict.get? s.lineCol) else none) = o
  cases o with
  | some p => rfl
  | none => cases line <;> rfl

theorem has_set (s : S) (f g : Flag) : (s.set f).has g = true ↔ g = f ∨ s.has g = true := by
  unfold S.has S.set
  by_cases hc : s.flags.contains f = true
  · simp only [hc, if_true]
    constructor
    · exact .inr
    · rintro (rfl | h)
      · exact hc
      · exact h
  · simp only [hc]
    simp [or_comm]

section
variable {env : Env} {n : Node}

theorem Speaks.out1 (s : S) {e : Entry} (hb : Backed env n s e) : Speaks env n s { s with out := s.out ++ [e.text env] } [e] where
  out := by simp
  keep _ h := h
  sound e' he := by
    rw [List.mem_singleton.mp he]
    exact backed_mono (fun _ h => h) hb
  full _ h := .inl h
  sites _ _ _ h := .inl h
  kept _ h := h
  placed e h := .inl (by cases e <;> exact h)

theorem Speaks.flag1 (s : S) {f : Flag} (hf : Stated env [] f) : Speaks env n s (s.set f) [] where
  out := by simp [S.set]
  keep g hg := (has_set s f g).mpr (.inr hg)
  sound := nofun
  full g hg := ((has_set s f g).mp hg).elim (fun h => .inr (h ▸ hf)) .inl
  sites _ _ _ h := .inl h
  kept _ h := h
  placed e h := .inl (by cases e <;> exact h)

theorem Voices.skip : Voices env n skip := fun s t h => by injection h with h; exact ⟨[], h ▸ .refl _⟩
theorem Voices.seq {a b : V} (ha : Voices env n a) (hb : Voices env n b) : Voices env n (a ;; b) := by
  intro s t h
  obtain ⟨u, h1, h2⟩ := seq_run h
  obtain ⟨es, h1⟩ := ha s u h1
  obtain ⟨es', h2⟩ := hb u t h2
  exact ⟨_, h1.trans h2⟩
theorem Voices.rd {f : S → V} (hf : ∀ s, Voices env n (f s)) : Voices env n (rd f) := fun s t h => hf s s t h
theorem Voices.when {c : Bool} {a : V} (ha : c = true → Voices env n a) : Voices env n (when c a) := by
  cases c with
  | true => exact ha rfl
  | false => exact Voices.skip
theorem Voices.upd {f : S → S} (h1 : ∀ s, (f s).out = s.out) (h2 : ∀ s, (f s).flags = s.flags) (h3 : ∀ s, (f s).lineCol = s.lineCol)
    (h4 : ∀ s e, Holds (f s) e → Holds s e := by intro s e h; cases e <;> exact h) : Voices env n (upd f) := by
  intro s t h
  rw [upd_run h]
  exact ⟨[], .other (h1 s) (h2 s) (h3 s) (h4 s)⟩
theorem Voices.site {f : S → S} {e : Ent} {l : Nat} {c : Option Nat} (h1 : ∀ s, (f s).out = s.out) (h2 : ∀ s, (f s).flags = s.flags)
    (h3 : ∀ s, (f s).lineCol = Dict.set s.lineCol e (l, c)) (hr : Recorded env n e l)
    (h4 : ∀ s x, Holds (f s) x → Holds s x ∨ x = e := by
      intro s x h
      cases x <;> simp only [Holds, S.addLineCol, List.mem_append, List.mem_singleton, Ent.name.injEq, Ent.kw.injEq, Prod.mk.injEq] at h ⊢ <;> grind [Ent.ofConst]) : Voices env n (V.upd f) := by
  intro s t h
  rw [upd_run h]
  exact ⟨[], .site (h1 s) (h2 s) (h3 s) (h4 s) hr⟩

theorem Voices.note (l msg ent line pl) : Voices env n (verbosePrint env l msg ent line none pl) := by
  intro s t h
  rcases verbosePrint_entry h with ⟨rfl, _⟩ | ⟨_, rfl⟩
  · exact ⟨[], .refl _⟩
  · rw [verboseLine_some]
    exact ⟨_, .out1 s nofun⟩

theorem stated_silent {f : Flag} (h : ∀ x ∈ features, x.flag ≠ f) : Stated env [] f := fun x hx hf => absurd hf (h x hx)

theorem told_req {f : Flag} {l : Nat} {vs : Option Req} (ht : told f l vs = true) :
    (l = levelOf f ∧ f ≠ .longv2 ∧ ∃ x ∈ features, x.flag = f ∧ vs = some x.req) ∨ vs = none ∧ (f = .longv2 ∨ ∀ x ∈ features, x.flag ≠ f) := by
  unfold told at ht
  simp only [Bool.or_eq_true, Bool.and_eq_true, List.any_eq_true, decide_eq_true_eq, levelOf] at ht ⊢
  rcases ht with ⟨⟨x, hx, ⟨h1, h2⟩, h3⟩, h4⟩ | ⟨⟨h1, _⟩, h2⟩
  · exact .inl ⟨h4, h3, x, hx, h1, h2⟩
  · refine .inr ⟨h1, ?_⟩
    rcases h2 with (h | h) | h
    · exact .inl h
    · subst h; exact .inr (by decide +kernel)
    · subst h; exact .inr (by decide +kernel)

theorem sited_line {f : Flag} {line : LineArg} (h : Sited n f line) (s : S) :
    roaming f = false → shownLine env s line = some n.line ∨ ∃ d ∈ n.fields .decoratorList, shownLine env s line = some d.line := by
  intro hr
  rcases h with rfl | ⟨x, hx, rfl⟩ | ⟨_, h⟩
  · exact .inl rfl
  · exact .inr ⟨x, hx, rfl⟩
  · rw [h] at hr; cases hr

/-- The entry is backed by the feature. -/
theorem backed_told {f : Flag} {l : Nat} {msg : String} {vs : Option Req} {line : LineArg} {pl : Option Bool} (hf : Construct env f n)
    (ht : told f l vs = true) (hl : Sited n f line) (hv : violates env vs = .ok true) (s : S) {t : S} (hset : t.has f = true) :
    Backed env n t (.message msg (shownLine env s line) none vs pl) := by
  intro r hr
  subst hr
  refine ⟨hv, n, f, .self n, hf, hset, ?_, rfl, ?_, sited_line hl s⟩
  · rcases told_req ht with ⟨_, _, x, hx, h1, h2⟩ | ⟨h, _⟩
    · exact ⟨x, hx, h1, (Option.some.inj h2).symm⟩
    · cases h
  · rcases told_req ht with ⟨_, h, _⟩ | ⟨h, _⟩
    · exact h
    · cases h

/-- A feature found is stated by its entry, if it is shown. -/
theorem stated_told {f : Flag} {l : Nat} {vs : Option Req} (ht : told f l vs = true) {es : List Entry}
    (h : violates env vs = .ok true ∧ skipOutputLine env.cfg = false ∧ l ≤ env.cfg.verbose → ∃ e ∈ es, ∀ r, vs = some r → e.states r) :
    Stated env es f := by
  intro x hx hxf hlong hsh
  rcases told_req ht with ⟨rfl, _, y, hy, h1, rfl⟩ | ⟨_, rfl | h1⟩
  · have : y.req = x.req := features_unique y hy x hx (h1.trans hxf.symm)
    rw [← this] at hsh ⊢
    obtain ⟨e, he, hr⟩ := h hsh
    exact ⟨e, he, _, hr _ rfl, .inl rfl⟩
  · exact absurd rfl hlong
  · exact absurd hxf (h1 x hx)

theorem says_stated {f : Flag} (l msg vs line pl) (hf : Construct env f n) (ht : told f l vs = true) (hl : Sited n f line) {s t : S}
    (h : (setFlag f ;; verbosePrint env l msg none line vs pl) s = .ok t) : ∃ es, Speaks env n s t es ∧ Stated env es f := by
  obtain ⟨u, h1, h2⟩ := seq_run h
  have h1 := upd_run h1
  subst h1
  have hset : (s.set f).has f = true := (has_set s f f).mpr (.inl rfl)
  rcases verbosePrint_entry h2 with ⟨rfl, hn⟩ | ⟨hy, rfl⟩
  · have hst : Stated env [] f := stated_told ht fun h => absurd h hn
    exact ⟨[], .flag1 s hst, hst⟩
  · rw [verboseLine_plain]
    have hst : Stated env [.message msg (shownLine env (s.set f) line) none vs pl] f :=
      stated_told ht fun _ => ⟨_, List.mem_singleton.mpr rfl, fun r (hr : vs = some r) => hr⟩
    refine ⟨[.message msg (shownLine env (s.set f) line) none vs pl], ?_, hst⟩
    exact {
      out := rfl
      keep := fun g hg => (has_set s f g).mpr (.inr hg)
      sound := fun e he => by
        rw [List.mem_singleton.mp he]
        exact backed_told hf ht hl hy.1 _ hset
      full := fun g hg => ((has_set s f g).mp hg).elim
        (fun h => .inr (h ▸ hst)) .inl
      sites := fun _ _ _ h => .inl h
      kept := fun _ h => h
      placed := fun e h => .inl (by cases e <;> exact h) }

theorem Voices.says {f : Flag} (l msg vs line pl) (hf : Construct env f n) (ht : told f l vs = true) (hl : Sited n f line) :
    Voices env n (setFlag f ;; verbosePrint env l msg none line vs pl) := fun _ _ h =>
  (says_stated l msg vs line pl hf ht hl h).imp fun _ h => h.1

theorem violates_only3 (h : violates env (some (only3 0)) = .ok true) : violates env (some (only3 6)) = .ok true := by
  unfold violates at h ⊢
  have mono : ∀ t, above (only3 0).py3 t = true → above (only3 6).py3 t = true := fun t ht => by
    simp only [above, only3, decide_eq_true_eq] at ht ⊢
    obtain ⟨a, b⟩ := t
    have : ∀ v w : Ver, v < w ↔ v.major < w.major ∨ v.major = w.major ∧ v.minor < w.minor := fun _ _ => Iff.rfl
    rw [this] at ht ⊢
    simp only at ht ⊢
    omega
  dsimp only at h ⊢
  split
  · rfl
  · rename_i hc
    rw [if_neg hc] at h
    split at h
    · cases h
    · split at h
      · rename_i hm; rw [if_pos hm]; exact congrArg _ (by rfl)
      · rename_i hm; rw [if_neg hm]
        exact congrArg _ (mono _ (Except.ok.inj h))
    · exact congrArg _ (by rfl)

/-- `.format` is printed before it is recorded. -/
theorem Voices.saysFormat (hf : Construct env .format27 n) : Voices env n (vv env "`\"..{}..\".format(..)`" (from23 7 0) ;; setFlag .format27) := by
  intro s t h
  obtain ⟨u, h1, h2⟩ := seq_run h
  have h2 := upd_run h2
  subst h2
  have ht : told .format27 2 (some (both23 7 0)) = true := by decide
  have hset : ∀ s : S, (s.set .format27).has .format27 = true := fun s => (has_set s _ _).mpr (.inl rfl)
  rcases verbosePrint_entry (show verbosePrint env 2 _ none .absent (some (both23 7 0)) none s = .ok u from h1) with ⟨rfl, hn⟩ | ⟨hy, rfl⟩
  · exact ⟨[], .flag1 _ (stated_told ht fun h => absurd h hn)⟩
  · rw [verboseLine_plain]
    have hst : Stated env [.message "`\"..{}..\".format(..)`" (shownLine env s .absent) none (some (both23 7 0)) none] .format27 :=
      stated_told ht fun _ => ⟨_, List.mem_singleton.mpr rfl, fun r (hr : some (both23 7 0) = some r) => hr⟩
    refine ⟨[.message "`\"..{}..\".format(..)`" (shownLine env s .absent) none (some (both23 7 0)) none], ?_⟩
    exact {
      out := rfl
      keep := fun g hg => (has_set s .format27 g).mpr (.inr hg)
      sound := fun e he => by
        rw [List.mem_singleton.mp he]
        exact backed_told hf ht (.inr (.inr ⟨rfl, rfl⟩)) hy.1 s (hset s)
      full := fun g hg => ((has_set s .format27 g).mp hg).elim
        (fun h => .inr (h ▸ hst)) .inl
      sites := fun _ _ _ h => .inl h
      kept := fun _ h => h
      placed := fun e h => .inl (by cases e <;> exact h) }

/-- Annotated assignments state that variable annotations need 3.6, which covers that annotations need 3.0. -/
theorem Voices.saysAnnotations (h1 : Construct env .varAnnotations n) :
    Voices env n (setFlag .annotations ;; found env .varAnnotations "variable annotations" (from3 6) (.at n.line)) := by
  intro s t h
  obtain ⟨u, hu, h⟩ := seq_run h
  have hu := upd_run hu
  subst hu
  have ht : told .varAnnotations 2 (some (only3 6)) = true := by decide
  obtain ⟨es, hs, hst⟩ := says_stated 2 "variable annotations" (some (only3 6)) (.at n.line) none h1 ht (.inl rfl) h
  refine ⟨es, ?_⟩
  exact {
    out := hs.out
    keep := fun f hf => hs.keep f ((has_set s .annotations f).mpr (.inr hf))
    sound := hs.sound
    full := fun f hf => by
      rcases hs.full f hf with hf | hf
      · rcases (has_set s .annotations f).mp hf with rfl | hf
        · refine .inr fun x hx hxf hlong hsh => ?_
          have hx3 : x.req = only3 0 := by
            have : ∀ x ∈ features, x.flag = .annotations → x.req = only3 0 := by decide +kernel
            exact this x hx hxf
          have hsh' : Shows env (levelOf .varAnnotations) (only3 6) := by
            rw [hx3] at hsh
            refine ⟨?_, hsh.2⟩
            exact violates_only3 hsh.1
          obtain ⟨e, he, r, hr, hrr⟩ := hst ⟨.varAnnotations, only3 6, some "variable annotations"⟩ (by simp [features]) rfl (by decide) hsh'
          refine ⟨e, he, r, hr, .inr ⟨rfl, ?_⟩⟩
          rcases hrr with h | ⟨h, _⟩
          · exact h
          · exact absurd h (by decide)
        · exact .inl hf
      · exact .inr hf
    sites := hs.sites
    kept := hs.kept
    placed := fun e h => (hs.placed e h).imp (fun h => by cases e <;> exact h) id }

theorem Voices.gen {a : V} (m : Node) (ha : Voices env n a) : Voices env n (genEnter env m ;; a ;; V.upd fun s => { s with depth := s.depth - 1 }) := by
  refine .seq (.seq ?_ ha) (.upd (fun _ => rfl) (fun _ => rfl) fun _ => rfl)
  unfold genEnter
  refine .seq (.seq ?_ (.upd (fun _ => rfl) (fun _ => rfl) fun _ => rfl)) ?_
  · cases m.info.line with
    | none => exact .skip
    | some l => exact .upd (fun _ => rfl) (fun _ => rfl) fun _ => rfl
  · refine .when fun hv => .rd fun s => ?_
    unfold nprintV
    refine .when fun hq s t h => ?_
    rw [upd_run h]
    exact ⟨_, .out1 s (e := .node _) ⟨hv, by simpa using hq⟩⟩

theorem voices_module (env : Env) (n : Node) {m : String} (l : Nat) (c : Option Nat) (hm : Emits env n (.module m)) (hl : Near n l) :
    Steps env n (addModule env m (some l) c) ∧ Voices env n (addModule env m (some l) c) := by
  refine ⟨(closed_steps env n).module _ c (.self hm), .rd fun s => ?_⟩
  obtain ⟨k, hk, rfl⟩ := hl
  split
  · exact .note _ _ _ _ _
  · split
    · exact .note _ _ _ _ _
    · exact .when fun _ => .site (fun _ => rfl) (fun _ => rfl) (fun _ => rfl) (.module hm hk)
theorem voices_member (env : Env) (n : Node) {m : String} (l : Nat) (c : Option Nat) (hm : Emits env n (.member m)) (hl : Near n l) :
    Steps env n (addMember env m (some l) c) ∧ Voices env n (addMember env m (some l) c) := by
  refine ⟨(closed_steps env n).member _ c (.self hm), .rd fun s => ?_⟩
  obtain ⟨k, hk, rfl⟩ := hl
  split
  · exact .note _ _ _ _ _
  · split
    · exact .note _ _ _ _ _
    · exact .when fun _ => .site (fun _ => rfl) (fun _ => rfl) (fun _ => rfl) (.member hm hk)
theorem voices_encoding (env : Env) (n : Node) {c : Const} (l : Nat) (hm : Emits env n (.encoding c)) (hl : Near n l) :
    Steps env n (addEncoding env c l) ∧ Voices env n (addEncoding env c l) := by
  obtain ⟨k, hk, rfl⟩ := hl
  refine ⟨(closed_steps env n).encoding _ (.self hm), ?_⟩
  unfold addEncoding
  split
  · exact .note _ _ _ _ _
  · exact .site (fun _ => rfl) (fun _ => rfl) (fun _ => rfl) (.encoding hm hk)

/-- What is done at a node prints what it should. -/
theorem visiting_voices (env : Env) (n : Node) :
    Visiting env env.display n (fun _ => True) (fun v _ => Steps env n v ∧ Voices env n v) (Emits env n) where
  skip := ⟨.skip, .skip⟩
  seq ha hb := ⟨ha.1.seq hb.1, ha.2.seq hb.2⟩
  rd hf := ⟨.rd fun s => (hf s s.findings trivial).1, .rd fun s => (hf s s.findings trivial).2⟩
  raise _ := ⟨fun _ _ h => (by cases h), fun _ _ h => (by cases h)⟩
  note _ _ _ _ _ _ := ⟨.print _ _ _ _ _ _, .note _ _ _ _ _⟩
  mark {f} hf hs := by
    refine ⟨.flag (.self hf), fun s t h => ?_⟩
    rw [upd_run h]
    refine ⟨[], .flag1 s (stated_silent ?_)⟩
    unfold silent at hs
    simp only [Bool.or_eq_true, decide_eq_true_eq] at hs
    rcases hs with rfl | rfl <;> decide +kernel
  says l msg vs line pl hf ht hl := ⟨(closed_steps env n).says l msg vs line pl (.self hf) ht hl, .says l msg vs line pl (constructIn_construct hf) ht hl⟩
  feature msg vs line pl he hb ht hl := feature_of (d := env.display) (Q := fun v _ => Steps env n v ∧ Voices env n v) (fun _ => rfl) ⟨.skip, .skip⟩
    (fun _ => ⟨fun _ _ h => (by cases h), fun _ _ h => (by cases h)⟩)
    (fun l msg vs line pl hf ht hl => ⟨(closed_steps env n).says l msg vs line pl (.self hf) ht hl, .says l msg vs line pl (constructIn_construct hf) ht hl⟩) msg vs line pl he hb ht hl
  saysFormat hf := ⟨(closed_steps env n).saysFormat (.self hf), .saysFormat hf⟩
  saysAnnotations h1 h2 ha := by
    refine ⟨(closed_steps env n).saysAnnotations (a' := V.skip) (.self h1) (.self h2) ha.1, ?_⟩
    intro s t h
    obtain ⟨u, hu, h3⟩ := seq_run h
    obtain ⟨w, hw, hu⟩ := seq_run hu
    obtain ⟨es, hw⟩ := ha.2 s w hw
    obtain ⟨es', h4⟩ := Voices.saysAnnotations h2 w t (by
      show V.seq _ _ w = _
      unfold V.seq
      rw [hu]
      exact h3)
    exact ⟨_, hw.trans h4⟩
  moduleAt := voices_module env n
  memberAt := voices_member env n
  encodingAt := voices_encoding env n
  attrMods := attrMods_of (d := env.display) (Q := fun v _ => Steps env n v ∧ Voices env n v) ⟨.skip, .skip⟩ (fun ha hb => ⟨ha.1.seq hb.1, ha.2.seq hb.2⟩)
    (fun hf => ⟨.rd fun s => (hf s s.findings rfl trivial).1, .rd fun s => (hf s s.findings rfl trivial).2⟩) (voices_module env n) (voices_member env n)
  kwExcl _ _ := rfl
  dirs := dirs_of (d := env.display) (Q := fun v _ => Steps env n v ∧ Voices env n v) rfl ⟨.skip, .skip⟩
    (fun hf => ⟨.rd fun s => (hf s s.findings trivial).1, .rd fun s => (hf s s.findings trivial).2⟩)
    (fun l msg vs line pl hf ht hl => ⟨(closed_steps env n).says l msg vs line pl (.self hf) ht hl, .says l msg vs line pl (constructIn_construct hf) ht hl⟩)
  longType := longType_of (d := env.display) (Q := fun v _ => Steps env n v ∧ Voices env n v) (fun _ => rfl)
    (fun hf => ⟨.rd fun s => (hf s s.findings trivial).1, .rd fun s => (hf s s.findings trivial).2⟩)
    (fun _ _ _ _ _ _ => ⟨.print _ _ _ _ _ _, .note _ _ _ _ _⟩)
    (fun hf => ⟨(closed_steps env n).says _ _ _ _ _ (.self hf) rfl (.inr (.inr ⟨rfl, rfl⟩)), .says _ _ _ _ _ (constructIn_construct hf) rfl (.inr (.inr ⟨rfl, rfl⟩))⟩)
  encodingIdx := encodingIdx_of (Q := fun v _ => Steps env n v ∧ Voices env n v) (d := env.display) (fun _ => rfl) ⟨.skip, .skip⟩ (fun ha hb => ⟨ha.1.seq hb.1, ha.2.seq hb.2⟩)
    (voices_encoding env n)
  kwarg {f k} l hm := by
    refine ⟨(closed_steps env n).kwarg l (.self hm), .rd fun s => ?_⟩
    split
    · exact .note _ _ _ _ _
    · split
      · exact .note _ _ _ _ _
      · exact .when fun _ => .site (fun _ => rfl) (fun _ => rfl) (fun _ => rfl) (.kwarg hm)
  decoAt {u} l hm hl := by
    refine ⟨(closed_steps env n).deco l (.self hm), .rd fun s => ?_⟩
    obtain ⟨k, hk, rfl⟩ := hl
    split
    · exact .note _ _ _ _ _
    · split
      · exact .note _ _ _ _ _
      · exact .when fun _ => .site (fun _ => rfl) (fun _ => rfl) (fun _ => rfl) (.deco hm hk)
  strftimeAt l hm hl := by
    obtain ⟨k, hk, rfl⟩ := hl
    exact ⟨(closed_steps env n).strftime _ (.self hm), .site (fun _ => rfl) (fun _ => rfl) (fun _ => rfl) (.strftime hm hk)⟩
  bytesDirAt l hm hl := by
    obtain ⟨k, hk, rfl⟩ := hl
    exact ⟨(closed_steps env n).bytesDir _ (.self hm), .site (fun _ => rfl) (fun _ => rfl) (fun _ => rfl) (.bytesDir hm hk)⟩
  typecodeAt l c hm hl := by
    obtain ⟨k, hk, rfl⟩ := hl
    exact ⟨(closed_steps env n).typecode _ c (.self hm),
      .rd fun s => .when fun _ => .site (fun _ => rfl) (fun _ => rfl) (fun _ => rfl) (.typecode hm hk)⟩
  errorHandlerAt l hm hl := by
    obtain ⟨k, hk, rfl⟩ := hl
    refine ⟨(closed_steps env n).errorHandler _ (.self hm), ?_⟩
    unfold addErrorHandler
    split
    · exact .note _ _ _ _ _
    · exact .site (fun _ => rfl) (fun _ => rfl) (fun _ => rfl) (.errorHandler hm hk)
  userDef hx := ⟨(closed_steps env n).userDef (.self hx), .upd (fun _ => rfl) (fun _ => rfl) fun _ => rfl⟩
  nameRes hx := ⟨(closed_steps env n).nameRes (.self hx), .upd (fun _ => rfl) (fun _ => rfl) fun _ => rfl⟩
  nameResType hx := ⟨(closed_steps env n).nameResType (.self hx), .upd (fun _ => rfl) (fun _ => rfl) fun _ => rfl⟩
  moduleAs hx := ⟨(closed_steps env n).moduleAs (.self hx), .upd (fun _ => rfl) (fun _ => rfl) fun _ => rfl⟩
  importMem hx := ⟨(closed_steps env n).importMem (.self hx), .upd (fun _ => rfl) (fun _ => rfl) fun _ => rfl⟩
  callScope hx ha := ⟨(closed_steps env n).callScope (a' := V.skip) (.self hx) ha.1,
    .seq (.seq (.upd (fun _ => rfl) (fun _ => rfl) fun _ => rfl) ha.2) (.upd (fun _ => rfl) (fun _ => rfl) fun _ => rfl)⟩
  pop hx := ⟨(closed_steps env n).pop hx, .upd (fun _ => rfl) (fun _ => rfl) fun _ => rfl⟩
  yield hx := ⟨(closed_steps env n).yield (.self hx), .upd (fun _ => rfl) (fun _ => rfl) fun _ => rfl⟩
  await hx := ⟨(closed_steps env n).await (.self hx), .upd (fun _ => rfl) (fun _ => rfl) fun _ => rfl⟩
  ellipsis hu := ⟨(closed_steps env n).ellipsis (.self hu), .upd (fun _ => rfl) (fun _ => rfl) fun _ => rfl⟩
  gen m a _ ha := ⟨(closed_steps env n).gen (a' := V.skip) m ha.1, .gen m ha.2⟩
  inScope ha := ⟨ha.1.inScope, .rd fun s => .seq ha.2 (.upd (fun _ => rfl) (fun _ => rfl) fun _ => rfl)⟩
  yieldScope ha := ⟨(closed_steps env n).yieldScope (a' := V.skip) ha.1, .rd fun s => .seq ha.2 (.upd (fun _ => rfl) (fun _ => rfl) fun _ => rfl)⟩
  asyncScope {a a' name} hn hf ha := by
    refine ⟨(closed_steps env n).asyncScope (a' := V.skip) hn (.self hf) ha.1, ?_⟩
    intro s t h
    obtain ⟨w, h1, h4⟩ := seq_run (show (a ;; found env .coroutines "coroutines (async)" (from3 5) (.at n.line) (some true) ;;
        (V.rd fun s' => when (decide (s.seenYield < s'.seenYield) && decide (s.seenAwait < s'.seenAwait))
          (found env .asyncGenerator "async generators (await and yield in same func)" (from3 6) (.at n.line) (some true))) ;;
        upd fun s' => { s' with seenAwait := s.seenAwait, seenYield := s.seenYield }) s = .ok t from h)
    obtain ⟨v, h1, h3⟩ := seq_run h1
    obtain ⟨u, h1, h2⟩ := seq_run h1
    have hv : Step env n s v := (ha.1 s u h1).trans (((closed_steps env n).says _ _ _ _ _ (.self hf) rfl (.inl rfl)) u v h2)
    obtain ⟨es1, e1⟩ := ha.2 s u h1
    obtain ⟨es2, e2⟩ := Voices.says (env := env) (n := n) (f := .coroutines) 2 "coroutines (async)" (some (only3 5)) (.at n.line) (some true) hf (by decide) (.inl rfl) u v h2
    have h3 : ∃ es, Speaks env n v w es := by
      refine Voices.when (n := n) (fun hb => ?_) v w h3
      simp only [Bool.and_eq_true, decide_eq_true_eq] at hb
      obtain ⟨y, hy, hyk⟩ := hv.yields.2 hb.1
      obtain ⟨z, hz, hzk⟩ := hv.awaits.2 hb.2
      exact .says 2 _ (some (only3 6)) _ _ ⟨⟨name, hn⟩, ⟨y, hy, hyk⟩, z, hz, hzk⟩ (by decide) (.inl rfl)
    obtain ⟨es3, e3⟩ := h3
    rw [upd_run h4]
    exact ⟨_, ((e1.trans e2).trans e3).trans (.other rfl rfl rfl fun e h => (by cases e <;> exact h))⟩
  compScope {a a' b} hn ha := by
    refine ⟨(closed_steps env n).compScope (a' := V.skip) hn ha.1, ?_⟩
    intro s t h
    obtain ⟨w, h1, h4⟩ := seq_run (show (a ;; (V.rd fun s' => when (decide (s.seenAwait < s'.seenAwait))
          (found env .awaitInComprehension "await in comprehensions" (from3 7))) ;; upd fun s' => { s' with seenAwait := s.seenAwait }) s = .ok t from h)
    obtain ⟨v, h1, h3⟩ := seq_run h1
    have hv := ha.1 s v h1
    obtain ⟨es1, e1⟩ := ha.2 s v h1
    have h3 : ∃ es, Speaks env n v w es := by
      refine Voices.when (n := n) (fun hb => ?_) v w h3
      simp only [decide_eq_true_eq] at hb
      obtain ⟨z, hz, hzk⟩ := hv.awaits.2 hb
      exact .says 2 _ (some (only3 7)) _ _ ⟨⟨b, hn⟩, z, hz, hzk⟩ (by decide) (.inr (.inr ⟨rfl, rfl⟩))
    obtain ⟨es3, e3⟩ := h3
    rw [upd_run h4]
    exact ⟨_, (e1.trans e3).trans (.other rfl rfl rfl fun e h => (by cases e <;> exact h))⟩
  forScope hn ha hb hc := ⟨(closed_steps env n).forScope (a' := V.skip) (b' := V.skip) (c' := V.skip) hn ha.1 hb.1 hc.1,
    .seq (.upd (fun _ => rfl) (fun _ => rfl) fun _ => rfl) (.rd fun s => .seq
      (.seq (.seq (.seq ha.2 hb.2) hc.2) (.upd (fun _ => rfl) (fun _ => rfl) fun _ => rfl)) (.upd (fun _ => rfl) (fun _ => rfl) fun _ => rfl))⟩
  whileScope hn ha := ⟨(closed_steps env n).whileScope (a' := V.skip) hn ha.1,
    .seq (.seq (.upd (fun _ => rfl) (fun _ => rfl) fun _ => rfl) ha.2) (.upd (fun _ => rfl) (fun _ => rfl) fun _ => rfl)⟩
  tryScope hn ha hb := ⟨(closed_steps env n).tryScope (a' := V.skip) (b' := V.skip) hn ha.1 hb.1,
    .seq (.seq (.seq (.upd (fun _ => rfl) (fun _ => rfl) fun _ => rfl) ha.2) (.upd (fun _ => rfl) (fun _ => rfl) fun _ => rfl)) hb.2⟩

/-- **What a visit prints.** -/
theorem visit_voices (env : Env) (n : Node) : Voices env n (visit env n) :=
  (visit_visiting (d := env.display) (I := fun _ _ => True) (Q := fun n v _ => Steps env n v ∧ Voices env n v) (A := Emits env) (visiting_voices env)
    (fun _ _ h => h) (fun _ _ hk _ _ h => ⟨fun s t ht => (h.1 s t ht).up hk, fun s t ht => (h.2 s t ht).imp fun _ h => h.up hk⟩) n).2

theorem Voices.each {α : Type} {f : α → V} (h : ∀ x, Voices env n (f x)) : ∀ l : List α, Voices env n (V.each f l)
  | [] => .skip
  | x :: l => .seq (h x) (Voices.each h l)

theorem removeDef_voices (u : String) : Voices env n (removeDef env u) := by
  refine .rd fun s => .seq (.seq (.seq (.each (fun _ => .note _ _ _ _ _) _) ?_) (.each (fun _ => .note _ _ _ _ _) _)) ?_
  · refine .upd (fun _ => rfl) (fun _ => rfl) (fun _ => rfl) fun s e h => ?_
    cases e with
    | name x => exact h.imp (fun h => (List.mem_filter.mp h).1) id
    | kw f k => exact h
    | const c => exact h
  · refine .upd (fun _ => rfl) (fun _ => rfl) (fun _ => rfl) fun s e h => ?_
    cases e with
    | name x => exact h.imp id fun h => h.imp (fun h => (List.mem_filter.mp h).1) id
    | kw f k => exact h
    | const c => exact h

/-- **What the visitor prints before `minimum_versions`.** -/
theorem tour_voices (env : Env) (n : Node) : Voices env n (tour env n) := .seq (visit_voices env n) (.rd fun _ => .each removeDef_voices _)

/-! ### What `minimum_versions` prints -/

/-- The step prints exactly the entries of the findings described by `P`, as far as they are shown. -/
def Recites (env : Env) (s0 : S) (f : M) (P : Entry → Prop) : Prop :=
  ∀ s m s' m', Frame s0 s → f (s, m) = .ok (s', m') → ∃ es : List Entry, s'.out = s.out ++ es.map (Entry.text env) ∧ Frame s s' ∧
    (∀ e ∈ es, P e ∧ ∀ r, e.states r → violates env (some r) = .ok true) ∧ ∀ e r, P e → e.states r → Shows env 2 r → e ∈ es

namespace Recites
variable {s0 : S}

theorem skip : Recites env s0 (fun x => .ok x) (fun _ => False) := by
  intro s m s' m' _ h
  injection h with h
  injection h with h1 h2
  subst h1
  exact ⟨[], by simp, .refl _, nofun, fun _ _ h => h.elim⟩

theorem then' {f g : M} {P R : Entry → Prop} (hf : Recites env s0 f P) (hg : Recites env s0 g R) : Recites env s0 (thenM f g) (fun e => P e ∨ R e) := by
  intro s m s' m' hs h
  unfold thenM at h
  cases hfe : f (s, m) with
  | error e => rw [hfe] at h; cases h
  | ok x =>
    obtain ⟨t, k⟩ := x
    rw [hfe] at h
    obtain ⟨es, o1, f1, a1, b1⟩ := hf s m t k hs hfe
    obtain ⟨es', o2, f2, a2, b2⟩ := hg t k s' m' (hs.trans f1) h
    refine ⟨es ++ es', by rw [o2, o1]; simp, f1.trans f2, fun e he => ?_, fun e r he hr hsh => ?_⟩
    · rcases List.mem_append.mp he with he | he
      · exact ⟨.inl (a1 e he).1, (a1 e he).2⟩
      · exact ⟨.inr (a2 e he).1, (a2 e he).2⟩
    · rcases he with he | he
      · exact List.mem_append_left _ (b1 e r he hr hsh)
      · exact List.mem_append_right _ (b2 e r he hr hsh)

theorem imp {f : M} {P R : Entry → Prop} (hf : Recites env s0 f P) (h : ∀ e, P e ↔ R e) : Recites env s0 f R := by
  have : P = R := funext fun e => propext (h e)
  exact this ▸ hf

theorem each {α : Type} {f : α → M} {P : α → Entry → Prop} (hf : ∀ a, Recites env s0 (f a) (P a)) :
    ∀ l : List α, Recites env s0 (eachM f l) (fun e => ∃ a ∈ l, P a e)
  | [] => skip.imp fun e => by simp
  | a :: as => by
    rw [eachM_cons]
    exact ((hf a).then' (each hf as)).imp fun e => by simp

/-- The entry about a finding with a rule. -/
def entry (env : Env) (s0 : S) (info : String) (ent : Ent) (r : Req) : Entry :=
  .message info (shownAt env s0 (some ent) .absent).1 (shownAt env s0 (some ent) .absent).2 (some r) none

theorem infoStep_none {r : Req} {s s' : S} (info : Option String) (h : infoStep env r info none s = .ok s') : s'.out = s.out ∧ Frame s s' := by
  unfold infoStep at h
  cases hv : violates env (some r) with
  | error e => rw [hv] at h; cases h
  | ok b =>
    rw [hv] at h
    replace h : V.when b _ s = .ok s' := h
    unfold V.when at h
    split at h
    · cases info with
      | none => injection h with h; subst h; exact ⟨rfl, .refl _⟩
      | some i => injection h with h; subst h; exact ⟨rfl, rfl⟩
    · injection h with h; subst h; exact ⟨rfl, .refl _⟩

theorem infoStep_some {r : Req} {s s' : S} {info : String} {ent : Ent} (hs : Frame s0 s) (h : infoStep env r (some info) (some ent) s = .ok s') :
    Frame s s' ∧ ((Shows env 2 r ∧ s'.out = s.out ++ [(entry env s0 info ent r).text env]) ∨ ¬ Shows env 2 r ∧ s'.out = s.out) := by
  unfold infoStep at h
  cases hv : violates env (some r) with
  | error e => rw [hv] at h; cases h
  | ok b =>
    rw [hv] at h
    replace h : V.when b _ s = .ok s' := h
    unfold V.when at h
    split at h
    · obtain ⟨u, h1, h2⟩ := seq_run (show (V.upd (fun s => s.addInfo r info) ;; vv env info (some r) .absent none (some ent)) s = .ok s' from h)
      have h1 := upd_run h1
      have hu : Frame s u := by rw [h1]; rfl
      have ho : u.out = s.out := by rw [h1]; rfl
      clear h1
      rcases verbosePrint_entry (show verbosePrint env 2 info (some ent) .absent (some r) none u = .ok s' from h2) with ⟨h3, hn⟩ | ⟨hy, h3⟩
      · subst h3
        exact ⟨hu, .inr ⟨hn, ho⟩⟩
      · subst h3
        refine ⟨hu.trans rfl, .inl ⟨hy, ?_⟩⟩
        show u.out ++ [_] = _
        rw [ho, verboseLine_frame (hs.trans hu), verboseLine_some]
        rfl
    · rename_i hb
      injection h with h; subst h
      exact ⟨.refl _, .inr ⟨fun hsh => hb (by have := hsh.1; rw [hv] at this; exact Except.ok.inj this), rfl⟩⟩

theorem addEntity_run {r : Req} {info : Option String} {ent : Option Ent} {s s' : S} {m m' : Req} (h : addEntity env r info ent (s, m) = .ok (s', m')) :
    infoStep env r info ent s = .ok s' := by
  unfold addEntity at h
  dsimp only at h
  split at h
  · rename_i u hu
    split at h
    · injection h with h
      injection h with h1 h2
      rw [hu, h1]
    · cases h
  · cases h

theorem feature {f : Feature} : Recites env s0 (featureM env f) (fun _ => False) := by
  intro s m s' m' _ h
  unfold featureM at h
  dsimp only at h
  split at h
  · obtain ⟨ho, hf⟩ := infoStep_none _ (addEntity_run h)
    exact ⟨[], by simp [ho], hf, nofun, fun _ _ h => h.elim⟩
  · injection h with h
    injection h with h1 h2
    subst h1
    exact ⟨[], by simp, .refl _, nofun, fun _ _ h => h.elim⟩

theorem entity {r : Req} {info : String} {ent : Ent} : Recites env s0 (addEntity env r (some info) (some ent)) (fun e => e = entry env s0 info ent r) := by
  intro s m s' m' hs h
  obtain ⟨hf, ⟨hsh, ho⟩ | ⟨hsh, ho⟩⟩ := infoStep_some hs (addEntity_run h)
  · refine ⟨[entry env s0 info ent r], by simp [ho], hf, fun e he => ?_, fun e r' he hr _ => by simp [he]⟩
    have he := List.mem_singleton.mp he
    refine ⟨he, fun r' hr => ?_⟩
    subst he
    have : r = r' := Option.some.inj hr
    exact this ▸ hsh.1
  · refine ⟨[], by simp [ho], hf, nofun, fun e r' he hr hsh' => ?_⟩
    subst he
    have : r = r' := Option.some.inj hr
    exact absurd (this ▸ hsh') hsh

theorem rule {rule : Option Req} {info : String} {ent : Ent} :
    Recites env s0 (ruleM env rule info ent) (fun e => ∃ r, rule = some r ∧ e = entry env s0 info ent r) := by
  cases rule with
  | none => exact skip.imp fun e => by simp
  | some r => exact entity.imp fun e => by simp

/-- The entry about `print`. -/
def printEntry : Entry := .message "print(expr)" none none (some (both23 0 0)) none

theorem print : Recites env s0 (printM env) (fun e => s0.has .printv3 = true ∧ e = printEntry) := by
  intro s m s' m' hs h
  have hh : s.has .printv3 = s0.has .printv3 := by rw [hs]; rfl
  unfold printM at h
  dsimp only at h
  rw [hh] at h
  split at h
  · rename_i hb
    split at h
    · rename_i u hu
      obtain ⟨ho, hf⟩ := infoStep_none _ (addEntity_run h)
      rcases verbosePrint_entry (show verbosePrint env 2 "print(expr)" none .hide (some (both23 0 0)) none s = .ok u from hu) with ⟨rfl, hn⟩ | ⟨hy, rfl⟩
      · refine ⟨[], by simp [ho], hf, nofun, fun e r he hr hsh => ?_⟩
        rw [he.2] at hr
        have : both23 0 0 = r := Option.some.inj hr
        exact absurd (this ▸ hsh) hn
      · have hu : Frame s { s with out := s.out ++ [verboseLine env s "print(expr)" none .hide (some (both23 0 0)) none] } := rfl
        refine ⟨[printEntry], ?_, hu.trans hf, fun e he => ?_, fun e r he _ _ => by simp [he.2]⟩
        · rw [ho, verboseLine_plain]; rfl
        · have he := List.mem_singleton.mp he
          refine ⟨⟨hb, he⟩, fun r' hr => ?_⟩
          subst he
          have : both23 0 0 = r' := Option.some.inj hr
          exact this ▸ hy.1
    · cases h
  · rename_i hb
    injection h with h
    injection h with h1 h2
    subst h1
    exact ⟨[], by simp, .refl _, nofun, fun _ _ h => absurd h.1 hb⟩

theorem quoted_pre {p p' : String} (h : p ++ "'" = p') (n : String) : quoted p n "" = p' ++ n ++ "'" := by
  unfold quoted
  rw [h, String.append_empty]

theorem quoted_post {p p' : String} (h : "'" ++ p = p') (n : String) : quoted "" n p = "'" ++ n ++ p' := by
  unfold quoted
  rw [String.empty_append, String.append_assoc, h]

theorem encodingEntry {c : Const} {x : EncKey × Req} : Recites env s0 (encodingEntryM env c x)
    (fun e => ∃ n, c = .str n ∧ x.1.contains (lowerStr n) = true ∧ e = entry env s0 ("codecs encoding '" ++ n ++ "'") (.name n) x.2) := by
  cases c with
  | str n =>
    show Recites env s0 (fun y => if x.1.contains (lowerStr n) then addEntity env x.2 (some (quoted "codecs encoding " n "")) (some (.name n)) y else .ok y) _
    by_cases hc : x.1.contains (lowerStr n) = true
    · simp only [hc, if_true]
      refine entity.imp fun e => ?_
      rw [quoted_pre (by decide +kernel : "codecs encoding " ++ "'" = "codecs encoding '")]
      simp [hc]
    · simp only [hc]
      exact skip.imp fun e => by simp [hc]
  | bytes t =>
    intro s m s' m' hs h
    unfold encodingEntryM at h
    dsimp only at h
    split at h
    · cases h
    · injection h with h
      injection h with h1 h2
      subst h1
      exact ⟨[], by simp, .refl _, nofun, fun _ _ ⟨_, h, _⟩ => (by cases h)⟩
  | _ =>
    intro s m s' m' hs h
    cases h

theorem errorHandler {c : Const} : Recites env s0 (errorHandlerM env c)
    (fun e => ∃ n r, c = .str n ∧ env.tables.errorHandler n = some r ∧ e = entry env s0 ("codecs error handler name '" ++ n ++ "'") (.name n) r) := by
  cases c with
  | str n =>
    refine Recites.rule.imp fun e => ?_
    rw [quoted_pre (by decide +kernel : "codecs error handler name " ++ "'" = "codecs error handler name '")]
    simp
  | _ => exact skip.imp fun e => by simp

theorem pre {p p' : String} (h : p ++ "'" = p') {n : String} {o : Option Req} :
    Recites env s0 (ruleM env o (quoted p n "") (.name n)) (fun e => ∃ r, o = some r ∧ e = entry env s0 (p' ++ n ++ "'") (.name n) r) :=
  Recites.rule.imp fun e => by rw [quoted_pre h]
theorem post {p p' : String} (h : "'" ++ p = p') {n : String} {o : Option Req} :
    Recites env s0 (ruleM env o (quoted "" n p) (.name n)) (fun e => ∃ r, o = some r ∧ e = entry env s0 ("'" ++ n ++ p') (.name n) r) :=
  Recites.rule.imp fun e => by rw [quoted_post h]
theorem keyword {k : String × Option String} : Recites env s0 (kwargM env k)
    (fun e => ∃ r, env.tables.kw k = some r ∧ e = entry env s0 ("'" ++ k.1 ++ "(" ++ k.2.getD "None" ++ ")'") (.kw k.1 k.2) r) :=
  Recites.rule.imp fun e => by
    have : kwText k.2 = k.2.getD "None" := by cases k.2 <;> rfl
    rw [this]

/-- The findings with rules. -/
theorem entities : Recites env s0 (entitiesM env s0) (fun e => ∃ ent info r, Ruled env s0 ent info r ∧ e = entry env s0 info ent r) := by
  unfold entitiesM
  refine ((each (fun d => pre (by decide +kernel : "strftime directive " ++ "'" = "strftime directive '")) s0.strftime).then' <|
    (each (fun d => pre (by decide +kernel : "bytes directive " ++ "'" = "bytes directive '")) s0.bytesDirs).then' <|
    (each (fun d => pre (by decide +kernel : "array typecode " ++ "'" = "array typecode '")) s0.typecodes).then' <|
    (each (fun c => errorHandler) s0.codecsErr).then' <|
    (each (fun c => each (fun x => encodingEntry) env.tables.encodings) s0.codecsEnc).then' <|
    (each (fun m => post (by decide +kernel : "'" ++ " module" = "' module")) s0.modules).then' <|
    (each (fun m => post (by decide +kernel : "'" ++ " member" = "' member")) s0.members).then' <|
    (each (fun k => keyword) s0.kwargs).then' <|
    each (fun m => post (by decide +kernel : "'" ++ " user function decorator" = "' user function decorator")) s0.userFuncDecos).imp fun e => ?_
  constructor
  · rintro (⟨d, hd, r, hr, rfl⟩ | ⟨d, hd, r, hr, rfl⟩ | ⟨d, hd, r, hr, rfl⟩ | ⟨c, hc, n, r, rfl, hr, rfl⟩ | ⟨c, hc, ⟨k, r⟩, hx, n, rfl, hk, rfl⟩ | ⟨d, hd, r, hr, rfl⟩ |
      ⟨d, hd, r, hr, rfl⟩ | ⟨d, hd, r, hr, rfl⟩ | ⟨d, hd, r, hr, rfl⟩)
    · exact ⟨_, _, _, .strftime hd hr, rfl⟩
    · exact ⟨_, _, _, .bytesDir hd hr, rfl⟩
    · exact ⟨_, _, _, .typecode hd hr, rfl⟩
    · exact ⟨_, _, _, .errorHandler hc hr, rfl⟩
    · exact ⟨_, _, _, .encoding hc hx hk, rfl⟩
    · exact ⟨_, _, _, .module hd hr, rfl⟩
    · exact ⟨_, _, _, .member hd hr, rfl⟩
    · exact ⟨_, _, _, .kwarg hd hr, rfl⟩
    · exact ⟨_, _, _, .decorator hd hr, rfl⟩
  · rintro ⟨ent, info, r, h, rfl⟩
    cases h with
    | strftime hd hr => exact .inl ⟨_, hd, _, hr, rfl⟩
    | bytesDir hd hr => exact .inr (.inl ⟨_, hd, _, hr, rfl⟩)
    | typecode hd hr => exact .inr (.inr (.inl ⟨_, hd, _, hr, rfl⟩))
    | errorHandler hc hr => exact .inr (.inr (.inr (.inl ⟨_, hc, _, _, rfl, hr, rfl⟩)))
    | encoding hc hx hk => exact .inr (.inr (.inr (.inr (.inl ⟨_, hc, _, hx, _, rfl, hk, rfl⟩))))
    | module hd hr => exact .inr (.inr (.inr (.inr (.inr (.inl ⟨_, hd, _, hr, rfl⟩)))))
    | member hd hr => exact .inr (.inr (.inr (.inr (.inr (.inr (.inl ⟨_, hd, _, hr, rfl⟩))))))
    | kwarg hd hr => exact .inr (.inr (.inr (.inr (.inr (.inr (.inr (.inl ⟨_, hd, _, hr, rfl⟩)))))))
    | decorator hd hr => exact .inr (.inr (.inr (.inr (.inr (.inr (.inr (.inr ⟨_, hd, _, hr, rfl⟩)))))))

theorem entitiesM_frame {s : S} (h : Frame s0 s) : entitiesM env s = entitiesM env s0 := by
  rw [h]; rfl

/-- **What `minimum_versions` prints.** -/
theorem minimum {s s' : S} {m : Req} (h : minimumVersions env s = .ok (s', m)) : ∃ es : List Entry, s'.out = s.out ++ es.map (Entry.text env) ∧ Frame s s' ∧
    (∀ e ∈ es, (s.has .printv3 = true ∧ e = printEntry ∨ ∃ ent info r, Ruled env s ent info r ∧ e = entry env s info ent r) ∧
      ∀ r, e.states r → violates env (some r) = .ok true) ∧
    (s.has .printv3 = true → Shows env 2 (both23 0 0) → printEntry ∈ es) ∧
    ∀ ent info r, Ruled env s ent info r → Shows env 2 r → entry env s info ent r ∈ es := by
  have hall : Recites env s (thenM (printM env) (thenM (eachM (featureM env) features) (fun x => entitiesM env x.1 x)))
      (fun e => (s.has .printv3 = true ∧ e = printEntry) ∨ (∃ a ∈ features, False) ∨ ∃ ent info r, Ruled env s ent info r ∧ e = entry env s info ent r) := by
    refine print.then' ((each (fun _ => feature) features).then' ?_)
    intro s1 m1 s2 m2 hs h
    exact entities s1 m1 s2 m2 hs (by rw [← entitiesM_frame hs]; exact h)
  obtain ⟨es, h1, h2, h3, h4⟩ := hall s _ s' m (.refl s) h
  refine ⟨es, h1, h2, fun e he => ⟨?_, (h3 e he).2⟩, fun hp hsh => h4 _ _ (.inl ⟨hp, rfl⟩) rfl hsh,
    fun ent info r hr hsh => h4 _ r (.inr (.inr ⟨ent, info, r, hr, rfl⟩)) rfl hsh⟩
  rcases (h3 e he).1 with h | ⟨_, _, h⟩ | h
  · exact .inl h
  · exact h.elim
  · exact .inr h

end Recites
end
end Vermin
