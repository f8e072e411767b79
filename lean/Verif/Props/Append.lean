import Verif.Props.Relaxed
import Verif.Lemmas.Beside
import Verif.Props.Imports
/-
C87: appending statements to a program never lowers what it requires, unless they define names that it uses.
-/
namespace Vermin.Props
open Vermin Vermin.Py Vermin.Spec Vermin.V

theorem each_append {α : Type} (f : α → V) : ∀ (l l' : List α) (s : S), each f (l ++ l') s = (each f l ;; each f l') s
  | [], l', s => rfl
  | a :: l, l', s => by
    show (f a ;; each f (l ++ l')) s = ((f a ;; each f l) ;; each f l') s
    unfold V.seq
    cases f a s with
    | error e => rfl
    | ok t => exact each_append f l l' t

theorem visitKids_append (env : Env) : ∀ (ks ks' : List Node), visitKids env (ks ++ ks') = visitKids env ks ++ visitKids env ks'
  | [], _ => rfl
  | k :: ks, ks' => by
    rw [List.cons_append, visitKids, visitKids, visitKids_append env ks ks', List.cons_append]

theorem visit_kept {env : Env} {n : Node} {s t : S} (h : visit env n s = .ok t) : Retains s t :=
  have h := visit_steps env n s t h
  ⟨fun _ => h.flags.sub, fun _ => h.modules.sub, fun _ => h.members.sub, fun _ => h.kwargs.sub, fun _ => h.decos.sub, fun _ => h.strftime.sub,
   fun _ => h.bytesDirs.sub, fun _ => h.typecodes.sub, fun _ => h.codecsErr.sub, fun _ => h.codecsEnc.sub⟩

theorem kids_kept {env : Env} : ∀ {ks : List Node} {s t : S}, each Child.visit (visitKids env ks) s = .ok t → Retains s t
  | [], s, t, h => by cases h; exact .refl s
  | k :: ks, s, t, h => by
    rw [visitKids] at h
    obtain ⟨u, h1, h2⟩ := seq_run h
    exact (visit_kept h1).trans (kids_kept h2)

/-- The visit of a program goes on where that of its first statements ends. -/
theorem visit_longer {env : Env} (hp : env.cfg.printVisits = false) {i : Info} (hi : i.kind = .module) {ks ks' : List Node} {s t : S}
    (h : visit env (.mk i (ks ++ ks')) s = .ok t) : ∃ u, visit env (.mk i ks) s = .ok u ∧ Retains u t := by
  have hv : ∀ l, visit env (.mk i l) = gen env (.mk i l) (visitKids env l) := fun l => by
    rw [visit_mk]
    unfold visitAlg
    have : (Node.mk i l).kind = .module := hi
    rw [this]
    rfl
  rw [hv] at h ⊢
  unfold gen at h ⊢
  have he : ∀ l, genEnter env (.mk i l) = genEnter env (.mk i ks) := fun l => by
    unfold genEnter
    rw [hp]
    rfl
  obtain ⟨b, h2, h4⟩ := seq_run h
  obtain ⟨a, h1, h3⟩ := seq_run h2
  rw [visitKids_append, each_append] at h3
  obtain ⟨c, h5, h6⟩ := seq_run h3
  rw [he] at h1
  cases h4
  refine ⟨{ c with depth := c.depth - 1 }, ?_, ?_⟩
  · unfold V.seq
    rw [h1]
    dsimp only
    rw [h5]
    rfl
  · have := kids_kept h6
    exact ⟨this.flags, this.modules, this.members, this.kwargs, this.decos, this.strftime, this.bytesDirs, this.typecodes, this.errs, this.encs⟩

/-- The tour of the longer program finds what the shorter one finds, except for names it defines. -/
theorem tour_longer {env : Env} (hp : env.cfg.printVisits = false) (ho : SetOrder env) {i : Info} (hi : i.kind = .module) {ks ks' : List Node} {t : S}
    (h : tour env (.mk i (ks ++ ks')) S.init = .ok t) : ∃ u, tour env (.mk i ks) S.init = .ok u ∧
      ((∀ x ∈ t.userDefs, x ∉ u.modules ∧ x ∉ u.members) → Retains u t) := by
  obtain ⟨b, o, hb, rfl⟩ := tour_run h
  obtain ⟨a, ha, hk⟩ := visit_longer hp hi hb
  obtain ⟨o', hr⟩ := afterVisitAll_run env a
  refine ⟨_, by unfold tour V.seq; rw [ha]; exact hr, fun hd => ?_⟩
  refine ⟨hk.flags, fun m hm => ?_, fun m hm => ?_, hk.kwargs, hk.decos, hk.strftime, hk.bytesDirs, hk.typecodes, hk.errs, hk.encs⟩
  · refine List.mem_filter.mpr ⟨hk.modules m (List.mem_filter.mp hm).1, ?_⟩
    rw [Bool.not_eq_true', ← Bool.not_eq_true, List.contains_iff_mem, (ho _).mem_iff]
    exact fun hc => (hd m hc).1 hm
  · refine List.mem_filter.mpr ⟨hk.members m (List.mem_filter.mp hm).1, ?_⟩
    rw [Bool.not_eq_true', ← Bool.not_eq_true, List.contains_iff_mem, (ho _).mem_iff]
    exact fun hc => (hd m hc).2 hm

theorem requires_kept {env : Env} {s t : S} (h : Retains s t) {r : Req} (hr : Requires env s r) : Requires env t r := by
  cases hr with
  | feature hf he => exact .feature (List.contains_iff_mem.mpr (h.flags _ (List.contains_iff_mem.mp hf))) he
  | strftime hd ht => exact .strftime (h.strftime _ hd) ht
  | bytesDir hd ht => exact .bytesDir (h.bytesDirs _ hd) ht
  | typecode hd ht => exact .typecode (h.typecodes _ hd) ht
  | errorHandler hd ht => exact .errorHandler (h.errs _ hd) ht
  | encoding hd hk ht => exact .encoding (h.encs _ hd) hk ht
  | module hd ht => exact .module (h.modules _ hd) ht
  | member hd ht => exact .member (h.members _ hd) ht
  | kwarg hd ht => exact .kwarg (h.kwargs _ hd) ht
  | decorator hd ht => exact .decorator (h.decos _ hd) ht

/-- States with fewer findings: minimum versions are found for them, and they are satisfied by no fewer interpreters. -/
theorem minimum_kept {c : Config} {h : Host} {path : String} {toks : List Tok} (hp : Printable c path) {s t t' : S} {m : Req} (hk : Retains s t)
    (hm : minimumVersions (Env.make c h path toks) t = .ok (t', m)) :
    ∃ s' m0, minimumVersions (Env.make c h path toks) s = .ok (s', m0) ∧ ∀ v, Satisfies v m → Satisfies v m0 := by
  have he := encodings_ok (std_text c) hm
  have he' : EncodingsOk s := fun k h => he k (hk.encs k h)
  obtain ⟨k1, _⟩ := C32_raises_std (env := Env.make c h path toks) (s := t) rfl hp.1 he
  obtain ⟨k2, _⟩ := C32_raises_std (env := Env.make c h path toks) (s := s) rfl hp.1 he'
  cases hv : minimumVersions (Env.make c h path toks) s with
  | error e =>
    obtain ⟨hi, ⟨a, ha, ha2⟩, ⟨b, hb, hb3⟩⟩ := k2.mp ⟨e, hv⟩
    obtain ⟨e', he'⟩ := k1.mpr ⟨hi, ⟨a, requires_kept hk ha, ha2⟩, ⟨b, requires_kept hk hb, hb3⟩⟩
    rw [hm] at he'; cases he'
  | ok x =>
    obtain ⟨s', m0⟩ := x
    refine ⟨s', m0, rfl, fun v hs => ?_⟩
    obtain ⟨hmaj, hall⟩ := (C32_satisfies hm v).mp hs
    exact (C32_satisfies hv v).mpr ⟨hmaj, fun r hr => hall r (requires_kept hk hr)⟩

/-- Printing visits or not is no relaxation. -/
theorem printVisits_relaxation (c : Config) (b b' : Bool) : Relaxation { c with printVisits := b } { c with printVisits := b' } :=
  ⟨rfl, rfl, rfl, rfl, fun _ h => h, fun _ h _ => h, fun _ h => h, fun _ h _ => h⟩

/-- **C87.** If minimum versions are detected for a program, they are also detected for its first statements, and every interpreter that satisfies
the former satisfies the latter, unless the program as a whole defines a name that its first statements require as a module or member. -/
theorem C87_append (c : Config) (h : Host) (path : String) (toks : List Tok) (hp : Printable c path) (ho : ∀ l, (h.order l).Perm l)
    {i : Info} (hi : i.kind = .module) (ks ks' : List Node)
    (hd : ∀ s t, tour (Env.make c h path toks) (.mk i ks) S.init = .ok s → tour (Env.make c h path toks) (.mk i (ks ++ ks')) S.init = .ok t →
      ∀ x ∈ t.userDefs, x ∉ s.modules ∧ x ∉ s.members)
    (m : Req) (hm : detectSource c h path (.mk i (ks ++ ks')) toks = .ok m) :
    ∃ m0, detectSource c h path (.mk i ks) toks = .ok m0 ∧ ∀ v, Satisfies v m → Satisfies v m0 := by
  obtain ⟨hb, t, t', ht, hv⟩ := (detect_ok_iff c h path _ toks m).mp hm
  -- without printing visits
  let c0 : Config := { c with printVisits := false }
  have hp0 : Printable c0 path := hp
  have hr : Relaxation c c0 := printVisits_relaxation c c.printVisits false
  have hr' : Relaxation c0 c := printVisits_relaxation c false c.printVisits
  obtain ⟨t0, ht0, hw, _⟩ := (C85_visit c c0 h path (.mk i (ks ++ ks')) toks hr hp hp0).2 t ht
  obtain ⟨m1, hm1, hs1⟩ := C85_relaxed c c0 h path (.mk i (ks ++ ks')) toks hr hp hp0 m hm
  obtain ⟨_, t1, t2, ht1, hv1⟩ := (detect_ok_iff c0 h path _ toks m1).mp hm1
  have : t1 = t0 := by rw [ht0] at ht1; cases ht1; rfl
  subst this
  obtain ⟨u0, hu0, hk⟩ := tour_longer (env := Env.make c0 h path toks) rfl ho hi ht0
  obtain ⟨u, hu, _, hf⟩ := (C85_visit c0 c h path (.mk i ks) toks hr' hp0 hp).2 u0 hu0
  obtain ⟨u1, hu1, _, hf'⟩ := (C85_visit c c0 h path (.mk i ks) toks hr hp hp0).2 u hu
  have : u1 = u0 := by rw [hu0] at hu1; cases hu1; rfl
  subst this
  have hk := hk fun x hx => by
    have hx' : x ∈ t.userDefs := by rw [hw] at hx; exact hx
    obtain ⟨g1, g2⟩ := hd u t hu ht x hx'
    exact ⟨fun hc => g1 (hf'.modules x hc), fun hc => g2 (hf'.members x hc)⟩
  obtain ⟨s', m0, hm0, hs0⟩ := minimum_kept hp0 hk hv1
  have hd0 := (detect_ok_iff c0 h path (.mk i ks) toks m0).mpr ⟨hp0.goodPath, u1, s', hu0, hm0⟩
  obtain ⟨m2, hm2, hs2⟩ := C85_relaxed c0 c h path (.mk i ks) toks hr' hp0 hp m0 hd0
  exact ⟨m2, hm2, fun v hs => hs2 v (hs0 v (hs1 v hs))⟩

/-- **C87 (definitions).** In particular if no part of the program defines a name that its first statements require. -/
theorem C87_definitions (c : Config) (h : Host) (path : String) (toks : List Tok) (hp : Printable c path) (ho : ∀ l, (h.order l).Perm l)
    {i : Info} (hi : i.kind = .module) (ks ks' : List Node)
    (hd : ∀ s, tour (Env.make c h path toks) (.mk i ks) S.init = .ok s → ∀ n x, In n (.mk i (ks ++ ks')) → Defines n x →
      x ∉ s.modules ∧ x ∉ s.members)
    (m : Req) (hm : detectSource c h path (.mk i (ks ++ ks')) toks = .ok m) :
    ∃ m0, detectSource c h path (.mk i ks) toks = .ok m0 ∧ ∀ v, Satisfies v m → Satisfies v m0 := by
  refine C87_append c h path toks hp ho hi ks ks' (fun s t hs ht x hx => ?_) m hm
  obtain ⟨n, hn, hdef⟩ := (C29_learnt _ _ _ ht).defs x hx
  exact hd s hs n x hn hdef

/-- `import argparse` -/
def importArgparse : Node := nd .body .import 1 [nd .names (.alias "argparse" none) 1 []]

/-- Why definitions are excepted: after `argparse = x` the module is taken as the program's own. -/
theorem C87_false_definitions : requirement (Config.init 1) (prog [importArgparse]) = some ⟨some ⟨2, 7⟩, some ⟨3, 2⟩⟩ ∧
    requirement (Config.init 1) (prog ([importArgparse] ++ [nd .body .assign 2 [nd .targets (.name "argparse" .store) 2 [], nm .value "x" 2]])) =
      some ⟨some ⟨0, 0⟩, some ⟨0, 0⟩⟩ := by decide +kernel

/-- Example: an f-string after the import raises the requirement. -/
theorem C87_witness : requirement (Config.init 1) (prog [importArgparse]) = some ⟨some ⟨2, 7⟩, some ⟨3, 2⟩⟩ ∧
    requirement (Config.init 1) (prog ([importArgparse] ++ [st 2 (nd .value .joinedStr 2 [])])) = some ⟨none, some ⟨3, 6⟩⟩ ∧
    (∀ s t, tour (exampleEnv (Config.init 1)) (prog [importArgparse]) S.init = .ok s →
      tour (exampleEnv (Config.init 1)) (prog ([importArgparse] ++ [st 2 (nd .value .joinedStr 2 [])])) S.init = .ok t →
      ∀ x ∈ t.userDefs, x ∉ s.modules ∧ x ∉ s.members) := by
  refine ⟨by decide +kernel, by decide +kernel, fun s t hs ht x hx => ?_⟩
  cases ht
  cases hx

end Vermin.Props
