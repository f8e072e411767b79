import Verif.Lemmas.Display
/-
Visits under two configurations of which the second excludes more and enables fewer features.
-/
namespace Vermin
open Py V Spec

/-- Nothing is found but what the second has. -/
structure Fewer (x y : Findings) : Prop where
  modules : ∀ m ∈ x.modules, m ∈ y.modules
  members : ∀ m ∈ x.members, m ∈ y.members
  flags : ∀ f ∈ x.flags, f ∈ y.flags
  kwargs : ∀ k ∈ x.kwargs, k ∈ y.kwargs
  decos : ∀ u ∈ x.userFuncDecos, u ∈ y.userFuncDecos
  errs : ∀ c ∈ x.codecsErr, c ∈ y.codecsErr
  encs : ∀ c ∈ x.codecsEnc, c ∈ y.codecsEnc

theorem Fewer.refl (x : Findings) : Fewer x x :=
  ⟨fun _ h => h, fun _ h => h, fun _ h => h, fun _ h => h, fun _ h => h, fun _ h => h, fun _ h => h⟩
theorem Fewer.trans {x y z : Findings} (h : Fewer x y) (k : Fewer y z) : Fewer x z :=
  ⟨fun m hm => k.modules m (h.modules m hm), fun m hm => k.members m (h.members m hm), fun m hm => k.flags m (h.flags m hm),
   fun m hm => k.kwargs m (h.kwargs m hm), fun m hm => k.decos m (h.decos m hm), fun m hm => k.errs m (h.errs m hm), fun m hm => k.encs m (h.encs m hm)⟩

/-- States that differ in the findings only, of which the second has fewer; or the first is an error, and under the condition `P` the second is the same. -/
def SameOrFewer (P : Prop) : Except Err S → Except Err S → Prop
  | .ok t, .ok t' => ∃ y, t' = t.withOut y ∧ Fewer y t.findings
  | .ok _, .error _ => False
  | .error e, r => P → r = .error e

/-- Actions that do the same except that the second finds less and, unless `P`, may succeed where the first does not. -/
def Relaxes (P : Prop) (v v' : V) : Prop := ∀ s x, Fewer x s.findings → SameOrFewer P (v s) (v' (s.withOut x))

/-- Actions that only print. -/
def Prints1 (v : V) : Prop := ∀ s, ∃ o, v s = .ok (s.aloud o s.infoVersions)

theorem sub_append {α : Type} {l l' : List α} {a : α} (h : ∀ m ∈ l, m ∈ l') : ∀ m ∈ l ++ [a], m ∈ l' ++ [a] := by
  intro m hm
  rcases List.mem_append.mp hm with hm | hm
  · exact List.mem_append.mpr (.inl (h m hm))
  · exact List.mem_append.mpr (.inr hm)

namespace Relaxes
variable {P : Prop}
theorem skip : Relaxes P skip skip := fun _ x hx => ⟨x, rfl, hx⟩
theorem seq {a a' b b' : V} (ha : Relaxes P a a') (hb : Relaxes P b b') : Relaxes P (a ;; b) (a' ;; b') := fun s x hx => by
  have h := ha s x hx
  show SameOrFewer P (V.seq a b s) (V.seq a' b' _)
  unfold V.seq
  revert h
  cases a s with
  | ok t =>
    cases a' (s.withOut x) with
    | ok t' => rintro ⟨y, rfl, hy⟩; exact hb t y hy
    | error e => exact False.elim
  | error e =>
    intro h p
    rw [h p]
theorem rd {f f' : S → V} (h : ∀ s x, Fewer x s.findings → Relaxes P (f s) (f' (s.withOut x))) : Relaxes P (V.rd f) (V.rd f') :=
  fun s x hx => h s x hx s x hx
theorem raise (e : Err) : Relaxes P (fun _ => .error e) (fun _ => .error e) := fun _ _ _ _ => rfl
theorem upd {f f' : S → S} (h : ∀ s x, Fewer x s.findings → ∃ y, f' (s.withOut x) = (f s).withOut y ∧ Fewer y (f s).findings) :
    Relaxes P (V.upd f) (V.upd f') := fun s x hx => h s x hx
theorem finds {v v' : V} (h : ∀ s x, Fewer x s.findings → ∃ y z, v s = .ok (s.withOut y) ∧ v' (s.withOut x) = .ok (s.withOut z) ∧ Fewer z y) :
    Relaxes P v v' := fun s x hx => by
  obtain ⟨y, z, h1, h2, h3⟩ := h s x hx
  rw [h1, h2]
  exact ⟨z, rfl, h3⟩
theorem quiet {v v' : V} (h : Prints1 v) (h' : Prints1 v') : Relaxes P v v' := finds fun s x hx => by
  obtain ⟨o, ho⟩ := h s
  obtain ⟨o', ho'⟩ := h' (s.withOut x)
  exact ⟨{ s.findings with out := o }, { x with out := o' }, ho, ho', hx.modules, hx.members, hx.flags, hx.kwargs, hx.decos, hx.errs, hx.encs⟩
/-- The first may find something, the second only prints. -/
theorem drop {v v' : V} (h : ∀ s, ∃ y, v s = .ok (s.withOut y) ∧ Fewer s.findings y) (h' : Prints1 v') : Relaxes P v v' := finds fun s x hx => by
  obtain ⟨y, hy, hs⟩ := h s
  obtain ⟨o', ho'⟩ := h' (s.withOut x)
  have := hx.trans hs
  exact ⟨y, { x with out := o' }, hy, ho', this.modules, this.members, this.flags, this.kwargs, this.decos, this.errs, this.encs⟩
theorem flag (f : Flag) : Relaxes P (setFlag f) (setFlag f) := finds fun s x hx => by
  refine ⟨(s.set f).findings, ((s.withOut x).set f).findings, rfl, rfl, hx.modules, hx.members, ?_, hx.kwargs, hx.decos, hx.errs, hx.encs⟩
  intro g hg
  have key : ∀ (l : List Flag) (g : Flag), g ∈ (if l.contains f then l else l ++ [f]) ↔ g ∈ l ∨ g = f := by
    intro l g
    split
    · rename_i hc
      exact ⟨.inl, fun h => h.elim id fun h => h ▸ List.contains_iff_mem.mp hc⟩
    · simp
  rcases (key x.flags g).mp hg with h | h
  · exact (key s.flags g).mpr (.inl (hx.flags g h))
  · exact (key s.flags g).mpr (.inr h)
theorem when {c : Bool} {a a' : V} (h : Relaxes P a a') : Relaxes P (when c a) (V.when c a') := by
  cases c with
  | true => exact h
  | false => exact skip
theorem ite {c : Prop} [Decidable c] {a a' b b' : V} (ha : Relaxes P a a') (hb : Relaxes P b b') : Relaxes P (if c then a else b) (if c then a' else b') := by
  split
  · exact ha
  · exact hb
/-- A condition that may hold for the second alone, which then only prints. -/
theorem excl {c c' : Bool} {p p' a a' : V} (hc : c = true → c' = true) (hp : Prints1 p) (hp' : Prints1 p')
    (ha : ∀ s, ∃ y, a s = .ok (s.withOut y) ∧ Fewer s.findings y) (h : Relaxes P a a') :
    Relaxes P (if c = true then p else a) (if c' = true then p' else a') := by
  cases c with
  | true => rw [hc rfl]; exact quiet hp hp'
  | false =>
    cases c' with
    | true => exact drop ha hp'
    | false => exact h
theorem scope {a a' : V} (h : Relaxes P a a') : Relaxes P (inScope a) (inScope a') := rd fun s x _ => seq h (upd fun t y hy => ⟨y, rfl, hy⟩)
theorem each {α : Type} {f f' : α → V} (h : ∀ x, Relaxes P (f x) (f' x)) : ∀ l, Relaxes P (V.each f l) (V.each f' l)
  | [] => skip
  | x :: l => seq (h x) (each h l)
end Relaxes

theorem Prints1.each {α : Type} {f : α → V} (h : ∀ x, Prints1 (f x)) : ∀ l, Prints1 (V.each f l)
  | [], s => ⟨s.out, rfl⟩
  | x :: l, s => by
    obtain ⟨o, ho⟩ := h x s
    obtain ⟨o', ho'⟩ := Prints1.each h l (s.aloud o s.infoVersions)
    refine ⟨o', ?_⟩
    show V.seq _ _ s = _
    unfold V.seq
    rw [ho]
    exact ho'

variable {P : Prop} {env : Env} {d : Display}

theorem prints1 (h : TargetsOk env) (l msg ent line vs pl) : Prints1 (verbosePrint env l msg ent line vs pl) := verbosePrint_quiet h l msg ent line vs pl

theorem relax_print (h : TargetsOk env) (h' : TargetsOk (env.show d)) (l msg ent line vs pl) :
    Relaxes P (verbosePrint env l msg ent line vs pl) (verbosePrint (env.show d) l msg ent line vs pl) := .quiet (prints1 h _ _ _ _ _ _) (prints1 h' _ _ _ _ _ _)

theorem prints1_visits (env : Env) (m : Node) : Prints1 (when env.cfg.printVisits
    (V.rd fun s => nprintV env (String.ofList ((List.replicate s.depth "| ".toList).flatten) ++ env.dump m))) := by
  intro s
  cases env.cfg.printVisits with
  | false => exact ⟨s.out, rfl⟩
  | true =>
    show ∃ o, nprintV env _ s = _
    unfold nprintV
    cases env.cfg.quiet with
    | true => exact ⟨s.out, rfl⟩
    | false => exact ⟨_, rfl⟩

theorem relax_enter (m : Node) : Relaxes P (genEnter env m) (genEnter (env.show d) m) := by
  refine .seq (.seq ?_ (.upd fun s x hx => ⟨x, rfl, hx⟩)) (.quiet (prints1_visits env m) (prints1_visits (env.show d) m))
  cases m.info.line with
  | none => exact .skip
  | some l => exact .upd fun s x hx => ⟨x, rfl, hx⟩

/-! ### Modules and members -/

theorem append_more {α : Type} {l : List α} {a : α} : ∀ m ∈ l, m ∈ l ++ [a] := fun _ hm => List.mem_append.mpr (.inl hm)

/-- Differs in modules, members, their lines and the output only. -/
def Touches (s t : S) : Prop := ∃ o l ms bs, t = { s with out := o, lineCol := l, modules := ms, members := bs }
theorem Touches.refl (s : S) : Touches s s := ⟨_, _, _, _, rfl⟩
theorem Touches.trans {s t u : S} (h : Touches s t) (k : Touches t u) : Touches s u := by
  obtain ⟨o, l, ms, bs, rfl⟩ := h
  obtain ⟨o', l', ms', bs', rfl⟩ := k
  exact ⟨o', l', ms', bs', rfl⟩
theorem Touches.userDefs {s t : S} (h : Touches s t) : t.userDefs = s.userDefs := by
  obtain ⟨o, l, ms, bs, rfl⟩ := h
  rfl
theorem Touches.importMemMod {s t : S} (h : Touches s t) : t.importMemMod = s.importMemMod := by
  obtain ⟨o, l, ms, bs, rfl⟩ := h
  rfl

/-- Neither user-defined nor excluded. -/
def Allowed (env : Env) (s : S) (m : String) : Prop := m ∉ s.userDefs ∧ m ∉ env.cfg.exclusions

theorem addModule_run (h : TargetsOk env) (m : String) (l c : Option Nat) (s : S) : ∃ t, addModule env m l c s = .ok t ∧ Touches s t ∧ t.members = s.members ∧
    (Allowed env s m ∧ m ∉ s.modules ∧ t.modules = s.modules ++ [m] ∨ ¬ (Allowed env s m ∧ m ∉ s.modules) ∧ t.modules = s.modules) := by
  unfold addModule V.rd
  dsimp only
  by_cases hu : s.userDefs.contains m = true
  · rw [if_pos hu]
    obtain ⟨o, ho⟩ := verbosePrint_quiet h 4 ("Ignoring module '" ++ m ++ "' because it's user-defined!") none .absent none none s
    exact ⟨_, ho, ⟨_, _, _, _, rfl⟩, rfl, .inr ⟨fun hm => hm.1.1 (List.contains_iff_mem.mp hu), rfl⟩⟩
  · rw [if_neg hu]
    by_cases hx : env.cfg.isExcluded m = true
    · rw [if_pos hx]
      obtain ⟨o, ho⟩ := verbosePrint_quiet h 2 ("Excluding module: " ++ m) none .absent none none s
      exact ⟨_, ho, ⟨_, _, _, _, rfl⟩, rfl, .inr ⟨fun hm => hm.1.2 (List.contains_iff_mem.mp hx), rfl⟩⟩
    · rw [if_neg hx]
      have ha : Allowed env s m := ⟨fun hm => hu (List.contains_iff_mem.mpr hm), fun hm => hx (List.contains_iff_mem.mpr hm)⟩
      by_cases hc : s.modules.contains m = true
      · rw [hc]
        exact ⟨s, rfl, .refl _, rfl, .inr ⟨fun hm => hm.2 (List.contains_iff_mem.mp hc), rfl⟩⟩
      · have hm : m ∉ s.modules := fun hm => hc (List.contains_iff_mem.mpr hm)
        rw [Bool.not_eq_true] at hc
        rw [hc]
        cases l with
        | none => exact ⟨_, rfl, ⟨_, _, _, _, rfl⟩, rfl, .inl ⟨ha, hm, rfl⟩⟩
        | some l => exact ⟨_, rfl, ⟨_, _, _, _, rfl⟩, rfl, .inl ⟨ha, hm, rfl⟩⟩

theorem addMember_run (h : TargetsOk env) (m : String) (l c : Option Nat) (s : S) : ∃ t, addMember env m l c s = .ok t ∧ Touches s t ∧ t.modules = s.modules ∧
    ((Allowed env s m ∧ (env.tables.mem m).isSome = true) ∧ t.members = s.members ++ [m] ∨
     ¬ (Allowed env s m ∧ (env.tables.mem m).isSome = true) ∧ t.members = s.members) := by
  unfold addMember V.rd
  dsimp only
  by_cases hu : s.userDefs.contains m = true
  · rw [if_pos hu]
    obtain ⟨o, ho⟩ := verbosePrint_quiet h 4 ("Ignoring member '" ++ m ++ "' because it's user-defined!") none .absent none none s
    exact ⟨_, ho, ⟨_, _, _, _, rfl⟩, rfl, .inr ⟨fun hm => hm.1.1 (List.contains_iff_mem.mp hu), rfl⟩⟩
  · rw [if_neg hu]
    by_cases hx : env.cfg.isExcluded m = true
    · rw [if_pos hx]
      obtain ⟨o, ho⟩ := verbosePrint_quiet h 2 ("Excluding member: " ++ m) none .absent none none s
      exact ⟨_, ho, ⟨_, _, _, _, rfl⟩, rfl, .inr ⟨fun hm => hm.1.2 (List.contains_iff_mem.mp hx), rfl⟩⟩
    · rw [if_neg hx]
      have ha : Allowed env s m := ⟨fun hm => hu (List.contains_iff_mem.mpr hm), fun hm => hx (List.contains_iff_mem.mpr hm)⟩
      cases hc : (env.tables.mem m).isSome with
      | false => exact ⟨s, rfl, .refl _, rfl, .inr ⟨fun hm => by (cases hm.2), rfl⟩⟩
      | true =>
        cases l with
        | none => exact ⟨_, rfl, ⟨_, _, _, _, rfl⟩, rfl, .inl ⟨⟨ha, rfl⟩, rfl⟩⟩
        | some l => exact ⟨_, rfl, ⟨_, _, _, _, rfl⟩, rfl, .inl ⟨⟨ha, rfl⟩, rfl⟩⟩

/-- Actions that touch modules and members only, of which the second leads to fewer. -/
theorem Relaxes.touch {v v' : V} (h : ∀ s x, Fewer x s.findings → ∃ t t', v s = .ok t ∧ v' (s.withOut x) = .ok t' ∧ Touches s t ∧ Touches (s.withOut x) t' ∧
    (∀ m ∈ t'.modules, m ∈ t.modules) ∧ ∀ m ∈ t'.members, m ∈ t.members) : Relaxes P v v' := fun s x hx => by
  obtain ⟨t, t', h1, h2, ⟨o, l, ms, bs, rfl⟩, ⟨o', l', ms', bs', rfl⟩, h5, h6⟩ := h s x hx
  rw [h1, h2]
  exact ⟨⟨o', x.infoVersions, l', ms', bs', x.flags, x.kwargs, x.userFuncDecos, x.codecsErr, x.codecsEnc⟩, rfl, h5, h6, hx.flags, hx.kwargs, hx.decos, hx.errs, hx.encs⟩

section
variable (hx : ∀ m ∈ env.cfg.exclusions, m ∈ d.exclusions) (hm : ∀ m, (d.mem m).isSome = (env.tables.mem m).isSome)
  (h : TargetsOk env) (h' : TargetsOk (env.show d))
include hx

theorem Allowed.weaker {s : S} {x : Findings} {m : String} (ha : Allowed (env.show d) (s.withOut x) m) : Allowed env s m := ⟨ha.1, fun hm => ha.2 (hx m hm)⟩

include h h'
theorem relax_module (m l c) : Relaxes P (addModule env m l c) (addModule (env.show d) m l c) := .touch fun s x hs => by
  obtain ⟨t, h1, h2, h3, h4⟩ := addModule_run h m l c s
  obtain ⟨t', k1, k2, k3, k4⟩ := addModule_run h' m l c (s.withOut x)
  refine ⟨t, t', h1, k1, h2, k2, fun a ha => ?_, fun a ha => ?_⟩
  · have hsub : ∀ a ∈ s.modules, a ∈ t.modules := by
      rcases h4 with ⟨_, _, h4⟩ | ⟨_, h4⟩
      · rw [h4]; exact append_more
      · rw [h4]; exact fun _ h => h
    rcases k4 with ⟨k, _, k4⟩ | ⟨_, k4⟩
    · rw [k4] at ha
      rcases List.mem_append.mp ha with ha | ha
      · exact hsub a (hs.modules a ha)
      · cases List.mem_singleton.mp ha
        rcases h4 with ⟨_, _, h4⟩ | ⟨h0, _⟩
        · rw [h4]; simp
        · exact hsub _ (Classical.not_not.mp fun hc => h0 ⟨k.weaker hx, hc⟩)
    · rw [k4] at ha
      exact hsub a (hs.modules a ha)
  · rw [k3] at ha
    rw [h3]
    exact hs.members a ha

include hm
theorem relax_member (m l c) : Relaxes P (addMember env m l c) (addMember (env.show d) m l c) := .touch fun s x hs => by
  obtain ⟨t, h1, h2, h3, h4⟩ := addMember_run h m l c s
  obtain ⟨t', k1, k2, k3, k4⟩ := addMember_run h' m l c (s.withOut x)
  refine ⟨t, t', h1, k1, h2, k2, fun a ha => ?_, fun a ha => ?_⟩
  · rw [k3] at ha
    rw [h3]
    exact hs.modules a ha
  · have hsub : ∀ a ∈ s.members, a ∈ t.members := by
      rcases h4 with ⟨_, h4⟩ | ⟨_, h4⟩
      · rw [h4]; exact append_more
      · rw [h4]; exact fun _ h => h
    rcases k4 with ⟨k, k4⟩ | ⟨_, k4⟩
    · rw [k4] at ha
      rcases List.mem_append.mp ha with ha | ha
      · exact hsub a (hs.members a ha)
      · cases List.mem_singleton.mp ha
        rcases h4 with ⟨_, h4⟩ | ⟨h0, _⟩
        · rw [h4]; simp
        · exact absurd ⟨k.1.weaker hx, (hm m).symm.trans k.2⟩ h0
    · rw [k4] at ha
      exact hsub a (hs.members a ha)
end

/-! ### The loop over the modules -/

/-- The member found at an attribute whose head was imported from a module -/
def Gives (env : Env) (full : List (Option String)) (s : S) (b : String) : Prop :=
  ∃ mod, (full.head?.getD none).bind (Dict.get? s.importMemMod) = some mod ∧ b = dotted (some mod :: full) ∧ Allowed env s b ∧ (env.tables.mem b).isSome = true

theorem Allowed.touches {s t : S} {m : String} (h : Touches s t) : Allowed env t m ↔ Allowed env s m := by unfold Allowed; rw [h.userDefs]
theorem Gives.touches {full : List (Option String)} {s t : S} {b : String} (h : Touches s t) : Gives env full t b ↔ Gives env full s b := by
  unfold Gives; rw [h.importMemMod]; simp only [Allowed.touches h]

theorem attrModule_run (h : TargetsOk env) (full : List (Option String)) (dot : String) (line : Nat) (m : String) (s : S) :
    ∃ t, attrModule env full dot line m s = .ok t ∧ Touches s t ∧
      (t.modules = s.modules ∨ full.head? = some (some m) ∧ Allowed env s dot ∧ dot ∉ s.modules ∧ t.modules = s.modules ++ [dot]) ∧
      (∀ b ∈ t.members, b ∈ s.members ∨ full.head? ≠ some (some m) ∧ Gives env full s b) ∧ (∀ b ∈ s.members, b ∈ t.members) ∧
      (full.head? = some (some m) → Allowed env s dot → dot ∈ t.modules) ∧
      (full.head? ≠ some (some m) → ∀ b, Gives env full s b → b ∈ t.members) := by
  unfold attrModule V.rd
  dsimp only
  by_cases hh : full.head? = some (some m)
  · rw [if_pos hh]
    obtain ⟨t, h1, h2, h3, h4⟩ := addModule_run h dot (some line) none s
    refine ⟨t, h1, h2, ?_, fun b hb => .inl (h3 ▸ hb), fun b hb => h3.symm ▸ hb, fun _ ha => ?_, fun hn => absurd hh hn⟩
    · rcases h4 with ⟨ha, hn, h4⟩ | ⟨_, h4⟩
      · exact .inr ⟨hh, ha, hn, h4⟩
      · exact .inl h4
    · rcases h4 with ⟨ha, hn, h4⟩ | ⟨hn, h4⟩
      · rw [h4]; simp
      · rw [h4]; exact Classical.not_not.mp fun hc => hn ⟨ha, hc⟩
  · rw [if_neg hh]
    cases hb : (full.head?.getD none).bind (Dict.get? s.importMemMod) with
    | none =>
      refine ⟨s, rfl, .refl s, .inl rfl, fun b hb => .inl hb, fun b hb => hb, fun hc => absurd hc hh, ?_⟩
      rintro _ b ⟨mod, hmod, _⟩
      rw [hb] at hmod; cases hmod
    | some mod =>
      obtain ⟨t, h1, h2, h3, h4⟩ := addMember_run h (dotted (some mod :: full)) (some line) none s
      refine ⟨t, h1, h2, .inl h3, fun b hbt => ?_, fun b hbs => ?_, fun hc => absurd hc hh, ?_⟩
      · rcases h4 with ⟨ha, h4⟩ | ⟨_, h4⟩
        · rw [h4] at hbt
          rcases List.mem_append.mp hbt with hbt | hbt
          · exact .inl hbt
          · cases List.mem_singleton.mp hbt
            exact .inr ⟨hh, mod, hb, rfl, ha⟩
        · rw [h4] at hbt; exact .inl hbt
      · rcases h4 with ⟨_, h4⟩ | ⟨_, h4⟩
        · rw [h4]; exact append_more b hbs
        · rw [h4]; exact hbs
      · rintro _ b ⟨mod', hmod, rfl, ha⟩
        rw [hb] at hmod
        cases hmod
        rcases h4 with ⟨_, h4⟩ | ⟨hn, _⟩
        · rw [h4]; simp
        · exact absurd ha hn

/-- The rounds left -/
def roundsLeft (dot : String) (i : Nat) (s : S) : Nat := s.modules.length - i + if dot ∈ s.modules then 0 else 1

theorem attrModules_run (h : TargetsOk env) (full : List (Option String)) (dot : String) (line : Nat) : ∀ (k i : Nat) (s : S),
    ∃ t, attrModules env full dot line k i s = .ok t ∧ Touches s t ∧
      (∃ r, t.modules = s.modules ++ r ∧ ∀ m ∈ r, m = dot ∧ Allowed env s dot ∧ ∃ x ∈ s.modules, full.head? = some (some x)) ∧
      (∀ b ∈ t.members, b ∈ s.members ∨ Gives env full s b ∧ ∃ m ∈ t.modules, full.head? ≠ some (some m)) ∧ (∀ b ∈ s.members, b ∈ t.members) ∧
      (roundsLeft dot i s ≤ k → ∀ j m, i ≤ j → t.modules[j]? = some m →
        (full.head? = some (some m) → Allowed env s dot → dot ∈ t.modules) ∧ (full.head? ≠ some (some m) → ∀ b, Gives env full s b → b ∈ t.members))
  | 0, i, s => by
    refine ⟨s, rfl, .refl s, ⟨[], by simp, nofun⟩, fun b hb => .inl hb, fun b hb => hb, fun hk j m hj hm => ?_⟩
    have : j < s.modules.length := (List.getElem?_eq_some_iff.mp hm).1
    unfold roundsLeft at hk
    omega
  | k + 1, i, s => by
    unfold attrModules V.rd
    dsimp only
    cases hi : s.modules[i]? with
    | none =>
      refine ⟨s, rfl, .refl s, ⟨[], by simp, nofun⟩, fun b hb => .inl hb, fun b hb => hb, fun hk j m hj hm => ?_⟩
      have h1 : j < s.modules.length := (List.getElem?_eq_some_iff.mp hm).1
      have h2 : s.modules.length ≤ i := List.getElem?_eq_none_iff.mp hi
      omega
    | some m =>
      have hlt : i < s.modules.length := (List.getElem?_eq_some_iff.mp hi).1
      obtain ⟨u, a1, a2, a3, a4, a5, a6, a7⟩ := attrModule_run h full dot line m s
      obtain ⟨t, b1, b2, ⟨r, b3, b4⟩, b5, b6, b7⟩ := attrModules_run h full dot line k (i + 1) u
      have hmods : ∃ r0, u.modules = s.modules ++ r0 ∧ ∀ x ∈ r0, x = dot ∧ Allowed env s dot ∧ full.head? = some (some m) := by
        rcases a3 with a3 | ⟨c1, c2, c3, c4⟩
        · exact ⟨[], by simp [a3], nofun⟩
        · exact ⟨[dot], c4, fun x hx => ⟨List.mem_singleton.mp hx, c2, c1⟩⟩
      obtain ⟨r0, hr0, hr0'⟩ := hmods
      have hmm : m ∈ s.modules := List.mem_of_getElem? hi
      have hmt : m ∈ t.modules := by rw [b3, hr0]; simp [hmm]
      refine ⟨t, ?_, a2.trans b2, ⟨r0 ++ r, by rw [b3, hr0, List.append_assoc], fun x hx => ?_⟩, fun b hb => ?_, fun b hb => b6 b (a5 b hb), fun hk j y hj hy => ?_⟩
      · show V.seq _ _ s = _
        unfold V.seq
        rw [a1]
        exact b1
      · rcases List.mem_append.mp hx with hx | hx
        · obtain ⟨e1, e2, e3⟩ := hr0' x hx
          exact ⟨e1, e2, m, hmm, e3⟩
        · obtain ⟨e1, e2, z, e3, e4⟩ := b4 x hx
          refine ⟨e1, (Allowed.touches a2).mp e2, ?_⟩
          rw [hr0] at e3
          rcases List.mem_append.mp e3 with e3 | e3
          · exact ⟨z, e3, e4⟩
          · exact ⟨m, hmm, (hr0' z e3).2.2⟩
      · rcases b5 b hb with hb | ⟨hb, hy⟩
        · rcases a4 b hb with hb | ⟨hh, hb⟩
          · exact .inl hb
          · exact .inr ⟨hb, m, hmt, hh⟩
        · exact .inr ⟨(Gives.touches a2).mp hb, hy⟩
      · by_cases hji : j = i
        · subst hji
          have : y = m := by
            rw [b3, hr0, List.append_assoc, List.getElem?_append_left hlt, hi] at hy
            exact (Option.some.inj hy).symm
          subst this
          refine ⟨fun hh ha => ?_, fun hh b hb => b6 b (a7 hh b hb)⟩
          have := a6 hh ha
          rw [b3]
          exact List.mem_append.mpr (.inl this)
        · have hk' : roundsLeft dot (i + 1) u ≤ k := by
            unfold roundsLeft at hk ⊢
            rcases a3 with a3 | ⟨_, _, c3, c4⟩
            · rw [a3]
              split at hk <;> split <;> first | omega | contradiction
            · rw [if_neg c3] at hk
              rw [if_pos (by rw [c4]; simp), c4]
              simp only [List.length_append, List.length_singleton]
              omega
          obtain ⟨e1, e2⟩ := b7 hk' j y (by omega) hy
          exact ⟨fun hh ha => e1 hh ((Allowed.touches a2).mpr ha), fun hh b hb => e2 hh b ((Gives.touches a2).mpr hb)⟩

theorem relax_attrMods (hx : ∀ m ∈ env.cfg.exclusions, m ∈ d.exclusions) (hm : ∀ m, (d.mem m).isSome = (env.tables.mem m).isSome)
    (h : TargetsOk env) (h' : TargetsOk (env.show d)) (full : List (Option String)) (dot : String) (line : Nat) :
    Relaxes P (V.rd fun s => attrModules env full dot line (s.modules.length + 2) 0)
      (V.rd fun s => attrModules (env.show d) full dot line (s.modules.length + 2) 0) := .touch fun s x hs => by
  obtain ⟨t, a1, a2, ⟨r, a3, a4⟩, a5, a6, a7⟩ := attrModules_run h full dot line (s.modules.length + 2) 0 s
  obtain ⟨t', b1, b2, ⟨r', b3, b4⟩, b5, b6, b7⟩ := attrModules_run h' full dot line (x.modules.length + 2) 0 (s.withOut x)
  have ha := a7 (by unfold roundsLeft; split <;> omega)
  have hsub : ∀ m ∈ s.modules, m ∈ t.modules := fun m hm => by rw [a3]; exact List.mem_append.mpr (.inl hm)
  have hmods : ∀ m ∈ t'.modules, m ∈ t.modules := by
    intro m hmt
    rw [b3] at hmt
    rcases List.mem_append.mp hmt with hmt | hmt
    · exact hsub m (hs.modules m hmt)
    · obtain ⟨rfl, c1, y, c2, c3⟩ := b4 m hmt
      obtain ⟨j, hj⟩ := List.mem_iff_getElem?.mp (hsub y (hs.modules y c2))
      exact (ha j y (Nat.zero_le _) hj).1 c3 (c1.weaker hx)
  refine ⟨t, t', a1, b1, a2, b2, hmods, fun b hb => ?_⟩
  rcases b5 b hb with hb | ⟨⟨mod, c1, c2, c3, c4⟩, y, hy, c5⟩
  · exact a6 b (hs.members b hb)
  · obtain ⟨j, hj⟩ := List.mem_iff_getElem?.mp (hmods y hy)
    exact (ha j y (Nat.zero_le _) hj).2 c5 b ⟨mod, c1, c2, c3.weaker hx, (hm b).symm.trans c4⟩

/-! ### Other findings -/

theorem relax_kwarg (hk : ∀ f k, (env.show d).cfg.isExcludedKwarg f k = env.cfg.isExcludedKwarg f k) (h : TargetsOk env) (h' : TargetsOk (env.show d))
    (f : String) (k : Option String) (l : Nat) : Relaxes P (addKwargs env f k l) (addKwargs (env.show d) f k l) := by
  intro s x hs
  unfold addKwargs V.rd
  show SameOrFewer P ((if s.userDefs.contains f = true then _ else _ : V) s) ((if s.userDefs.contains f = true then _ else _ : V) (s.withOut x))
  by_cases hu : s.userDefs.contains f = true
  · rw [if_pos hu, if_pos hu]
    exact relax_print h h' _ _ _ _ _ _ s x hs
  · rw [if_neg hu, if_neg hu, hk]
    by_cases he : env.cfg.isExcludedKwarg f (kwText k) = true
    · rw [if_pos he, if_pos he]
      exact relax_print h h' _ _ _ _ _ _ s x hs
    · rw [if_neg he, if_neg he]
      show SameOrFewer P (V.when (!s.kwargs.contains (f, k)) _ s) (V.when (!x.kwargs.contains (f, k)) _ (s.withOut x))
      by_cases h1 : (f, k) ∈ s.kwargs
      · rw [List.contains_iff_mem.mpr h1]
        by_cases h2 : (f, k) ∈ x.kwargs
        · rw [List.contains_iff_mem.mpr h2]
          exact ⟨x, rfl, hs⟩
        · rw [show x.kwargs.contains (f, k) = false by simpa using h2]
          refine ⟨{ x with kwargs := x.kwargs ++ [(f, k)], lineCol := Dict.set x.lineCol (.kw f k) (l, none) }, rfl, hs.modules, hs.members, hs.flags, ?_, hs.decos, hs.errs, hs.encs⟩
          intro y hy
          rcases List.mem_append.mp hy with hy | hy
          · exact hs.kwargs y hy
          · cases List.mem_singleton.mp hy; exact h1
      · have h2 : (f, k) ∉ x.kwargs := fun h2 => h1 (hs.kwargs _ h2)
        rw [show s.kwargs.contains (f, k) = false by simpa using h1, show x.kwargs.contains (f, k) = false by simpa using h2]
        exact ⟨{ x with kwargs := x.kwargs ++ [(f, k)], lineCol := Dict.set x.lineCol (.kw f k) (l, none) }, rfl, hs.modules, hs.members, hs.flags,
          sub_append hs.kwargs, hs.decos, hs.errs, hs.encs⟩

theorem excluded_more (hx : ∀ m ∈ env.cfg.exclusions, m ∈ d.exclusions) (m : String) (h : env.cfg.isExcluded m = true) : (env.show d).cfg.isExcluded m = true :=
  List.contains_iff_mem.mpr (hx m (List.contains_iff_mem.mp h))

section
variable (hx : ∀ m ∈ env.cfg.exclusions, m ∈ d.exclusions) (h : TargetsOk env) (h' : TargetsOk (env.show d))
include hx h h'

theorem relax_deco (u : String) (l : Nat) : Relaxes P (addUserFuncDeco env u l) (addUserFuncDeco (env.show d) u l) := by
  refine .rd fun s0 x0 _ => .ite (relax_print h h' _ _ _ _ _ _) (.excl (excluded_more hx u) (prints1 h _ _ _ _ _ _) (prints1 h' _ _ _ _ _ _)
    (fun s => ?_) (.when (.upd fun s x hs => ?_)))
  · have hr := Fewer.refl s.findings
    cases (env.tables.deco u).isSome with
    | false => exact ⟨s.findings, rfl, hr⟩
    | true => exact ⟨{ s.findings with userFuncDecos := s.userFuncDecos ++ [u], lineCol := Dict.set s.lineCol (.name u) (l, none) }, rfl,
        hr.modules, hr.members, hr.flags, hr.kwargs, append_more, hr.errs, hr.encs⟩
  · exact ⟨{ x with userFuncDecos := x.userFuncDecos ++ [u], lineCol := Dict.set x.lineCol (.name u) (l, none) }, rfl,
      hs.modules, hs.members, hs.flags, hs.kwargs, sub_append hs.decos, hs.errs, hs.encs⟩

theorem relax_errorHandler (c : Const) (l : Nat) : Relaxes P (addErrorHandler env c l) (addErrorHandler (env.show d) c l) := by
  refine .excl (excluded_more hx _) (prints1 h _ _ _ _ _ _) (prints1 h' _ _ _ _ _ _) (fun s => ?_) (.upd fun s x hs => ?_)
  · have hr := Fewer.refl s.findings
    exact ⟨{ s.findings with codecsErr := s.codecsErr ++ [c], lineCol := Dict.set s.lineCol (Ent.ofConst c) (l, none) }, rfl,
        hr.modules, hr.members, hr.flags, hr.kwargs, hr.decos, append_more, hr.encs⟩
  · exact ⟨{ x with codecsErr := x.codecsErr ++ [c], lineCol := Dict.set x.lineCol (Ent.ofConst c) (l, none) }, rfl,
      hs.modules, hs.members, hs.flags, hs.kwargs, hs.decos, sub_append hs.errs, hs.encs⟩

omit hx h' in
theorem addEncoding_more (c : Const) (l : Nat) (s : S) : ∃ y, addEncoding env c l s = .ok (s.withOut y) ∧ Fewer s.findings y := by
  have hr := Fewer.refl s.findings
  unfold addEncoding
  split
  · obtain ⟨o, ho⟩ := prints1 h 2 ("Excluding codecs encoding: " ++ c.text) none .absent none none s
    exact ⟨{ s.findings with out := o }, ho, hr.modules, hr.members, hr.flags, hr.kwargs, hr.decos, hr.errs, hr.encs⟩
  · exact ⟨{ s.findings with codecsEnc := s.codecsEnc ++ [c], lineCol := Dict.set s.lineCol (Ent.ofConst c) (l, none) }, rfl,
        hr.modules, hr.members, hr.flags, hr.kwargs, hr.decos, hr.errs, append_more⟩

theorem relax_encoding (c : Const) (l : Nat) : Relaxes P (addEncoding env c l) (addEncoding (env.show d) c l) := by
  refine .excl (excluded_more hx _) (prints1 h _ _ _ _ _ _) (prints1 h' _ _ _ _ _ _) (fun s => ?_) (.upd fun s x hs => ?_)
  · have hr := Fewer.refl s.findings
    exact ⟨{ s.findings with codecsEnc := s.codecsEnc ++ [c], lineCol := Dict.set s.lineCol (Ent.ofConst c) (l, none) }, rfl,
        hr.modules, hr.members, hr.flags, hr.kwargs, hr.decos, hr.errs, append_more⟩
  · exact ⟨{ x with codecsEnc := x.codecsEnc ++ [c], lineCol := Dict.set x.lineCol (Ent.ofConst c) (l, none) }, rfl,
      hs.modules, hs.members, hs.flags, hs.kwargs, hs.decos, hs.errs, sub_append hs.encs⟩

omit hx h' in
/-- Actions that may find something -/
theorem more_each {α : Type} {f : α → V} (hf : ∀ a s, ∃ y, f a s = .ok (s.withOut y) ∧ Fewer s.findings y) :
    ∀ (l : List α) (s : S), ∃ y, V.each f l s = .ok (s.withOut y) ∧ Fewer s.findings y
  | [], s => ⟨s.findings, rfl, .refl _⟩
  | a :: l, s => by
    obtain ⟨y, h1, h2⟩ := hf a s
    obtain ⟨z, h3, h4⟩ := more_each hf l (s.withOut y)
    refine ⟨z, ?_, h2.trans h4⟩
    show V.seq _ _ s = _
    unfold V.seq
    rw [h1]
    exact h3

omit hx h' in
theorem encodingKws_more (n : Node) (s : S) : ∃ y, addCodecsEncodingKws env n s = .ok (s.withOut y) ∧ Fewer s.findings y := by
  unfold addCodecsEncodingKws
  refine more_each h (fun kw s => ?_) _ s
  cases isEncodingKw kw with
  | false => exact ⟨s.findings, rfl, .refl _⟩
  | true =>
    cases kwConst kw with
    | none => exact ⟨s.findings, rfl, .refl _⟩
    | some c => exact addEncoding_more h c _ s

theorem relax_encodingIdx (n : Node) (idx : Nat) : Relaxes P (addCodecsEncodingIdx env n idx) (addCodecsEncodingIdx (env.show d) n idx) := by
  have kws : Relaxes P (addCodecsEncodingKws env n) (addCodecsEncodingKws (env.show d) n) := by
    unfold addCodecsEncodingKws
    refine .each (fun kw => ?_) _
    cases isEncodingKw kw with
    | false => exact .skip
    | true =>
      cases kwConst kw with
      | none => exact .skip
      | some c => exact relax_encoding hx h h' c _
  unfold addCodecsEncodingIdx
  cases ((n.fields .args)[idx]?).bind Node.constVal with
  | none => exact kws
  | some c =>
    show Relaxes P (if env.cfg.isExcludedEncoding c.text = true then addEncoding env c n.line else addEncoding env c n.line ;; addCodecsEncodingKws env n)
      (if (env.show d).cfg.isExcludedEncoding c.text = true then addEncoding (env.show d) c n.line else addEncoding (env.show d) c n.line ;; addCodecsEncodingKws (env.show d) n)
    have hq : ∀ {env : Env}, TargetsOk env → env.cfg.isExcludedEncoding c.text = true → Prints1 (addEncoding env c n.line) := by
      intro env h hc
      unfold addEncoding
      rw [if_pos hc]
      exact prints1 h _ _ _ _ _ _
    by_cases hc : env.cfg.isExcludedEncoding c.text = true
    · rw [if_pos hc, if_pos (show (env.show d).cfg.isExcludedEncoding c.text = true from excluded_more hx _ hc)]
      exact relax_encoding hx h h' c _
    · rw [if_neg hc]
      by_cases hc' : (env.show d).cfg.isExcludedEncoding c.text = true
      · rw [if_pos hc']
        refine .drop (fun s => ?_) (hq h' hc')
        obtain ⟨y, h1, h2⟩ := addEncoding_more h c n.line s
        obtain ⟨z, h3, h4⟩ := encodingKws_more h n (s.withOut y)
        refine ⟨z, ?_, h2.trans h4⟩
        show V.seq _ _ s = _
        unfold V.seq
        rw [h1]
        exact h3
      · rw [if_neg hc']
        exact .seq (relax_encoding hx h h' c _) kws

theorem relax_long : Relaxes P (visitName env "long") (visitName (env.show d) "long") := by
  unfold visitName
  rw [if_pos rfl, if_pos rfl]
  refine .rd fun s0 x0 _ => .excl (excluded_more hx "long") (prints1 h _ _ _ _ _ _) (prints1 h' _ _ _ _ _ _) (fun s => ?_)
    (.ite (relax_print h h' _ _ _ _ _ _) (.seq (.flag _) (relax_print h h' _ _ _ _ _ _)))
  have hr := Fewer.refl s.findings
  split
  · obtain ⟨o, ho⟩ := prints1 h 4 "Ignoring member 'long' because it's user-defined!" none .absent none none s
    exact ⟨{ s.findings with out := o }, ho, hr.modules, hr.members, hr.flags, hr.kwargs, hr.decos, hr.errs, hr.encs⟩
  · obtain ⟨o, ho⟩ := prints1 h 2 "long is a v2 feature" none .absent none none (s.set .longv2)
    refine ⟨{ (s.set .longv2).findings with out := o }, ho, hr.modules, hr.members, ?_, hr.kwargs, hr.decos, hr.errs, hr.encs⟩
    intro g hg
    show g ∈ (if s.flags.contains .longv2 then s.flags else s.flags ++ [.longv2])
    split
    · exact hg
    · exact append_more g hg
end

/-- A feature that may be looked for by the first alone. -/
theorem relax_feature (hf : ∀ x ∈ d.features, x ∈ env.cfg.features) (hP : P → d.features = env.cfg.features) (h : TargetsOk env) (h' : TargetsOk (env.show d))
    (x : String) (f : Flag) (b : Except Err Bool) (msg vs line pl) :
    Relaxes P (V.when (env.cfg.hasFeature x) (V.lift b fun c => V.when c (found env f msg vs line pl)))
      (V.when ((env.show d).cfg.hasFeature x) (V.lift b fun c => V.when c (found (env.show d) f msg vs line pl))) := by
  by_cases hx : x ∈ env.cfg.features
  · rw [show env.cfg.hasFeature x = true from List.contains_iff_mem.mpr hx]
    by_cases hd : x ∈ d.features
    · rw [show (env.show d).cfg.hasFeature x = true from List.contains_iff_mem.mpr hd]
      match b with
      | .error e => exact .raise e
      | .ok c => exact Relaxes.when (c := c) (.seq (.flag _) (relax_print h h' _ _ _ _ _ _))
    · rw [show (env.show d).cfg.hasFeature x = false from Bool.eq_false_iff.mpr fun hc => hd (List.contains_iff_mem.mp hc)]
      match b with
      | .error e => exact fun s y hy p => absurd ((hP p).symm ▸ hx) hd
      | .ok false => exact .skip
      | .ok true =>
        refine .drop (fun s => ?_) fun s => ⟨s.out, rfl⟩
        obtain ⟨o, ho⟩ := prints1 h 2 msg none line vs pl (s.set f)
        have hr := Fewer.refl s.findings
        refine ⟨{ (s.set f).findings with out := o }, ho, hr.modules, hr.members, ?_, hr.kwargs, hr.decos, hr.errs, hr.encs⟩
        intro g hg
        show g ∈ (if s.flags.contains f then s.flags else s.flags ++ [f])
        split
        · exact hg
        · exact append_more g hg
  · rw [show env.cfg.hasFeature x = false from Bool.eq_false_iff.mpr fun hc => hx (List.contains_iff_mem.mp hc),
      show (env.show d).cfg.hasFeature x = false from Bool.eq_false_iff.mpr fun hc => hx (hf x (List.contains_iff_mem.mp hc))]
    exact .skip

/-- Excluding more, but no keyword arguments, and enabling fewer features leads to fewer findings and changes nothing else. -/
theorem visiting_relax (hq : d.path = none) (hf : ∀ x ∈ d.features, x ∈ env.cfg.features) (hP : P → d.features = env.cfg.features) (hx : ∀ m ∈ env.cfg.exclusions, m ∈ d.exclusions) (hk : ∀ f k, (env.show d).cfg.isExcludedKwarg f k = env.cfg.isExcludedKwarg f k)
    (hm : ∀ m, (d.mem m).isSome = (env.tables.mem m).isSome) (h : TargetsOk env) (h' : TargetsOk (env.show d)) (n : Node) :
    Visiting env d n (fun _ => True) (Relaxes P) (fun _ => True) where
  skip := .skip
  seq ha hb := ha.seq hb
  rd hf := .rd fun s x _ => hf s x trivial
  raise _ := .raise _
  note _ _ _ _ _ _ := relax_print h h' _ _ _ _ _ _
  mark _ _ := .flag _
  says _ _ _ _ _ _ _ _ := .seq (.flag _) (relax_print h h' _ _ _ _ _ _)
  saysFormat _ := .seq (relax_print h h' _ _ _ _ _ _) (.flag _)
  saysAnnotations _ _ ha := .seq (.seq ha (.flag _)) (.seq (.flag _) (relax_print h h' _ _ _ _ _ _))
  moduleAt _ _ _ _ := relax_module hx h h' _ _ _
  memberAt _ _ _ _ := relax_member hx hm h h' _ _ _
  kwarg _ _ := relax_kwarg hk h h' _ _ _
  decoAt _ _ _ := relax_deco hx h h' _ _
  strftimeAt l _ _ := .upd fun s x hs => ⟨{ x with lineCol := Dict.set x.lineCol _ (l, none) }, rfl, hs.modules, hs.members, hs.flags, hs.kwargs, hs.decos, hs.errs, hs.encs⟩
  bytesDirAt l _ _ := .upd fun s x hs => ⟨{ x with lineCol := Dict.set x.lineCol _ (l, none) }, rfl, hs.modules, hs.members, hs.flags, hs.kwargs, hs.decos, hs.errs, hs.encs⟩
  typecodeAt l c _ _ := .rd fun s x _ => .when (.upd fun s x hs =>
    ⟨{ x with lineCol := Dict.set x.lineCol _ (l, some c) }, rfl, hs.modules, hs.members, hs.flags, hs.kwargs, hs.decos, hs.errs, hs.encs⟩)
  errorHandlerAt _ _ _ := relax_errorHandler hx h h' _ _
  encodingAt _ _ _ := relax_encoding hx h h' _ _
  attrMods _ _ := relax_attrMods hx hm h h' _ _ _
  kwExcl := hk
  feature _ _ _ _ _ _ _ _ := relax_feature hf hP h h' _ _ _ _ _ _ _
  dirs := dirs_of (Q := Relaxes P) (I := fun _ => True) (A := fun _ => True) (by unfold Env.isInitFile Env.show; rw [hq]; rfl) .skip (fun hf => .rd fun s x _ => hf s x trivial)
    (fun _ _ _ _ _ _ _ _ => .seq (.flag _) (relax_print h h' _ _ _ _ _ _))
  longType _ := relax_long hx h h'
  encodingIdx idx _ _ := relax_encodingIdx hx h h' n idx
  userDef _ := .upd fun s x hs => ⟨x, rfl, hs⟩
  nameRes _ := .upd fun s x hs => ⟨x, rfl, hs⟩
  nameResType _ := .upd fun s x hs => ⟨x, rfl, hs⟩
  moduleAs _ := .upd fun s x hs => ⟨x, rfl, hs⟩
  importMem _ := .upd fun s x hs => ⟨x, rfl, hs⟩
  callScope _ ha := .seq (.seq (.upd fun s x hs => ⟨x, rfl, hs⟩) ha) (.upd fun s x hs => ⟨x, rfl, hs⟩)
  pop _ := .upd fun s x hs => ⟨x, rfl, hs⟩
  yield _ := .upd fun s x hs => ⟨x, rfl, hs⟩
  await _ := .upd fun s x hs => ⟨x, rfl, hs⟩
  ellipsis _ := .upd fun s x hs => ⟨x, rfl, hs⟩
  gen m _ _ ha := .seq (.seq (relax_enter m) ha) (.upd fun s x hs => ⟨x, rfl, hs⟩)
  inScope ha := .scope ha
  yieldScope ha := .rd fun s x _ => .seq ha (.upd fun s x hs => ⟨x, rfl, hs⟩)
  asyncScope _ _ ha := .rd fun s x _ => .seq (.seq (.seq ha (.seq (.flag _) (relax_print h h' _ _ _ _ _ _)))
    (.rd fun s x _ => .when (.seq (.flag _) (relax_print h h' _ _ _ _ _ _)))) (.upd fun s x hs => ⟨x, rfl, hs⟩)
  compScope _ ha := .rd fun s x _ => .seq (.seq ha (.rd fun s x _ => .when (.seq (.flag _) (relax_print h h' _ _ _ _ _ _))))
    (.upd fun s x hs => ⟨x, rfl, hs⟩)
  forScope _ ha hb hc := .seq (.upd fun s x hs => ⟨x, rfl, hs⟩) (.scope (.seq (.seq (.seq ha hb) hc) (.upd fun s x hs => ⟨x, rfl, hs⟩)))
  whileScope _ ha := .seq (.seq (.upd fun s x hs => ⟨x, rfl, hs⟩) ha) (.upd fun s x hs => ⟨x, rfl, hs⟩)
  tryScope _ ha hb := .seq (.seq (.seq (.upd fun s x hs => ⟨x, rfl, hs⟩) ha) (.upd fun s x hs => ⟨x, rfl, hs⟩)) hb

theorem filter_sub {α : Type} {l l' : List α} (p : α → Bool) (h : ∀ m ∈ l, m ∈ l') : ∀ m ∈ l.filter p, m ∈ l'.filter p := by
  intro m hm
  rw [List.mem_filter] at hm ⊢
  exact ⟨h m hm.1, hm.2⟩

theorem tour_relax (hq : d.path = none) (hf : ∀ x ∈ d.features, x ∈ env.cfg.features) (hP : P → d.features = env.cfg.features) (hx : ∀ m ∈ env.cfg.exclusions, m ∈ d.exclusions) (hk : ∀ f k, (env.show d).cfg.isExcludedKwarg f k = env.cfg.isExcludedKwarg f k)
    (hm : ∀ m, (d.mem m).isSome = (env.tables.mem m).isSome) (h : TargetsOk env) (h' : TargetsOk (env.show d)) (n : Node) :
    Relaxes P (tour env n) (tour (env.show d) n) := by
  refine .seq (visit_visiting (I := fun _ _ => True) (Q := fun _ => Relaxes P) (A := fun _ _ => True) (visiting_relax hq hf hP hx hk hm h h') (fun _ _ _ => trivial)
    (fun _ _ _ _ _ h => h) n) (.rd fun s x _ => .each (fun u => .rd fun s x _ => ?_) _)
  exact .seq (.seq (.seq (.quiet (.each (fun _ => prints1 h _ _ _ _ _ _) _) (.each (fun _ => prints1 h' _ _ _ _ _ _) _))
      (.upd fun s x hs => ⟨{ x with modules := x.modules.filter (· != u) }, rfl, filter_sub _ hs.modules, hs.members, hs.flags, hs.kwargs, hs.decos, hs.errs, hs.encs⟩))
      (.quiet (.each (fun _ => prints1 h _ _ _ _ _ _) _) (.each (fun _ => prints1 h' _ _ _ _ _ _) _)))
      (.upd fun s x hs => ⟨{ x with members := x.members.filter (· != u) }, rfl, hs.modules, filter_sub _ hs.members, hs.flags, hs.kwargs, hs.decos, hs.errs, hs.encs⟩)

end Vermin
