import Verif.Lemmas.Closure
import Verif.Lemmas.Step
import Verif.Lemmas.Minimum
import Verif.Model.File
/-
Visits under two configurations that differ in display options only.
-/
namespace Vermin
open Py V Spec

/-- The same error, or states that differ in the output only. -/
def Same : Except Err S → Except Err S → Prop
  | .ok t, .ok t' => ∃ o i, t' = t.aloud o i
  | .error e, .error e' => e = e'
  | _, _ => False

/-- Actions that do the same except for the output. -/
def Alike (v v' : V) : Prop := ∀ s o i, Same (v s) (v' (s.aloud o i))

namespace Alike
theorem skip : Alike skip skip := fun _ o i => ⟨o, i, rfl⟩
theorem seq {a a' b b' : V} (ha : Alike a a') (hb : Alike b b') : Alike (a ;; b) (a' ;; b') := fun s o i => by
  have h := ha s o i
  show Same (V.seq a b s) (V.seq a' b' _)
  unfold V.seq
  revert h
  cases a s with
  | ok t =>
    cases a' (s.aloud o i) with
    | ok t' => rintro ⟨o', i', rfl⟩; exact hb t o' i'
    | error e => exact False.elim
  | error e =>
    cases a' (s.aloud o i) with
    | ok t' => exact False.elim
    | error e' => exact id
theorem rd {f f' : S → V} (h : ∀ s o i, Alike (f s) (f' (s.aloud o i))) : Alike (V.rd f) (V.rd f') := fun s o i => h s o i s o i
theorem raise (e : Err) : Alike (fun _ => .error e) (fun _ => .error e) := fun _ _ _ => rfl
theorem upd {f f' : S → S} (h : ∀ s o i, ∃ o' i', f' (s.aloud o i) = (f s).aloud o' i') : Alike (upd f) (upd f') := fun s o i => h s o i
theorem flag (f : Flag) : Alike (setFlag f) (setFlag f) := upd fun s o i => ⟨o, i, rfl⟩
theorem when {c : Bool} {a a' : V} (h : Alike a a') : Alike (when c a) (when c a') := by
  cases c with
  | true => exact h
  | false => exact skip
theorem ite {c : Prop} [Decidable c] {a a' b b' : V} (ha : Alike a a') (hb : Alike b b') : Alike (if c then a else b) (if c then a' else b') := by
  split
  · exact ha
  · exact hb
theorem iteOf {c c' : Prop} [Decidable c] [Decidable c'] {a a' b b' : V} (hc : c' = c) (ha : Alike a a') (hb : Alike b b') :
    Alike (if c then a else b) (if c' then a' else b') := by
  subst hc
  split
  · exact ha
  · exact hb
theorem whenOf {c c' : Bool} {a a' : V} (hc : c' = c) (h : Alike a a') : Alike (V.when c a) (V.when c' a') := by
  subst hc
  exact when h
theorem scope {a a' : V} (h : Alike a a') : Alike (inScope a) (inScope a') := rd fun s o i => seq h (upd fun t o i => ⟨o, i, rfl⟩)
end Alike

theorem quietly {v : V} (h : ∀ s, ∃ t, v s = .ok t ∧ ∃ o, t = { s with out := s.out ++ o }) (s : S) : ∃ o, v s = .ok (s.aloud o s.infoVersions) := by
  obtain ⟨t, ht, o, rfl⟩ := h s
  exact ⟨s.out ++ o, ht⟩
theorem alike_quiet {v v' : V} (h : ∀ s, ∃ o, v s = .ok (s.aloud o s.infoVersions)) (h' : ∀ s, ∃ o, v' s = .ok (s.aloud o s.infoVersions)) :
    Alike v v' := fun s o i => by
  obtain ⟨p, hp⟩ := h s
  obtain ⟨p', hp'⟩ := h' (s.aloud o i)
  rw [hp, hp']
  exact ⟨p', i, rfl⟩
theorem verbosePrint_quiet {env : Env} (h : TargetsOk env) (n msg ent line versions plural) (s : S) :
    ∃ o, verbosePrint env n msg ent line versions plural s = .ok (s.aloud o s.infoVersions) :=
  quietly (fun s => let ⟨t, ht⟩ := verbosePrint_ok h n msg ent line versions plural s; ⟨t, ht, verbosePrint_run ht⟩) s

variable {env : Env} {d : Display}

theorem alike_print (h : TargetsOk env) (h' : TargetsOk (env.show d)) (l msg ent line vs pl) :
    Alike (verbosePrint env l msg ent line vs pl) (verbosePrint (env.show d) l msg ent line vs pl) :=
  alike_quiet (verbosePrint_quiet h _ _ _ _ _ _) (verbosePrint_quiet h' _ _ _ _ _ _)

theorem alike_visits (m : Node) : Alike (when env.cfg.printVisits (V.rd fun s => nprintV env (String.ofList ((List.replicate s.depth "| ".toList).flatten) ++ env.dump m)))
    (when (env.show d).cfg.printVisits (V.rd fun s => nprintV (env.show d) (String.ofList ((List.replicate s.depth "| ".toList).flatten) ++ env.dump m))) := by
  have key : ∀ (env : Env) (s : S), ∃ o, (when env.cfg.printVisits
      (V.rd fun s => nprintV env (String.ofList ((List.replicate s.depth "| ".toList).flatten) ++ env.dump m)) : V) s = .ok (s.aloud o s.infoVersions) := by
    intro env s
    cases env.cfg.printVisits with
    | false => exact ⟨s.out, rfl⟩
    | true =>
      show ∃ o, nprintV env _ s = _
      unfold nprintV
      cases env.cfg.quiet with
      | true => exact ⟨s.out, rfl⟩
      | false => exact ⟨_, rfl⟩
  exact alike_quiet (key env) (key (env.show d))

theorem alike_enter (m : Node) : Alike (genEnter env m) (genEnter (env.show d) m) := by
  refine .seq (.seq ?_ (.upd fun s o i => ⟨o, i, rfl⟩)) (alike_visits m)
  cases m.info.line with
  | none => exact .skip
  | some l => exact .upd fun s o i => ⟨o, i, rfl⟩

theorem excluded_same (he : d.exclusions = env.cfg.exclusions) (m : String) :
    ((env.show d).cfg.isExcluded m = true) = (env.cfg.isExcluded m = true) := congrArg (fun l => List.contains l m = true) he

/-- Display options and rules have no influence on visits. -/
theorem closed_alike (he : d.exclusions = env.cfg.exclusions) (hf : d.features = env.cfg.features) (hq : d.path = none) (hm : ∀ m, (d.mem m).isSome = (env.tables.mem m).isSome) (h : TargetsOk env) (h' : TargetsOk (env.show d)) (n : Node) :
    Closed env d n (fun _ => True) Alike (fun _ => True) where
  skip := .skip
  seq ha hb := ha.seq hb
  excl _ := by rw [he]
  feats _ := by rw [hf]
  init := by unfold Env.isInitFile Env.show; rw [hq]; rfl
  rdMods hf := .rd fun s o i => hf s { s.findings with out := o, infoVersions := i } rfl trivial
  raise _ := .raise _
  print l msg ent line vs pl _ := alike_print h h' l msg ent line vs pl
  flag _ := .flag _
  module {m} l c _ := .rd fun s o i => .ite (alike_print h h' _ _ _ _ _ _) (.iteOf (excluded_same he _) (alike_print h h' _ _ _ _ _ _) (.when (.upd fun s o i => by
    refine ⟨o, i, ?_⟩
    cases l <;> rfl)))
  member {m} l c _ := .rd fun s o i => .ite (alike_print h h' _ _ _ _ _ _) (.iteOf (excluded_same he _) (alike_print h h' _ _ _ _ _ _) (.whenOf (hm m) (.upd fun s o i => by
    refine ⟨o, i, ?_⟩
    cases l <;> rfl)))
  kwarg {f k} l _ := .rd fun s o i => .ite (alike_print h h' _ _ _ _ _ _) (.iteOf (excluded_same he _) (alike_print h h' _ _ _ _ _ _) (.when (.upd fun s o i => ⟨o, i, rfl⟩)))
  deco {u} l _ := .rd fun s o i => .ite (alike_print h h' _ _ _ _ _ _) (.iteOf (excluded_same he _) (alike_print h h' _ _ _ _ _ _) (.when (.upd fun s o i => ⟨o, i, rfl⟩)))
  strftime l _ := .upd fun s o i => ⟨o, i, rfl⟩
  bytesDir l _ := .upd fun s o i => ⟨o, i, rfl⟩
  typecode l c _ := .rd fun s o i => .when (.upd fun s o i => ⟨o, i, rfl⟩)
  errorHandler {c} l _ := .iteOf (excluded_same he _) (alike_print h h' _ _ _ _ _ _) (.upd fun s o i => ⟨o, i, rfl⟩)
  encoding {c} l _ := .iteOf (excluded_same he _) (alike_print h h' _ _ _ _ _ _) (.upd fun s o i => ⟨o, i, rfl⟩)
  userDef x := .upd fun s o i => ⟨o, i, rfl⟩
  nameRes _ := .upd fun s o i => ⟨o, i, rfl⟩
  nameResType _ := .upd fun s o i => ⟨o, i, rfl⟩
  moduleAs _ := .upd fun s o i => ⟨o, i, rfl⟩
  importMem _ := .upd fun s o i => ⟨o, i, rfl⟩
  callScope _ ha := .seq (.seq (.upd fun s o i => ⟨o, i, rfl⟩) ha) (.upd fun s o i => ⟨o, i, rfl⟩)
  pop _ := .upd fun s o i => ⟨o, i, rfl⟩
  yield _ := .upd fun s o i => ⟨o, i, rfl⟩
  await _ := .upd fun s o i => ⟨o, i, rfl⟩
  ellipsis _ := .upd fun s o i => ⟨o, i, rfl⟩
  gen m _ _ ha := .seq (.seq (alike_enter m) ha) (.upd fun s o i => ⟨o, i, rfl⟩)
  inScope ha := .scope ha
  yieldScope ha := .rd fun s o i => .seq ha (.upd fun s o i => ⟨o, i, rfl⟩)
  asyncScope _ _ ha := .rd fun s o i => .seq (.seq (.seq ha (.seq (.flag _) (alike_print h h' _ _ _ _ _ _)))
    (.rd fun s o i => .when (.seq (.flag _) (alike_print h h' _ _ _ _ _ _)))) (.upd fun s o i => ⟨o, i, rfl⟩)
  compScope _ ha := .rd fun s o i => .seq (.seq ha (.rd fun s o i => .when (.seq (.flag _) (alike_print h h' _ _ _ _ _ _))))
    (.upd fun s o i => ⟨o, i, rfl⟩)
  forScope _ ha hb hc := .seq (.upd fun s o i => ⟨o, i, rfl⟩) (.scope (.seq (.seq (.seq ha hb) hc) (.upd fun s o i => ⟨o, i, rfl⟩)))
  whileScope _ ha := .seq (.seq (.upd fun s o i => ⟨o, i, rfl⟩) ha) (.upd fun s o i => ⟨o, i, rfl⟩)
  tryScope _ ha hb := .seq (.seq (.seq (.upd fun s o i => ⟨o, i, rfl⟩) ha) (.upd fun s o i => ⟨o, i, rfl⟩)) hb

theorem visit_alike (he : d.exclusions = env.cfg.exclusions) (hf : d.features = env.cfg.features) (hq : d.path = none) (hm : ∀ m, (d.mem m).isSome = (env.tables.mem m).isSome) (h : TargetsOk env) (h' : TargetsOk (env.show d)) (n : Node) : Alike (visit env n) (visit (env.show d) n) :=
  visit_closed (I := fun _ _ => True) (Q := fun _ => Alike) (A := fun _ _ => True) (closed_alike he hf hq hm h h') (fun _ _ _ => trivial) (fun _ _ _ _ _ h => h) n

theorem alike_each {α : Type} {f f' : α → V} (h : ∀ x, Alike (f x) (f' x)) : ∀ l, Alike (V.each f l) (V.each f' l)
  | [] => .skip
  | x :: l => .seq (h x) (alike_each h l)

theorem tour_alike (he : d.exclusions = env.cfg.exclusions) (hf : d.features = env.cfg.features) (hq : d.path = none) (hm : ∀ m, (d.mem m).isSome = (env.tables.mem m).isSome) (h : TargetsOk env) (h' : TargetsOk (env.show d)) (n : Node) : Alike (tour env n) (tour (env.show d) n) :=
  .seq (visit_alike he hf hq hm h h' n) (.rd fun s o i => alike_each (fun u => .rd fun s o i =>
    .seq (.seq (.seq (alike_each (fun _ => alike_print h h' _ _ _ _ _ _) _) (.upd fun s o i => ⟨o, i, rfl⟩))
      (alike_each (fun _ => alike_print h h' _ _ _ _ _ _) _)) (.upd fun s o i => ⟨o, i, rfl⟩)) _)

/-! ### Minimum versions -/

/-- Equal errors, except for the texts about incompatible versions. -/
def SameErr (e e' : Err) : Prop := e = e' ∨ ∃ m m', e = .invalidVersion m ∧ e' = .invalidVersion m'

/-- The same minimum versions, or the same kind of error. -/
def SameM : Except Err (S × Req) → Except Err (S × Req) → Prop
  | .ok (t, m), .ok (t', m') => m' = m ∧ ∃ o i, t' = t.aloud o i
  | .error e, .error e' => SameErr e e'
  | _, _ => False

/-- Steps of `minimum_versions` that do the same except for the output. -/
def AlikeM (f f' : M) : Prop := ∀ s o i m, SameM (f (s, m)) (f' (s.aloud o i, m))

namespace AlikeM
theorem thenM {f f' g g' : M} (hf : AlikeM f f') (hg : AlikeM g g') : AlikeM (thenM f g) (thenM f' g') := fun s o i m => by
  have h := hf s o i m
  unfold Vermin.thenM
  revert h
  cases f (s, m) with
  | ok x =>
    cases f' (s.aloud o i, m) with
    | ok x' =>
      obtain ⟨t, n⟩ := x
      obtain ⟨t', n'⟩ := x'
      rintro ⟨rfl, o', i', rfl⟩
      exact hg t o' i' n'
    | error e => exact False.elim
  | error e =>
    cases f' (s.aloud o i, m) with
    | ok x' => exact False.elim
    | error e' => exact id
theorem eachM {α : Type} {f f' : α → M} (hf : ∀ a, AlikeM (f a) (f' a)) : ∀ l, AlikeM (eachM f l) (eachM f' l)
  | [] => fun s o i m => ⟨rfl, o, i, rfl⟩
  | a :: l => thenM (hf a) (eachM hf l)
theorem pure : AlikeM (fun x => .ok x) (fun x => .ok x) := fun s o i m => ⟨rfl, o, i, rfl⟩
theorem raise (e : Err) : AlikeM (fun _ => .error e) (fun _ => .error e) := fun s o i m => .inl rfl
theorem ite {c : Prop} [Decidable c] {a a' b b' : M} (ha : AlikeM a a') (hb : AlikeM b b') : AlikeM (if c then a else b) (if c then a' else b') := by
  split
  · exact ha
  · exact hb

theorem entity (h : TargetsOk env) (h' : TargetsOk (env.show d)) (r : Req) (info : Option String) (ent : Option Ent) :
    AlikeM (addEntity env r info ent) (addEntity (env.show d) r info ent) := fun s o i m => by
  have key : ∀ {env : Env}, TargetsOk env → ∀ s : S, ∃ o i, infoStep env r info ent s = .ok (s.aloud o i) := by
    intro env h s
    obtain ⟨b, hb⟩ := violates_ok h (some r)
    unfold infoStep
    rw [hb]
    show ∃ o i, (when b _) s = _
    cases b with
    | false => exact ⟨s.out, s.infoVersions, rfl⟩
    | true =>
      cases info with
      | none => exact ⟨s.out, s.infoVersions, rfl⟩
      | some x =>
        cases ent with
        | none => exact ⟨_, _, rfl⟩
        | some e =>
          obtain ⟨o, ho⟩ := verbosePrint_quiet h 2 x (some e) .absent (some r) none (s.addInfo r x)
          exact ⟨o, (s.addInfo r x).infoVersions, ho⟩
  obtain ⟨p, q, hp⟩ := key h s
  obtain ⟨p', q', hp'⟩ := key h' (s.aloud o i)
  unfold addEntity
  simp only [hp, hp']
  show SameM (match combineVersions env.cfg.ignoreIncomp m r (some q) with | .ok m => .ok (_, m) | .error e => .error e)
    (match combineVersions env.cfg.ignoreIncomp m r (some q') with | .ok m => .ok (_, m) | .error e => .error e)
  cases hc : combineVersions env.cfg.ignoreIncomp m r (some q) with
  | ok m' =>
    rw [combine_refs_ok (refs' := some q') hc]
    exact ⟨rfl, p', q', rfl⟩
  | error e =>
    obtain ⟨e', he'⟩ := combine_refs_error (refs' := some q') hc
    obtain ⟨msg, rfl⟩ := combine_error_kind hc
    obtain ⟨msg', rfl⟩ := combine_error_kind he'
    rw [he']
    exact .inr ⟨_, _, rfl, rfl⟩

theorem rule (h : TargetsOk env) (h' : TargetsOk (env.show d)) (r : Option Req) (info : String) (ent : Ent) :
    AlikeM (ruleM env r info ent) (ruleM (env.show d) r info ent) := by
  cases r with
  | none => exact pure
  | some r => exact entity h h' r _ _
end AlikeM

theorem entitiesM_alike (ht : (env.show d).tables = env.tables) (h : TargetsOk env) (h' : TargetsOk (env.show d)) (s : S) : AlikeM (entitiesM env s) (entitiesM (env.show d) s) := by
  have each : ∀ {α : Type} {f f' : α → M} {l : List α} {g g' : M}, (∀ a, AlikeM (f a) (f' a)) → AlikeM g g' → AlikeM (thenM (eachM f l) g) (thenM (eachM f' l) g') :=
    fun hf hg => .thenM (.eachM hf _) hg
  unfold entitiesM kwargM
  rw [ht]
  refine each (fun a => .rule h h' _ _ _) (each (fun a => .rule h h' _ _ _) (each (fun a => .rule h h' _ _ _) (each (fun c => ?_) (each (fun c => .eachM (fun e => ?_) _)
    (each (fun a => .rule h h' _ _ _) (each (fun a => .rule h h' _ _ _) (each (fun a => .rule h h' _ _ _) (.eachM (fun a => .rule h h' _ _ _) _))))))))
  · cases c with
    | str n => exact .rule h h' _ _ _
    | _ => exact .pure
  · cases c with
    | str n =>
      unfold encodingEntryM
      dsimp only
      by_cases hx : e.1.contains (lowerStr n) = true
      · simp only [hx, if_true]; exact .entity h h' e.2 _ _
      · simp only [hx]; exact .pure
    | bytes t =>
      obtain ⟨k, r⟩ := e
      cases k with
      | text _ => exact .raise _
      | names _ => exact .pure
    | _ => exact .raise _

theorem entitiesM_aloud (env : Env) (s : S) (o : List String) (i : Refs) : entitiesM env (s.aloud o i) = entitiesM env s := rfl

/-- Display options have no influence on the minimum versions. -/
theorem minimumVersions_alike (ht : (env.show d).tables = env.tables) (h : TargetsOk env) (h' : TargetsOk (env.show d)) (s : S) (o : List String) (i : Refs) :
    SameM (minimumVersions env s) (minimumVersions (env.show d) (s.aloud o i)) := by
  have hp : AlikeM (printM env) (printM (env.show d)) := fun s o i m => by
    unfold printM
    dsimp only
    show SameM (if s.has .printv3 then _ else _) (if s.has .printv3 then _ else _)
    cases s.has .printv3 with
    | false => exact ⟨rfl, o, i, rfl⟩
    | true =>
      obtain ⟨p, hp⟩ := verbosePrint_quiet h 2 "print(expr)" none .hide (from23 0 0) none s
      obtain ⟨p', hp'⟩ := verbosePrint_quiet h' 2 "print(expr)" none .hide (from23 0 0) none (s.aloud o i)
      replace hp : (vv env "print(expr)" (from23 0 0) .hide : V) s = _ := hp
      replace hp' : (vv (env.show d) "print(expr)" (from23 0 0) .hide : V) (s.aloud o i) = _ := hp'
      simp only [hp, hp', if_true]
      exact AlikeM.entity h h' (both23 0 0) none none (s.aloud p s.infoVersions) p' i _
  have hf : ∀ f, AlikeM (featureM env f) (featureM (env.show d) f) := fun f s o i m => by
    show SameM (if s.has f.flag then _ else _) (if s.has f.flag then _ else _)
    cases s.has f.flag with
    | false => exact ⟨rfl, o, i, rfl⟩
    | true => exact AlikeM.entity h h' f.req f.info none s o i m
  exact AlikeM.thenM hp (.thenM (.eachM hf _) fun s o i m => entitiesM_alike ht h h' s s o i m) s o i Req.unknown

end Vermin
