import Verif.Lemmas.Closure
import Verif.Lemmas.Minimum
import Verif.Model.File
/-
Visits under which sets are enumerated in different orders.
-/
namespace Vermin
open Py V Spec

/-- The state with other output. -/
def S.with (s : S) (o : List String) : S := { s with out := o }

/-- The same error, or states that differ in the order of the output only. -/
def Shuffled : Except Err S → Except Err S → Prop
  | .ok t, .ok t' => ∃ o, t.out.Perm o ∧ t' = t.with o
  | .error e, .error e' => e = e'
  | _, _ => False

/-- Actions that do the same except for the order of the output. -/
def Mixes (v v' : V) : Prop := ∀ s o, s.out.Perm o → Shuffled (v s) (v' (s.with o))

theorem Shuffled.refl : ∀ x : Except Err S, Shuffled x x
  | .ok t => ⟨t.out, .refl _, rfl⟩
  | .error _ => rfl
theorem Shuffled.trans {x y z : Except Err S} (h : Shuffled x y) (h' : Shuffled y z) : Shuffled x z := by
  match x, y, z, h, h' with
  | .ok t, .ok _, .ok _, ⟨o, ho, rfl⟩, ⟨o', ho', rfl⟩ => exact ⟨o', ho.trans ho', rfl⟩
  | .error _, .error _, .error _, rfl, rfl => exact rfl

namespace Mixes
theorem trans {a b c : V} (h : Mixes a b) (h' : Mixes b c) : Mixes a c := fun s o ho => (h s s.out (.refl _)).trans (h' s o ho)
theorem skip : Mixes skip skip := fun _ o ho => ⟨o, ho, rfl⟩
theorem seq {a a' b b' : V} (ha : Mixes a a') (hb : Mixes b b') : Mixes (a ;; b) (a' ;; b') := fun s o ho => by
  have h := ha s o ho
  show Shuffled (V.seq a b s) (V.seq a' b' _)
  unfold V.seq
  revert h
  cases a s with
  | ok t =>
    cases a' (s.with o) with
    | ok t' => rintro ⟨o', ho', rfl⟩; exact hb t o' ho'
    | error e => exact False.elim
  | error e =>
    cases a' (s.with o) with
    | ok t' => exact False.elim
    | error e' => exact id
theorem rd {f f' : S → V} (h : ∀ s o, s.out.Perm o → Mixes (f s) (f' (s.with o))) : Mixes (V.rd f) (V.rd f') := fun s o ho => h s o ho s o ho
theorem raise (e : Err) : Mixes (fun _ => .error e) (fun _ => .error e) := fun _ _ _ => rfl
/-- An action on other fields. -/
theorem act {f : S → S} (h : ∀ s o, f (s.with o) = (f s).with o) (h' : ∀ s, (f s).out = s.out) : Mixes (upd f) (upd f) :=
  fun s o ho => ⟨o, (h' s).symm ▸ ho, h s o⟩
theorem flag (f : Flag) : Mixes (setFlag f) (setFlag f) := act (fun _ _ => rfl) (fun _ => rfl)
theorem when {c : Bool} {a a' : V} (h : Mixes a a') : Mixes (when c a) (when c a') := by
  cases c with
  | true => exact h
  | false => exact skip
theorem ite {c : Prop} [Decidable c] {a a' b b' : V} (ha : Mixes a a') (hb : Mixes b b') : Mixes (if c then a else b) (if c then a' else b') := by
  split
  · exact ha
  · exact hb
theorem lift {α : Type} (x : Except Err α) {f f' : α → V} (h : ∀ a, Mixes (f a) (f' a)) : Mixes (V.lift x f) (V.lift x f') := by
  cases x with
  | ok a => exact h a
  | error e => exact raise e
theorem opt {α : Type} (x : Option α) {a a' : V} {f f' : α → V} (h0 : Mixes a a') (h : ∀ v, Mixes (f v) (f' v)) : Mixes (V.opt x a f) (V.opt x a' f') := by
  cases x with
  | none => exact h0
  | some v => exact h v
theorem each {α : Type} {f f' : α → V} (h : ∀ x, Mixes (f x) (f' x)) : ∀ l, Mixes (V.each f l) (V.each f' l)
  | [] => skip
  | x :: l => seq (h x) (each h l)
theorem scope {a a' : V} (h : Mixes a a') : Mixes (inScope a) (inScope a') := rd fun _ _ _ => seq h (act (fun _ _ => rfl) (fun _ => rfl))
/-- Something is said. -/
theorem say {f : S → List String} (h : ∀ s o, f (s.with o) = f s) : Mixes (upd fun s => { s with out := s.out ++ f s }) (upd fun s => { s with out := s.out ++ f s }) :=
  fun s o ho => ⟨o ++ f s, ho.append_right _, by show S.with s (o ++ f (s.with o)) = _; rw [h]; rfl⟩

/-- Any order will do for actions that do not depend on each other. -/
theorem perm {α : Type} {f : α → V} (h : ∀ a, Mixes (f a) (f a)) (hs : ∀ a b, Mixes (f a ;; f b) (f b ;; f a)) {l l' : List α} (hp : l.Perm l') :
    Mixes (V.each f l) (V.each f l') := by
  induction hp with
  | nil => exact skip
  | cons x _ ih => exact seq (h x) ih
  | swap x y l =>
    have e : ∀ x y : α, V.each f (x :: y :: l) = (f x ;; f y) ;; V.each f l := fun x y => by
      funext s
      show V.seq (f x) (V.seq (f y) _) s = V.seq (V.seq (f x) (f y)) _ s
      unfold V.seq
      cases f x s <;> rfl
    rw [e, e]
    exact seq (hs y x) (each h l)
  | trans _ _ ih ih' => exact trans ih ih'
end Mixes

variable {env : Env}

theorem print_mixes (l msg ent line vs pl) : Mixes (verbosePrint env l msg ent line vs pl) (verbosePrint env l msg ent line vs pl) :=
  .lift _ fun _ => .when (.say (f := fun s => [verboseLine env s msg ent line vs pl]) fun _ _ => rfl)

theorem enter_mixes (m : Node) : Mixes (genEnter env m) (genEnter env m) := by
  refine .seq (.seq (.opt _ .skip fun _ => .act (fun _ _ => rfl) (fun _ => rfl)) (.act (fun _ _ => rfl) (fun _ => rfl))) (.when (.rd fun s o _ => ?_))
  exact .when (.say (f := fun _ => _) fun _ _ => rfl)

/-- No action looks at the output. -/
theorem closed_mixes (env : Env) (n : Node) : Closed env env.display n (fun _ => True) Mixes (fun _ => True) where
  skip := .skip
  seq ha hb := ha.seq hb
  excl _ := rfl
  feats _ := rfl
  init := rfl
  rdMods hf := .rd fun s o _ => hf s { s.findings with out := o } rfl trivial
  raise _ := .raise _
  print l msg ent line vs pl _ := print_mixes l msg ent line vs pl
  flag _ := .flag _
  module {m} l c _ := .rd fun s o _ => .ite (print_mixes _ _ _ _ _ _) (.ite (print_mixes _ _ _ _ _ _) (.when (.act (fun s o => by cases l <;> rfl) (fun s => by cases l <;> rfl))))
  member {m} l c _ := .rd fun s o _ => .ite (print_mixes _ _ _ _ _ _) (.ite (print_mixes _ _ _ _ _ _) (.when (.act (fun s o => by cases l <;> rfl) (fun s => by cases l <;> rfl))))
  kwarg {f k} l _ := .rd fun s o _ => .ite (print_mixes _ _ _ _ _ _) (.ite (print_mixes _ _ _ _ _ _) (.when (.act (fun _ _ => rfl) (fun _ => rfl))))
  deco {u} l _ := .rd fun s o _ => .ite (print_mixes _ _ _ _ _ _) (.ite (print_mixes _ _ _ _ _ _) (.when (.act (fun _ _ => rfl) (fun _ => rfl))))
  strftime l _ := .act (fun _ _ => rfl) (fun _ => rfl)
  bytesDir l _ := .act (fun _ _ => rfl) (fun _ => rfl)
  typecode l c _ := .rd fun s o _ => .when (.act (fun _ _ => rfl) (fun _ => rfl))
  errorHandler {c} l _ := .ite (print_mixes _ _ _ _ _ _) (.act (fun _ _ => rfl) (fun _ => rfl))
  encoding {c} l _ := .ite (print_mixes _ _ _ _ _ _) (.act (fun _ _ => rfl) (fun _ => rfl))
  userDef x := .act (fun _ _ => rfl) (fun _ => rfl)
  nameRes _ := .act (fun _ _ => rfl) (fun _ => rfl)
  nameResType _ := .act (fun _ _ => rfl) (fun _ => rfl)
  moduleAs _ := .act (fun _ _ => rfl) (fun _ => rfl)
  importMem _ := .act (fun _ _ => rfl) (fun _ => rfl)
  callScope _ ha := .seq (.seq (.act (fun _ _ => rfl) (fun _ => rfl)) ha) (.act (fun _ _ => rfl) (fun _ => rfl))
  pop _ := .act (fun _ _ => rfl) (fun _ => rfl)
  yield _ := .act (fun _ _ => rfl) (fun _ => rfl)
  await _ := .act (fun _ _ => rfl) (fun _ => rfl)
  ellipsis _ := .act (fun _ _ => rfl) (fun _ => rfl)
  gen m _ _ ha := .seq (.seq (enter_mixes m) ha) (.act (fun _ _ => rfl) (fun _ => rfl))
  inScope ha := .scope ha
  yieldScope ha := .rd fun s o _ => .seq ha (.act (fun _ _ => rfl) (fun _ => rfl))
  asyncScope _ _ ha := .rd fun s o _ => .seq (.seq (.seq ha (.seq (.flag _) (print_mixes _ _ _ _ _ _)))
    (.rd fun s o _ => .when (.seq (.flag _) (print_mixes _ _ _ _ _ _)))) (.act (fun _ _ => rfl) (fun _ => rfl))
  compScope _ ha := .rd fun s o _ => .seq (.seq ha (.rd fun s o _ => .when (.seq (.flag _) (print_mixes _ _ _ _ _ _))))
    (.act (fun _ _ => rfl) (fun _ => rfl))
  forScope _ ha hb hc := .seq (.act (fun _ _ => rfl) (fun _ => rfl)) (.scope (.seq (.seq (.seq ha hb) hc) (.act (fun _ _ => rfl) (fun _ => rfl))))
  whileScope _ ha := .seq (.seq (.act (fun _ _ => rfl) (fun _ => rfl)) ha) (.act (fun _ _ => rfl) (fun _ => rfl))
  tryScope _ ha hb := .seq (.seq (.seq (.act (fun _ _ => rfl) (fun _ => rfl)) ha) (.act (fun _ _ => rfl) (fun _ => rfl))) hb

/-! ### Sets enumerated in another order -/

/-- The same environment, with another order of sets. -/
def Env.listing (env : Env) (o : List String → List String) : Env := { env with order := o }

theorem argAnns_listing (o : List String → List String) (n : Node) : ∀ as, argAnns (env.listing o) n as = argAnns env n as
  | [] => rfl
  | a :: as => by
    unfold argAnns
    rw [argAnns_listing o n as]
    rfl
theorem attrModules_listing (o : List String → List String) (full : List (Option String)) (dot : String) (line : Nat) :
    ∀ k i, attrModules (env.listing o) full dot line k i = attrModules env full dot line k i
  | 0, _ => rfl
  | k + 1, i => by
    unfold attrModules
    rw [attrModules_listing o full dot line k (i + 1)]
    rfl
theorem functionDef_listing (o : List String → List String) (n : Node) (name : String) (cs : List Child) :
    handleFunctionDef (env.listing o) n name cs = handleFunctionDef env n name cs := by
  unfold handleFunctionDef funcAnns
  rw [argAnns_listing]
  rfl

theorem alg_listing (o : List String → List String) (n : Node) (cs : List Child) (h : n.kind ≠ .subscript) : visitAlg (env.listing o) n cs = visitAlg env n cs := by
  unfold visitAlg
  cases hk : n.kind with
  | subscript => exact absurd hk h
  | functionDef name =>
    show visitFunctionDef _ n name cs = visitFunctionDef _ n name cs
    unfold visitFunctionDef
    rw [functionDef_listing]
    rfl
  | asyncFunctionDef name =>
    show visitAsyncFunctionDef _ n name cs = visitAsyncFunctionDef _ n name cs
    unfold visitAsyncFunctionDef
    rw [functionDef_listing]
    rfl
  | «attribute» a =>
    show visitAttribute _ n cs = visitAttribute _ n cs
    unfold visitAttribute
    simp only [attrModules_listing]
    rfl
  | _ => rfl

/-- Actions that set the flag `f` or not, and say something that depends neither on flags nor on what was said before, or
fail with the error `e`. -/
def Marking (e : Err) (f : Flag) (v : V) : Prop := ∀ s : S, ∃ (bad b : Bool) (l : List String), ∀ fl o,
  v { s with flags := fl, out := o } = if bad then .error e else
    .ok { s with flags := if b then ({ s with flags := fl } : S).set f |>.flags else fl, out := o ++ l }

theorem Marking.swap {e : Err} {f : Flag} {a b : V} (ha : Marking e f a) (hb : Marking e f b) : Mixes (a ;; b) (b ;; a) := fun s o ho => by
  obtain ⟨x, i, l, ha⟩ := ha s
  obtain ⟨y, j, m, hb⟩ := hb s
  have ha0 := ha s.flags s.out
  have hb0 := hb s.flags o
  show Shuffled (V.seq a b { s with flags := s.flags, out := s.out }) (V.seq b a { s with flags := s.flags, out := o })
  unfold V.seq
  rw [ha0, hb0]
  cases x <;> cases y <;> simp only [Bool.false_eq_true, if_false, if_true, ha, hb]
  · refine ⟨o ++ m ++ l, ?_, ?_⟩
    · show (s.out ++ l ++ m).Perm _
      rw [List.append_assoc, List.append_assoc]
      exact ho.append (List.perm_append_comm)
    · cases i <;> cases j <;> rfl
  · exact rfl
  · exact rfl
  · exact rfl

theorem marking_skip {e : Err} {f : Flag} : Marking e f skip := fun s => ⟨false, false, [], fun fl o => by simp [V.skip]⟩
theorem marking_flag {e : Err} {f : Flag} : Marking e f (setFlag f) := fun s => ⟨false, true, [], fun fl o => by simp [setFlag, upd, S.set]⟩
theorem marking_note {e : Err} {f : Flag} (msg : String) : Marking e f (vvvv env msg) := fun s => by
  unfold vvvv verbosePrint violates
  show ∃ bad b l, ∀ fl o, (when _ _) _ = _
  cases (true && !(skipOutputLine env.cfg || decide (env.cfg.verbose < 4))) with
  | true => exact ⟨false, false, [verboseLine env s msg none .absent none none], fun fl o => rfl⟩
  | false => exact ⟨false, false, [], fun fl o => by simp [when, V.skip]⟩
theorem marking_found {f : Flag} (msg : String) (vs : Option Req) : ∃ e, ∀ msg, Marking e f (found env f msg vs) := by
  cases h : violates env vs with
  | error e =>
    refine ⟨e, fun msg s => ⟨true, true, [], fun fl o => ?_⟩⟩
    show V.seq _ _ _ = _
    unfold V.seq vv verbosePrint
    rw [h]
    rfl
  | ok b =>
    refine ⟨.indexError, fun msg s => ?_⟩
    show ∃ bad b l, ∀ fl o, V.seq _ _ _ = _
    unfold V.seq vv verbosePrint
    rw [h]
    show ∃ bad b l, ∀ fl o, (when _ _) _ = _
    cases (b && !(skipOutputLine env.cfg || decide (env.cfg.verbose < 2))) with
    | true => exact ⟨false, true, [verboseLine env s msg none .absent vs none], fun fl o => rfl⟩
    | false => exact ⟨false, true, [], fun fl o => by simp [when, V.skip, S.set]⟩

theorem marking_generic : ∃ e f, ∀ t, Marking e f (when (env.tables.genericTypes.contains t) (genericType env t)) := by
  obtain ⟨e, he⟩ := marking_found (env := env) (f := .builtinGenericTypeAnnotations) "" (from3 9)
  refine ⟨e, if env.cfg.evalAnnotations then .builtinGenericTypeAnnotations else .maybeAnnotations, fun t => ?_⟩
  cases env.tables.genericTypes.contains t with
  | false => exact marking_skip
  | true =>
    show Marking _ _ (genericType env t)
    unfold genericType alt
    cases env.cfg.evalAnnotations with
    | false => exact marking_flag
    | true =>
      intro s
      simp only [if_true]
      show ∃ bad b l, ∀ fl o, (if s.userDefs.contains t = true then _ else _ : V) _ = _
      split
      · exact marking_note _ s
      · exact he _ s

/-- `removeDef`, written out. -/
theorem removeDef_eq (u : String) : ∃ f g : Nat → List String, ∀ s : S, removeDef env u s = .ok { s with
    modules := s.modules.filter (· != u), members := s.members.filter (· != u),
    out := s.out ++ ((s.modules.filter (· == u)).flatMap (fun _ => f s.line) ++ (s.members.filter (· == u)).flatMap fun _ => g s.line) } := by
  have key : ∀ msg : String, ∃ f : Nat → List String, ∀ (l : List String) (s : S), V.each (fun _ => vvvv env msg) l s = .ok (s.with (s.out ++ l.flatMap fun _ => f s.line)) := by
    intro msg
    have one : ∃ f : Nat → List String, ∀ s : S, vvvv env msg s = .ok (s.with (s.out ++ f s.line)) := by
      unfold vvvv verbosePrint violates
      show ∃ f : Nat → List String, ∀ s : S, (when _ _) s = _
      cases (true && !(skipOutputLine env.cfg || decide (env.cfg.verbose < 4))) with
      | true => exact ⟨fun n => [verboseLine env { S.init with line := n } msg none .absent none none], fun s => rfl⟩
      | false => exact ⟨fun _ => [], fun s => by simp [when, V.skip, S.with]⟩
    obtain ⟨f, hf⟩ := one
    refine ⟨f, fun l => ?_⟩
    induction l with
    | nil => intro s; simp [V.each, V.skip, S.with]
    | cons x l ih =>
      intro s
      show V.seq _ _ s = _
      simp only [V.seq, hf, ih]
      simp [S.with]
  obtain ⟨f, hf⟩ := key ("Ignoring module '" ++ u ++ "' because it's user-defined!")
  obtain ⟨g, hg⟩ := key ("Ignoring member '" ++ u ++ "' because it's user-defined!")
  refine ⟨f, g, fun s => ?_⟩
  show V.seq (V.seq (V.seq _ _) _) _ s = _
  simp only [V.seq, hf, upd, hg]
  simp [S.with]

theorem removeDef_mixes (u : String) : Mixes (removeDef env u) (removeDef env u) := fun s o ho => by
  obtain ⟨f, g, h⟩ := removeDef_eq (env := env) u
  rw [h, h]
  exact ⟨_, ho.append_right _, rfl⟩

theorem filter_other {u v : String} (h : u ≠ v) (l : List String) : (l.filter (· != u)).filter (· == v) = l.filter (· == v) := by
  rw [List.filter_filter]
  apply List.filter_congr
  intro x _
  by_cases hx : x = v
  · subst hx; simp [Ne.symm h]
  · simp [hx]

theorem perm_swapped {a b : List String} (h : a.Perm b) (l m : List String) : (a ++ l ++ m).Perm (b ++ m ++ l) := by
  rw [List.append_assoc, List.append_assoc]
  exact h.append List.perm_append_comm

theorem removeDef_swap (u v : String) : Mixes (removeDef env u ;; removeDef env v) (removeDef env v ;; removeDef env u) := by
  by_cases huv : u = v
  · subst huv
    exact .seq (removeDef_mixes u) (removeDef_mixes u)
  · intro s o ho
    obtain ⟨f, g, h⟩ := removeDef_eq (env := env) u
    obtain ⟨f', g', h'⟩ := removeDef_eq (env := env) v
    show Shuffled (V.seq _ _ s) (V.seq _ _ (s.with o))
    simp only [V.seq, h, h']
    simp only [S.with, filter_other huv, filter_other (Ne.symm huv)]
    have comm : ∀ l : List String, (l.filter (· != v)).filter (· != u) = (l.filter (· != u)).filter (· != v) := fun l => by
      rw [List.filter_filter, List.filter_filter]
      exact List.filter_congr fun x _ => Bool.and_comm ..
    rw [comm, comm]
    exact ⟨_, perm_swapped ho _ _, rfl⟩

variable {o : List String → List String} (hp : ∀ l, (env.order l).Perm l) (ho : ∀ l, (o l).Perm l)
include hp ho

theorem afterVisitAll_mixes : Mixes (afterVisitAll env) (afterVisitAll (env.listing o)) :=
  .rd fun s _ _ => .perm removeDef_mixes removeDef_swap ((hp s.userDefs).trans (ho s.userDefs).symm)

theorem genericType_mixes (t : String) : Mixes (genericType env t) (genericType env t) := by
  unfold genericType alt
  exact .ite (.rd fun s o _ => .ite (print_mixes _ _ _ _ _ _) (.seq (.flag _) (print_mixes _ _ _ _ _ _))) (.flag _)

theorem subscriptName_mixes (c : String) : Mixes (subscriptName env c) (subscriptName (env.listing o) c) := by
  have g := fun t => genericType_mixes (env := env) hp ho t
  refine .rd fun s _ _ => .ite (g _) (.opt _ (.opt _ .skip fun ts => ?_) fun m => .when (g _))
  obtain ⟨e, f, h⟩ := marking_generic (env := env)
  exact .perm (fun t => .when (g t)) (fun a b => (h a).swap (h b)) ((hp ts).trans (ho ts).symm)

theorem subscript_mixes (n : Node) {cs cs' : List Child} (h : Mixes (gen env n cs) (gen env n cs')) : Mixes (visitSubscript env n cs) (visitSubscript (env.listing o) n cs') := by
  have mark : ∀ m, Mixes (markEllipsis m) (markEllipsis m) := fun m => .when (.act (fun _ _ => rfl) (fun _ => rfl))
  refine .ite .skip (.seq (.seq (.opt _ .skip fun v => .rd fun s _ _ => .lift _ fun x => .opt _ .skip fun c => subscriptName_mixes hp ho c) (.opt _ .skip fun sl => ?_)) h)
  have sub : ∀ m, Mixes (markSubscript m) (markSubscript m) := fun m => by
    unfold markSubscript
    refine .seq (mark m) ?_
    split
    · exact .each mark _
    · exact .skip
  unfold markSlice
  split
  · exact .each mark _
  · exact .opt _ .skip sub
  · exact sub _

mutual
/-- A visit does not depend on the order of sets, except for the order of the output. -/
theorem visitNode_mixes : ∀ n, Mixes (visitNode env n).1 (visitNode (env.listing o) n).1 ∧ Mixes (visitNode env n).2 (visitNode (env.listing o) n).2
  | .mk i ks => by
    have hk : Kids (.mk i ks) Mixes (visitKids env ks) (visitKids (env.listing o) ks) := visitKids_mixes _ ks
    have hc := (closed_mixes env (.mk i ks)).toVisiting
    have hg : Mixes (gen env (.mk i ks) (visitKids env ks)) (gen env (.mk i ks) (visitKids (env.listing o) ks)) := hc.generic _ hk
    unfold visitNode
    refine ⟨?_, hg⟩
    by_cases hs : (Node.mk i ks).kind = .subscript
    · show Mixes (visitAlg _ _ _) (visitAlg _ _ _)
      unfold visitAlg
      simp only [hs]
      exact subscript_mixes hp ho _ hg
    · show Mixes _ (visitAlg _ _ _)
      rw [alg_listing o _ _ hs]
      exact hc.visitAlg (fun _ _ => trivial) (hc.kin hk)
theorem visitKids_mixes (n : Node) : ∀ ks, Kids n Mixes (visitKids env ks) (visitKids (env.listing o) ks)
  | [] => .nil
  | k :: ks => by
    have := visitNode_mixes k
    unfold visitKids
    exact .cons rfl this.1 (fun _ => this.2) (visitKids_mixes n ks)
end

theorem tour_mixes (n : Node) : Mixes (tour env n) (tour (env.listing o) n) := .seq (visitNode_mixes hp ho n).1 (afterVisitAll_mixes hp ho)

/-! ### Minimum versions -/

omit hp ho in
theorem minimumVersions_listing (o : List String → List String) (s : S) : minimumVersions (env.listing o) s = minimumVersions env s := rfl

/-- The same minimum versions with the output in another order, or the same error. -/
def ShuffledM : Except Err (S × Req) → Except Err (S × Req) → Prop
  | .ok (t, m), .ok (t', m') => m' = m ∧ ∃ o, t.out.Perm o ∧ t' = t.with o
  | .error e, .error e' => e = e'
  | _, _ => False

/-- Steps of `minimum_versions` that do the same except for the order of the output. -/
def MixesM (f : M) : Prop := ∀ (s : S) o m, s.out.Perm o → ShuffledM (f (s, m)) (f (s.with o, m))

namespace MixesM
omit hp ho
theorem thenM {f g : M} (hf : MixesM f) (hg : MixesM g) : MixesM (thenM f g) := fun s o m ho => by
  have h := hf s o m ho
  show ShuffledM (Vermin.thenM f g _) (Vermin.thenM f g _)
  unfold Vermin.thenM
  revert h
  cases f (s, m) with
  | ok x =>
    cases f (s.with o, m) with
    | ok x' =>
      obtain ⟨t, n⟩ := x
      obtain ⟨t', n'⟩ := x'
      rintro ⟨rfl, o', ho', rfl⟩
      exact hg t o' n' ho'
    | error e => exact False.elim
  | error e =>
    cases f (s.with o, m) with
    | ok x' => exact False.elim
    | error e' => exact id
theorem pure : MixesM (fun x => .ok x) := fun _ o _ ho => ⟨rfl, o, ho, rfl⟩
theorem raise (e : Err) : MixesM (fun _ => .error e) := fun _ _ _ _ => rfl
theorem eachM {α : Type} {f : α → M} (hf : ∀ a, MixesM (f a)) : ∀ l, MixesM (eachM f l)
  | [] => pure
  | a :: l => thenM (hf a) (eachM hf l)

theorem entity (r : Req) (info : Option String) (ent : Option Ent) : MixesM (addEntity env r info ent) := fun s o m ho => by
  have h : Mixes (infoStep env r info ent) (infoStep env r info ent) := .lift _ fun _ => .when (.opt _ .skip fun _ =>
    .seq (.act (fun _ _ => rfl) (fun _ => rfl)) (.opt _ .skip fun _ => print_mixes _ _ _ _ _ _))
  replace h := h s o ho
  unfold addEntity
  dsimp only
  revert h
  cases infoStep env r info ent s with
  | ok t =>
    cases infoStep env r info ent (s.with o) with
    | ok t' =>
      rintro ⟨o', ho', rfl⟩
      show ShuffledM (match combineVersions env.cfg.ignoreIncomp m r (some t.infoVersions) with | .ok m => .ok (_, m) | .error e => .error e)
        (match combineVersions env.cfg.ignoreIncomp m r (some t.infoVersions) with | .ok m => .ok (_, m) | .error e => .error e)
      cases combineVersions env.cfg.ignoreIncomp m r (some t.infoVersions) with
      | ok m => exact ⟨rfl, o', ho', rfl⟩
      | error e => exact rfl
    | error e => exact False.elim
  | error e =>
    cases infoStep env r info ent (s.with o) with
    | ok t' => exact False.elim
    | error e' => exact id

theorem rule (r : Option Req) (info : String) (ent : Ent) : MixesM (ruleM env r info ent) := by
  cases r with
  | none => exact pure
  | some r => exact entity r _ _
end MixesM

omit hp ho in
theorem entitiesM_mixes (s : S) : MixesM (entitiesM env s) := by
  have each : ∀ {α : Type} {f : α → M} {l : List α} {g : M}, (∀ a, MixesM (f a)) → MixesM g → MixesM (thenM (eachM f l) g) :=
    fun hf hg => .thenM (.eachM hf _) hg
  unfold entitiesM kwargM
  refine each (fun a => .rule _ _ _) (each (fun a => .rule _ _ _) (each (fun a => .rule _ _ _) (each (fun c => ?_) (each (fun c => .eachM (fun e => ?_) _)
    (each (fun a => .rule _ _ _) (each (fun a => .rule _ _ _) (each (fun a => .rule _ _ _) (.eachM (fun a => .rule _ _ _) _))))))))
  · cases c with
    | str n => exact .rule _ _ _
    | _ => exact .pure
  · cases c with
    | str n =>
      unfold encodingEntryM
      dsimp only
      by_cases hx : e.1.contains (lowerStr n) = true
      · simp only [hx, if_true]; exact .entity e.2 _ _
      · simp only [hx]; exact .pure
    | bytes t =>
      obtain ⟨k, r⟩ := e
      cases k with
      | text _ => exact .raise _
      | names _ => exact .pure
    | _ => exact .raise _

omit hp ho in
/-- The order of the output has no influence on the minimum versions. -/
theorem minimumVersions_mixes (s : S) (o : List String) (ho : s.out.Perm o) : ShuffledM (minimumVersions env s) (minimumVersions env (s.with o)) := by
  have hp : MixesM (printM env) := fun s o m ho => by
    unfold printM
    dsimp only
    show ShuffledM (if s.has .printv3 then _ else _) (if s.has .printv3 then _ else _)
    cases s.has .printv3 with
    | false => exact ⟨rfl, o, ho, rfl⟩
    | true =>
      have h : Mixes (vv env "print(expr)" (from23 0 0) .hide) (vv env "print(expr)" (from23 0 0) .hide) := print_mixes _ _ _ _ _ _
      replace h := h s o ho
      simp only [if_true]
      revert h
      cases (vv env "print(expr)" (from23 0 0) .hide : V) s with
      | ok t =>
        cases (vv env "print(expr)" (from23 0 0) .hide : V) (s.with o) with
        | ok t' =>
          rintro ⟨o', ho', rfl⟩
          exact MixesM.entity _ none none t o' _ ho'
        | error e => exact False.elim
      | error e =>
        cases (vv env "print(expr)" (from23 0 0) .hide : V) (s.with o) with
        | ok t' => exact False.elim
        | error e' => exact id
  have hf : ∀ f, MixesM (featureM env f) := fun f s o m ho => by
    show ShuffledM (if s.has f.flag then _ else _) (if s.has f.flag then _ else _)
    cases s.has f.flag with
    | false => exact ⟨rfl, o, ho, rfl⟩
    | true => exact MixesM.entity f.req f.info none s o m ho
  exact MixesM.thenM hp (.thenM (.eachM hf _) fun s o m ho => entitiesM_mixes s s o m ho) s o Req.unknown ho

end Vermin
