import Verif.Lemmas.Display
/-
Visits of the same file at two paths: one may be that of a file `__init__.py`, the other not.
-/
namespace Vermin
open Py V Spec

/-- The features looked for in files `__init__.py` only; they lead to no requirement. -/
def Flag.ofPackage (f : Flag) : Prop := f = .moduleDirFunc ∨ f = .moduleGetattrFunc

/-- The same features, apart from those of packages. -/
def SameFlags (l l' : List Flag) : Prop := ∀ f : Flag, ¬ f.ofPackage → (f ∈ l' ↔ f ∈ l)

/-- The state with another output and other features. -/
def S.marked (s : S) (o : List String) (fl : List Flag) : S := { s with out := o, flags := fl }

/-- The same error, or states that differ in the output and in features of packages. -/
def SameButRole : Except Err S → Except Err S → Prop
  | .ok t, .ok t' => ∃ o fl, t' = t.marked o fl ∧ SameFlags t.flags fl
  | .error e, .error e' => e = e'
  | _, _ => False

/-- Actions that do the same except for output and features of packages. -/
def Likened (v v' : V) : Prop := ∀ s o fl, SameFlags s.flags fl → SameButRole (v s) (v' (s.marked o fl))

theorem set_mem (l : List Flag) (f g : Flag) : g ∈ (if l.contains f then l else l ++ [f]) ↔ g ∈ l ∨ g = f := by
  split
  · rename_i hc
    exact ⟨.inl, fun h => h.elim id fun h => h ▸ List.contains_iff_mem.mp hc⟩
  · simp

namespace Likened
theorem skip : Likened skip skip := fun _ o fl h => ⟨o, fl, rfl, h⟩
theorem seq {a a' b b' : V} (ha : Likened a a') (hb : Likened b b') : Likened (a ;; b) (a' ;; b') := fun s o fl hs => by
  have h := ha s o fl hs
  show SameButRole (V.seq a b s) (V.seq a' b' _)
  unfold V.seq
  revert h
  cases a s with
  | ok t =>
    cases a' (s.marked o fl) with
    | ok t' => rintro ⟨o', fl', rfl, h'⟩; exact hb t o' fl' h'
    | error e => exact False.elim
  | error e =>
    cases a' (s.marked o fl) with
    | ok t' => exact False.elim
    | error e' => exact id
theorem rd {f f' : S → V} (h : ∀ s o fl, Likened (f s) (f' (s.marked o fl))) : Likened (V.rd f) (V.rd f') := fun s o fl hs => h s o fl s o fl hs
theorem raise (e : Err) : Likened (fun _ => .error e) (fun _ => .error e) := fun _ _ _ _ => rfl
theorem act {f f' : S → S} (h : ∀ s o fl, ∃ o', f' (s.marked o fl) = (f s).marked o' fl) (hf : ∀ s, (f s).flags = s.flags) : Likened (upd f) (upd f') :=
  fun s o fl hs => by
    obtain ⟨o', h'⟩ := h s o fl
    exact ⟨o', fl, h', by rw [hf]; exact hs⟩
theorem flag (f : Flag) : Likened (setFlag f) (setFlag f) := fun s o fl hs =>
  ⟨o, if fl.contains f then fl else fl ++ [f], rfl, fun g hg => by
    show g ∈ _ ↔ g ∈ (if s.flags.contains f then s.flags else s.flags ++ [f])
    rw [set_mem, set_mem, hs g hg]⟩
theorem when {c : Bool} {a a' : V} (h : Likened a a') : Likened (when c a) (when c a') := by
  cases c with
  | true => exact h
  | false => exact skip
theorem ite {c : Prop} [Decidable c] {a a' b b' : V} (ha : Likened a a') (hb : Likened b b') : Likened (if c then a else b) (if c then a' else b') := by
  split
  · exact ha
  · exact hb
theorem scope {a a' : V} (h : Likened a a') : Likened (inScope a) (inScope a') := rd fun s _ _ => seq h (act (fun t o fl => ⟨o, rfl⟩) fun _ => rfl)
theorem each {α : Type} {f f' : α → V} (h : ∀ x, Likened (f x) (f' x)) : ∀ l, Likened (V.each f l) (V.each f' l)
  | [] => skip
  | x :: l => seq (h x) (each h l)
/-- Actions that print and find features of packages at most. -/
theorem mild {v v' : V} (h : ∀ s, ∃ o fl, v s = .ok (s.marked o fl) ∧ SameFlags s.flags fl) (h' : ∀ s, ∃ o fl, v' s = .ok (s.marked o fl) ∧ SameFlags s.flags fl) :
    Likened v v' := fun s o fl hs => by
  obtain ⟨p, k, hp, hk⟩ := h s
  obtain ⟨p', k', hp', hk'⟩ := h' (s.marked o fl)
  rw [hp, hp']
  refine ⟨p', k', rfl, fun f hf => ?_⟩
  show f ∈ k' ↔ f ∈ k
  rw [hk f hf, hk' f hf]
  exact hs f hf
end Likened

/-- The same file at another path -/
def Env.moved (env : Env) (path : String) : Display := { env.display with path := some path }

theorem verbosePrint_mild {env : Env} (h : TargetsOk env) (n msg ent line versions plural) (s : S) :
    ∃ o fl, verbosePrint env n msg ent line versions plural s = .ok (s.marked o fl) ∧ SameFlags s.flags fl := by
  obtain ⟨o, ho⟩ := verbosePrint_quiet h n msg ent line versions plural s
  exact ⟨o, s.flags, ho, fun _ _ => Iff.rfl⟩

theorem found_mild {env : Env} (h : TargetsOk env) {f : Flag} (hf : f.ofPackage) (msg vs line pl) (s : S) :
    ∃ o fl, found env f msg vs line pl s = .ok (s.marked o fl) ∧ SameFlags s.flags fl := by
  obtain ⟨o, ho⟩ := verbosePrint_quiet h 2 msg none line vs pl (s.set f)
  refine ⟨o, (s.set f).flags, ?_, fun g hg => ?_⟩
  · show V.seq _ _ s = _
    unfold V.seq
    exact ho
  · show g ∈ (if s.flags.contains f then s.flags else s.flags ++ [f]) ↔ _
    rw [set_mem]
    exact ⟨fun h => h.elim id fun h => absurd (h ▸ hf) hg, .inl⟩

variable {env : Env} {path : String}

theorem targets_moved (h : TargetsOk env) : TargetsOk (env.show (env.moved path)) := h

theorem print_likened (h : TargetsOk env) (l msg ent line vs pl) :
    Likened (verbosePrint env l msg ent line vs pl) (verbosePrint (env.show (env.moved path)) l msg ent line vs pl) :=
  .mild (verbosePrint_mild h _ _ _ _ _ _) (verbosePrint_mild (targets_moved h) _ _ _ _ _ _)

theorem found_likened (h : TargetsOk env) (f msg vs line pl) : Likened (found env f msg vs line pl) (found (env.show (env.moved path)) f msg vs line pl) :=
  .seq (.flag f) (print_likened h _ _ _ _ _ _)

theorem enter_likened (m : Node) : Likened (genEnter env m) (genEnter (env.show (env.moved path)) m) := by
  refine .seq (.seq ?_ (.act (fun s o fl => ⟨o, rfl⟩) fun _ => rfl)) ?_
  · cases m.info.line with
    | none => exact .skip
    | some l => exact .act (fun s o fl => ⟨o, rfl⟩) fun _ => rfl
  · have key : ∀ (env : Env) (s : S), ∃ o fl, (V.when env.cfg.printVisits
        (V.rd fun s => nprintV env (String.ofList ((List.replicate s.depth "| ".toList).flatten) ++ env.dump m)) : V) s = .ok (s.marked o fl) ∧ SameFlags s.flags fl := by
      intro env s
      cases env.cfg.printVisits with
      | false => exact ⟨s.out, s.flags, rfl, fun _ _ => Iff.rfl⟩
      | true =>
        show ∃ o fl, nprintV env _ s = _ ∧ _
        unfold nprintV
        cases env.cfg.quiet with
        | true => exact ⟨s.out, s.flags, rfl, fun _ _ => Iff.rfl⟩
        | false => exact ⟨_, s.flags, rfl, fun _ _ => Iff.rfl⟩
    exact .mild (key env) (key (env.show (env.moved path)))

theorem dirFuncs_mild {env : Env} (h : TargetsOk env) (n : Node) (x : String) (s : S) :
    ∃ o fl, dirFuncs env n x s = .ok (s.marked o fl) ∧ SameFlags s.flags fl := by
  have hid : ∃ o fl, (V.skip s : Except Err S) = .ok (s.marked o fl) ∧ SameFlags s.flags fl := ⟨s.out, s.flags, rfl, fun _ _ => Iff.rfl⟩
  unfold dirFuncs V.opt
  cases n.field .args with
  | none => exact hid
  | some args =>
    show ∃ o fl, V.when _ _ s = _ ∧ _
    cases (decide (s.depth = 1) && env.isInitFile && (args.fields .posonlyargs).isEmpty && (args.fields .kwonlyargs).isEmpty && (args.field .kwarg).isNone) with
    | false => exact hid
    | true =>
      dsimp only [V.when]
      rw [if_pos rfl]
      split
      · exact found_mild h (.inl rfl) _ _ _ _ s
      · cases decide (x = "__getattr__" ∧ (args.fields .args).length = 1) with
        | false => exact hid
        | true => exact found_mild h (.inr rfl) _ _ _ _ s

theorem module_likened (h : TargetsOk env) (m : String) (l c) : Likened (addModule env m l c) (addModule (env.show (env.moved path)) m l c) :=
  .rd fun s o i => .ite (print_likened h _ _ _ _ _ _) (.ite (print_likened h _ _ _ _ _ _) (.when (.act (fun s o i => by
    refine ⟨o, ?_⟩
    cases l <;> rfl) fun s => by cases l <;> rfl)))
theorem member_likened (h : TargetsOk env) (m : String) (l c) : Likened (addMember env m l c) (addMember (env.show (env.moved path)) m l c) :=
  .rd fun s o i => .ite (print_likened h _ _ _ _ _ _) (.ite (print_likened h _ _ _ _ _ _) (.when (.act (fun s o i => by
    refine ⟨o, ?_⟩
    cases l <;> rfl) fun s => by cases l <;> rfl)))
theorem encoding_likened (h : TargetsOk env) (c : Const) (l) : Likened (addEncoding env c l) (addEncoding (env.show (env.moved path)) c l) :=
  .ite (print_likened h _ _ _ _ _ _) (.act (fun s o i => ⟨o, rfl⟩) fun _ => rfl)
theorem rdMods_likened {f f' : S → V} (hf : ∀ s x, x.modules = s.modules → (fun _ : S => True) s → Likened (f s) (f' (s.withOut x))) :
    Likened (V.rd f) (V.rd f') :=
  .rd fun s o fl => hf s { s.findings with out := o, flags := fl } rfl trivial
theorem rd_likened {f f' : S → V} (hf : ∀ s x, (fun _ : S => True) s → Likened (f s) (f' (s.withOut x))) : Likened (V.rd f) (V.rd f') :=
  rdMods_likened fun s x _ h => hf s x h

/-- Where a file lies has no influence on visits, apart from features of packages. -/
theorem visiting_likened (h : TargetsOk env) (n : Node) :
    Visiting env (env.moved path) n (fun _ => True) Likened (fun _ => True) where
  skip := .skip
  seq ha hb := ha.seq hb
  rd := rd_likened
  raise _ := .raise _
  note _ _ _ _ _ _ := print_likened h _ _ _ _ _ _
  mark _ _ := .flag _
  says _ _ _ _ _ _ _ _ := .seq (.flag _) (print_likened h _ _ _ _ _ _)
  saysFormat _ := .seq (print_likened h _ _ _ _ _ _) (.flag _)
  saysAnnotations _ _ ha := .seq (.seq ha (.flag _)) (.seq (.flag _) (print_likened h _ _ _ _ _ _))
  moduleAt _ _ _ _ := module_likened h _ _ _
  memberAt _ _ _ _ := member_likened h _ _ _
  kwarg _ _ := .rd fun s o i => .ite (print_likened h _ _ _ _ _ _) (.ite (print_likened h _ _ _ _ _ _) (.when (.act (fun s o i => ⟨o, rfl⟩) fun _ => rfl)))
  decoAt _ _ _ := .rd fun s o i => .ite (print_likened h _ _ _ _ _ _) (.ite (print_likened h _ _ _ _ _ _) (.when (.act (fun s o i => ⟨o, rfl⟩) fun _ => rfl)))
  strftimeAt _ _ _ := .act (fun s o i => ⟨o, rfl⟩) fun _ => rfl
  bytesDirAt _ _ _ := .act (fun s o i => ⟨o, rfl⟩) fun _ => rfl
  typecodeAt _ _ _ _ := .rd fun s o i => .when (.act (fun s o i => ⟨o, rfl⟩) fun _ => rfl)
  errorHandlerAt _ _ _ := .ite (print_likened h _ _ _ _ _ _) (.act (fun s o i => ⟨o, rfl⟩) fun _ => rfl)
  encodingAt _ _ _ := encoding_likened h _ _
  attrMods := attrMods_of (Q := Likened) (d := env.moved path) (A := fun _ => True) (n := n) .skip .seq rdMods_likened (fun l c _ _ => module_likened h _ _ _) (fun l c _ _ => member_likened h _ _ _)
  kwExcl _ _ := rfl
  feature := feature_of (Q := Likened) (d := env.moved path) (A := fun _ => True) (n := n) (fun _ => rfl) .skip (fun _ => .raise _) (fun _ _ _ _ _ _ _ _ => .seq (.flag _) (print_likened h _ _ _ _ _ _))
  dirs _ := .mild (dirFuncs_mild h n _) (dirFuncs_mild (targets_moved h) n _)
  longType := longType_of (Q := Likened) (d := env.moved path) (A := fun _ => True) (fun _ => rfl) rd_likened (fun _ _ _ _ _ _ => print_likened h _ _ _ _ _ _) (fun _ => found_likened h _ _ _ _ _)
  encodingIdx := encodingIdx_of (Q := Likened) (d := env.moved path) (A := fun _ => True) (fun _ => rfl) .skip .seq (fun l _ _ => encoding_likened h _ _)
  userDef _ := .act (fun s o i => ⟨o, rfl⟩) fun _ => rfl
  nameRes _ := .act (fun s o i => ⟨o, rfl⟩) fun _ => rfl
  nameResType _ := .act (fun s o i => ⟨o, rfl⟩) fun _ => rfl
  moduleAs _ := .act (fun s o i => ⟨o, rfl⟩) fun _ => rfl
  importMem _ := .act (fun s o i => ⟨o, rfl⟩) fun _ => rfl
  callScope _ ha := .seq (.seq (.act (fun s o i => ⟨o, rfl⟩) fun _ => rfl) ha) (.act (fun s o i => ⟨o, rfl⟩) fun _ => rfl)
  pop _ := .act (fun s o i => ⟨o, rfl⟩) fun _ => rfl
  yield _ := .act (fun s o i => ⟨o, rfl⟩) fun _ => rfl
  await _ := .act (fun s o i => ⟨o, rfl⟩) fun _ => rfl
  ellipsis _ := .act (fun s o i => ⟨o, rfl⟩) fun _ => rfl
  gen m _ _ ha := .seq (.seq (enter_likened m) ha) (.act (fun s o i => ⟨o, rfl⟩) fun _ => rfl)
  inScope ha := .scope ha
  yieldScope ha := .rd fun s o i => .seq ha (.act (fun s o i => ⟨o, rfl⟩) fun _ => rfl)
  asyncScope _ _ ha := .rd fun s o i => .seq (.seq (.seq ha (found_likened h _ _ _ _ _))
    (.rd fun s o i => .when (found_likened h _ _ _ _ _))) (.act (fun s o i => ⟨o, rfl⟩) fun _ => rfl)
  compScope _ ha := .rd fun s o i => .seq (.seq ha (.rd fun s o i => .when (found_likened h _ _ _ _ _)))
    (.act (fun s o i => ⟨o, rfl⟩) fun _ => rfl)
  forScope _ ha hb hc := .seq (.act (fun s o i => ⟨o, rfl⟩) fun _ => rfl) (.scope (.seq (.seq (.seq ha hb) hc) (.act (fun s o i => ⟨o, rfl⟩) fun _ => rfl)))
  whileScope _ ha := .seq (.seq (.act (fun s o i => ⟨o, rfl⟩) fun _ => rfl) ha) (.act (fun s o i => ⟨o, rfl⟩) fun _ => rfl)
  tryScope _ ha hb := .seq (.seq (.seq (.act (fun s o i => ⟨o, rfl⟩) fun _ => rfl) ha) (.act (fun s o i => ⟨o, rfl⟩) fun _ => rfl)) hb

theorem tour_likened (h : TargetsOk env) (n : Node) : Likened (tour env n) (tour (env.show (env.moved path)) n) := by
  refine .seq (visit_visiting (I := fun _ _ => True) (Q := fun _ => Likened) (A := fun _ _ => True) (visiting_likened h) (fun _ _ _ => trivial)
    (fun _ _ _ _ _ h => h) n) (.rd fun s o i => .each (fun u => .rd fun s o i => ?_) _)
  refine .seq (.seq (.seq (.each (fun _ => ?_) _) ?_) (.each (fun _ => ?_) _)) ?_
  · exact print_likened h _ _ _ _ _ _
  · exact .act (fun s o i => ⟨o, rfl⟩) fun _ => rfl
  · exact print_likened h _ _ _ _ _ _
  · exact .act (fun s o i => ⟨o, rfl⟩) fun _ => rfl

end Vermin
