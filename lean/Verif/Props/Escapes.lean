import Verif.Lemmas.Escapes
import Verif.Props.Imports
import Verif.Props.Append
import Verif.Lemmas.Enum
/-
C111: what a program defines hides what it imports and calls exactly if the definition outlasts the part that makes it.
-/
namespace Vermin.Props
open Vermin Vermin.Py Vermin.Spec Vermin.V

section
variable {env : Env} {p n : Node} {s : S} {x : String}

/-- **C111 (definitions).** The names that are taken as the program's own in the end: those certain to outlast the part that defines them are, and only
those that may outlast it. -/
theorem C111_definitions (h : tour env p S.init = .ok s) : (∀ x, Escapes env true p x → x ∈ s.userDefs) ∧ ∀ x ∈ s.userDefs, Escapes env false p x := by
  obtain ⟨u, o, hv, rfl⟩ := tour_run h
  have low : ∀ x, Escapes env true p x → x ∈ u.userDefs := fun x hx => escapes_runs hx hv
  exact ⟨low, fun x hx => ((visitNode_confines p).1 _ _ hv x hx).resolve_left nofun⟩

theorem escapes_inside {b : Bool} (h : Escapes env b n x) : ∃ m, In m n ∧ Defines m x := by
  induction h with
  | own _ hd _ => exact ⟨_, .self _, hd⟩
  | part _ hk _ _ _ _ ih => obtain ⟨m, h1, h2⟩ := ih; exact ⟨m, .kid hk h1, h2⟩
  | again _ _ hb hk _ ih => obtain ⟨m, h1, h2⟩ := ih; exact ⟨m, .kid (mem_fields hb).1 (.kid hk h1), h2⟩

/-- Without definitions in keyword arguments the two are the same. -/
theorem escapes_sure (hp : NoneInside p) (h : Escapes env false n x) (hn : In n p) : Escapes env true n x := by
  induction h with
  | own hm hd hs => exact .own hm hd hs
  | @part n k x hm hk hu hs _ h ih =>
    refine .part hm hk hu hs (fun _ ho => ?_) (ih (In.trans (.kid hk (.self k)) hn))
    obtain ⟨m, h1, h2⟩ := escapes_inside h
    exact hp n k m x hn ho hk h1 h2
  | @again n b k name x hm hc hb hk _ ih => exact .again hm hc hb hk (ih (In.trans (.kid (mem_fields hb).1 (.kid hk (.self k))) hn))

/-- **C111 (hidden).** A name whose definition is certain to outlast its part is reported neither as a module nor as a member, wherever and however
it is used.  This includes what the methods of a class define for themselves (`C111_method`). -/
theorem C111_hidden (ho : SetOrder env) (h : tour env p S.init = .ok s) (hx : Escapes env true p x) : x ∉ s.modules ∧ x ∉ s.members := by
  obtain ⟨u, o, hv, rfl⟩ := tour_run h
  have hx : (env.order u.userDefs).contains x = true := List.contains_iff_mem.mpr ((ho _).mem_iff.mpr (escapes_runs hx hv))
  refine ⟨fun h => ?_, fun h => ?_⟩ <;>
  · have := (List.mem_filter.mp h).2
    rw [hx] at this
    cases this

theorem addModule_puts {m : String} {l c : Option Nat} {s t : S} (hm : m ∉ s.userDefs) (he : env.cfg.isExcluded m = false)
    (h : addModule env m l c s = .ok t) : m ∈ t.modules := by
  unfold addModule V.rd at h
  have hm : s.userDefs.contains m = false := by simpa using hm
  simp only [hm, he, Bool.false_eq_true, if_false] at h
  cases hc : s.modules.contains m with
  | true =>
    simp only [hc, Bool.not_true, V.when, Bool.false_eq_true, if_false, V.skip] at h
    injection h with h
    subst h
    exact List.contains_iff_mem.mp hc
  | false =>
    simp only [hc, Bool.not_false, V.when, if_true] at h
    rw [upd_run h]
    obtain ⟨d, hd⟩ := addLineCol_with { s with modules := s.modules ++ [m] } (.name m) l c
    rw [hd]
    exact List.mem_append_right _ (.head _)

/-- What is put while the name is not defined in the end remains. -/
theorem remains {g : V} (h : tour env p S.init = .ok s) (ho : SetOrder env) (hr : ReachFlat env n p) (hg : Growing g) (hrun : RunsIn Flat g (visit env n))
    (hx : ¬ Escapes env false p x) :
    ((∀ a b, x ∉ a.userDefs → g a = .ok b → x ∈ b.modules) → x ∈ s.modules) ∧ ((∀ a b, x ∉ a.userDefs → g a = .ok b → x ∈ b.members) → x ∈ s.members) := by
  obtain ⟨u, o, hv, rfl⟩ := tour_run h
  have hu : x ∉ u.userDefs := fun hm => hx (((visitNode_confines p).1 _ _ hv x hm).resolve_left nofun)
  obtain ⟨a, b, _, h2, h3⟩ := reachFlat_runs hr _ _ hv
  obtain ⟨a', b', _, h5, h6⟩ := hrun a b h2
  have hb : x ∉ a'.userDefs := fun hm => hu (h3.defs (show x ∈ b.userDefs from h6.defs (show x ∈ b'.userDefs from (hg _ _ h5).defs hm)))
  have hk : (!(env.order u.userDefs).contains x) = true := by
    rw [Bool.not_eq_true', Bool.eq_false_iff]
    exact fun h => hu ((ho u.userDefs).mem_iff.mp (List.contains_iff_mem.mp h))
  exact ⟨fun h => List.mem_filter.mpr ⟨h3.modules (show x ∈ b.modules from h6.modules (show x ∈ b'.modules from h _ _ hb h5)), hk⟩,
    fun h => List.mem_filter.mpr ⟨h3.members (show x ∈ b.members from h6.members (show x ∈ b'.members from h _ _ hb h5)), hk⟩⟩

/-- **C111 (imports).** `import x` that is in no function or other scope makes `x` one of the modules found, whatever the functions, lambdas,
comprehensions, loops, `with` statements and handlers of the program define for themselves by that name: only definitions that outlast their part count. -/
theorem C111_import (ho : SetOrder env) (h : tour env p S.init = .ok s) (hr : ReachFlat env n p) (hm : ¬ Marked env n) (hn : n.kind = .import)
    {a : Node} (ha : a ∈ n.fields .names) {y : Option String} (hx : a.kind = .alias x y) (he : env.cfg.isExcluded x = false)
    (hd : ¬ Escapes env false p x) : x ∈ s.modules := by
  have hg := closed_growing env n
  have hrun : RunsIn Flat (addModule env x (some n.line) (some (n.col + 7))) (visit env n) := by
    rw [visitMk env n]
    unfold visitAlg
    simp only [hn]
    refine .gate (unmarked hm (by rw [hn]; trivial)) (.eachOf .flat ha ?_ fun b _ => growing_importName env n b)
    unfold importName
    rw [aliasOf_eq hx]
    exact .fst .flat (.fst .flat (.here .flat) (hg.member _ _ trivial)) (growing_alias env n _)
  exact (remains h ho hr (hg.module _ _ trivial) hrun hd).1 fun a b h1 h2 => addModule_puts h1 he h2

/-- **C111 (calls).** The same for the call of a function `x` for which there is a rule. -/
theorem C111_call (ho : SetOrder env) (h : tour env p S.init = .ok s) (hr : ReachFlat env n p) (hm : ¬ Marked env n) (hn : CallsName n x)
    (he : env.cfg.isExcluded x = false) (hk : (env.tables.mem x).isSome = true) (hd : ¬ Escapes env false p x) : x ∈ s.members := by
  have hg := closed_growing env n
  have hrun : RunsIn Flat (addMember env x (some n.line) (some n.col)) (visit env n) := by
    obtain ⟨hk, hf⟩ := hn
    obtain ⟨e, he, hx⟩ := Option.bind_eq_some_iff.mp hf
    obtain ⟨c, hc⟩ := Acting.nameId_iff hx
    have hA : ∀ ev, EmitsIn env (fun _ => True) n ev → (fun _ => True) ev := fun _ _ => trivial
    rw [visitMk env n]
    unfold visitAlg
    simp only [hk]
    rw [Acting.visitCall_name env _ he hc]
    exact .gate (unmarked hm (by rw [hk]; trivial)) (.fst .flat (.snd .flat (growing_push _) (.fst .flat (.fst .flat (.fst .flat (.fst .flat (.here .flat)
      (growing_callCodecs _)) (hg.callSpecial hA ⟨hk, hf⟩)) (hg.checkUnpacking hA)) (gen_growing env n))) growing_pop)
  exact (remains h ho hr (hg.member _ _ trivial) hrun hd).2 fun a b h1 h2 => addMember_puts (by simpa using h1) he hk h2

/-- **C111 (exactly).** For a program without definitions in keyword arguments, an imported module is found exactly if no definition by its name
outlasts the part that makes it. -/
theorem C111_exact (ho : SetOrder env) (h : tour env p S.init = .ok s) (hp : NoneInside p) (hr : ReachFlat env n p) (hm : ¬ Marked env n) (hn : n.kind = .import)
    {a : Node} (ha : a ∈ n.fields .names) {y : Option String} (hx : a.kind = .alias x y) (he : env.cfg.isExcluded x = false) :
    x ∈ s.modules ↔ ¬ Escapes env true p x :=
  ⟨fun h1 h2 => (C111_hidden ho h h2).1 h1, fun h1 => C111_import ho h hr hm hn ha hx he fun h2 => h1 (escapes_sure hp h2 (.self p))⟩

/-- **C111 (exactly, calls).** The same for a function that is called. -/
theorem C111_exact_call (ho : SetOrder env) (h : tour env p S.init = .ok s) (hp : NoneInside p) (hr : ReachFlat env n p) (hm : ¬ Marked env n) (hn : CallsName n x)
    (he : env.cfg.isExcluded x = false) (hk : (env.tables.mem x).isSome = true) : x ∈ s.members ↔ ¬ Escapes env true p x :=
  ⟨fun h1 h2 => (C111_hidden ho h h2).2 h1, fun h1 => C111_call ho h hr hm hn he hk fun h2 => h1 (escapes_sure hp h2 (.self p))⟩

/-- **C111 (methods).** A local variable of a method, and likewise a parameter of it, hides the module and the function of the same name in the whole program: the
statements of a class are looked at once more without their scope (source_visitor.py:1782-1784). -/
theorem C111_method (ho : SetOrder env) (h : tour env p S.init = .ok s) {name : String} {f k m : Node} (hr : ReachFlat env n p) (hm : ¬ Marked env n)
    (hn : n.kind = .classDef name) (hf : f ∈ n.fields .body) (hk : k ∈ f.kids) (hk' : ReachFlat env m k) (hm' : ¬ Marked env m)
    (hd : Introduces m x ∨ (m.kind = .arguments ∧ Defines m x)) : x ∉ s.modules ∧ x ∉ s.members := by
  have up : ∀ {m n}, ReachFlat env m n → Escapes env true m x → Escapes env true n x := fun h he => by
    induction h with
    | self => exact he
    | kid hv hs _ ih => exact .part hv.2.1 hv.1 hv.2.2.2 hs (fun _ => hv.2.2.1) (ih he)
  refine C111_hidden ho h (up hr (.again hm hn hf hk (up hk' ?_)))
  have nf : ∀ {k}, m.kind = k → ¬ Scoped k → (Scoped m.kind → IsFunction m) := fun e h1 h2 => absurd (e ▸ h2) h1
  rcases hd with hd | hd
  · cases hd with
    | function h => exact .own hm' (.inl h) fun _ => ⟨x, h⟩
    | «class» h => exact .own hm' (.inr (.inl h)) (nf h id)
    | «import» h ha hk => exact .own hm' (.inr (.inr (.inl ⟨.inl h, _, ha, _, hk⟩))) (nf h id)
    | importFrom h ha hk => exact .own hm' (.inr (.inr (.inl ⟨.inr ⟨_, h⟩, _, ha, _, hk⟩))) (nf h id)
    | assign h ht hb => exact .own hm' (.inr (.inr (.inr (.inl ⟨h, _, ht, hb⟩)))) (nf h id)
    | single h ht hb => exact .own hm' (.inr (.inr (.inr (.inr (.inl ⟨h, _, ht, hb⟩))))) (by rcases h with h | h | h <;> exact nf h id)
  · exact .own hm' hd.2 (nf hd.1 id)
end

/-! Examples -/

/-- `def f(): argparse = x` -/
def setsArgparse (name : String) : Node := nd .body (.functionDef name) 2 [nd .args .arguments 2 [], nd .body .assign 3 [nd .targets (.name "argparse" .store) 3 [], nm .value "x" 3]]
/-- It in a class -/
def inClass (f : Node) : Node := nd .body (.classDef "A") 2 [f]

instance : DecidablePred Opaque := fun k => by unfold Opaque; split <;> infer_instance

theorem noneInside_of {p : Node} (h : (p.subs.all fun n => !decide (Opaque n.kind) || n.kids.all fun k => k.subs.all fun m => (boundAt m).isNone) = true) : NoneInside p := by
  intro n k m x hn ho hk hm hd
  have h := List.all_eq_true.mp h n (mem_subs hn)
  rw [decide_eq_true ho, Bool.not_true, Bool.false_or] at h
  obtain ⟨i, hi, hx⟩ := defines_bound hd
  have h := List.all_eq_true.mp (List.all_eq_true.mp h k hk) i (mem_subs (In.trans hi hm))
  rw [hx] at h
  cases h

theorem setsArgparse_plain : NoneInside (prog [importArgparse, setsArgparse "f"]) := noneInside_of (by decide +kernel)

theorem setsArgparse_keeps : ¬ Escapes (exampleEnv (Config.init 1)) false (prog [importArgparse, setsArgparse "f"]) "argparse" := by
  intro h
  cases h with
  | own _ hd _ =>
    have hk : (prog [importArgparse, setsArgparse "f"]).kind = .module := rfl
    simp [Defines, DefinesFunction, hk] at hd
  | part _ hk _ _ _ h =>
    have hk : _ ∈ [importArgparse, setsArgparse "f"] := hk
    simp only [List.mem_cons, List.not_mem_nil, or_false] at hk
    rcases hk with rfl | rfl
    · obtain ⟨m, h1, h2⟩ := escapes_inside h
      exact undefined_of (by decide +kernel) m h1 h2
    · have hk : (setsArgparse "f").kind = .functionDef "f" := rfl
      cases h with
      | own _ hd _ => simp [Defines, DefinesFunction, hk] at hd
      | part _ _ _ hs _ _ => exact hs (by rw [hk]; trivial)
      | again _ hn _ _ _ => rw [hk] at hn; cases hn
  | again _ hn _ _ _ => cases hn

/-- `C111_import` applies to it. -/
theorem C111_example (s : S) (h : tour (exampleEnv (Config.init 1)) (prog [importArgparse, setsArgparse "f"]) S.init = .ok s) : "argparse" ∈ s.modules :=
  C111_import (fun l => .refl l) h (.kid ⟨.head _, fun h => h.1.elim, fun h => h.elim, fun h => by obtain ⟨_, h | ⟨⟨x, h | h⟩, _⟩⟩ := h <;> cases h⟩ (fun h => h.elim) (.self importArgparse))
    (fun h => by cases h.2) rfl (a := nd .names (.alias "argparse" none) 1 []) (.head _) rfl rfl setsArgparse_keeps

/-- A function's own `argparse` hides nothing; a method's own does, although it is not visible outside of the method: the requirements of the module are lost. -/
theorem C111_witness : requirement (Config.init 1) (prog [importArgparse, setsArgparse "f"]) = some ⟨some ⟨2, 7⟩, some ⟨3, 2⟩⟩ ∧
    requirement (Config.init 1) (prog [importArgparse, inClass (setsArgparse "f")]) = some ⟨some ⟨0, 0⟩, some ⟨0, 0⟩⟩ := by decide +kernel

end Vermin.Props
