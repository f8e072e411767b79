import Verif.Lemmas.Seen
import Verif.Props.Visit
/-
What is certain to be found: constructs (C30) and definitions (C27).
-/
namespace Vermin.Props
open Vermin Vermin.Py Vermin.Spec Vermin.V

/-! ### C30: every construct is reported -/

/-- **C30.** A construct of one of the features of `Spec.certain` is reported, wherever in the program it is: any part that is
not below a marked line or in an unevaluated annotation is looked at, including keyword arguments of functions that the program does not define (`Spec.Seen`).

Missing: the features that are not in `certain`: their constructs depend on names or on what is around them (C70), and some are missed
(`C30_false_await`, `C30_false_asyncGenerator`, `C30_false_literal`). -/
theorem C30_reported_partial (env : Env) (n m : Node) (f : Flag) (s : S) (h : tour env n S.init = .ok s) (hr : Seen env n m n)
    (hm : ¬ Marked env m) (hf : f ∈ certain) (hc : Construct env f m) : s.has f = true := by
  obtain ⟨u, o, hv, rfl⟩ := tour_run h
  obtain ⟨a, b, h2, h3⟩ := seen_visited hr hv
  obtain ⟨a', b', h1', h2', h3'⟩ := certain_sets hf hc hm _ _ h2
  rw [upd_run h2'] at h3'
  have := h3.flags (h3'.flags (mem_set _ f))
  exact List.contains_iff_mem.mpr this

/-- The same of the visit from any state: nothing found before prevents it. -/
theorem C30_visit (env : Env) (n m : Node) (f : Flag) (s t : S) (h : visit env n s = .ok t) (hr : Reach env m n)
    (hm : ¬ Marked env m) (hf : f ∈ certain) (hc : Construct env f m) : t.has f = true := by
  obtain ⟨a, b, h1, h2, h3⟩ := reach_runs hr _ _ h
  obtain ⟨a', b', h1', h2', h3'⟩ := certain_sets hf hc hm _ _ h2
  rw [upd_run h2'] at h3'
  have := h3.flags (h3'.flags (mem_set _ f))
  exact List.contains_iff_mem.mpr this

/-- Example: a set literal in a comprehension in a decorated method. -/
def decorated : Node := prog [nd .body (.classDef "A") 1 [nd .body (.functionDef "f") 3 [nd .args .arguments 3 [],
  nd .body .expr 4 [nd .value .listComp 4 [nd .elt .set 4 [nm .elts "x"], nd .generators (.comprehension false) 4
    [nd .target (.name "x" .store) 4 [], nm .iter "y"]]], nm .decoratorList "d" 2]]]
theorem C30_witness : ∃ m s, Reach (exampleEnv (Config.init 1)) m decorated ∧ ¬ Marked (exampleEnv (Config.init 1)) m ∧
    Construct (exampleEnv (Config.init 1)) .setLiterals m ∧ tour (exampleEnv (Config.init 1)) decorated S.init = .ok s ∧ s.has .setLiterals = true := by
  refine ⟨nd .elt .set 4 [nm .elts "x"], _, ?_, by simp [Marked, exampleEnv], rfl, rfl, by decide +kernel⟩
  refine .kid ⟨List.mem_of_getElem? (i := 0) rfl, by simp [Marked, exampleEnv], id, ?_⟩ ?_
  · rintro ⟨_, h | ⟨⟨_, h | h⟩, h'⟩⟩ <;> first | (cases h; done) | (cases h'; done)
  refine .kid ⟨List.mem_of_getElem? (i := 0) rfl, by simp [Marked, exampleEnv], id, ?_⟩ ?_
  · rintro ⟨_, h | ⟨⟨_, h | h⟩, h'⟩⟩ <;> first | (cases h; done) | (cases h'; done)
  refine .kid ⟨List.mem_of_getElem? (i := 1) rfl, by simp [Marked, exampleEnv], id, ?_⟩ ?_
  · rintro ⟨_, h | ⟨⟨_, h | h⟩, h'⟩⟩ <;> first | (cases h; done) | (cases h'; done)
  refine .kid ⟨List.mem_of_getElem? (i := 0) rfl, by simp [Marked, exampleEnv], id, ?_⟩ ?_
  · rintro ⟨_, h | ⟨⟨_, h | h⟩, h'⟩⟩ <;> first | (cases h; done) | (cases h'; done)
  refine .kid ⟨List.mem_of_getElem? (i := 0) rfl, by simp [Marked, exampleEnv], id, ?_⟩ ?_
  · rintro ⟨_, h | ⟨⟨_, h | h⟩, h'⟩⟩ <;> first | (cases h; done) | (cases h'; done)
  exact .self _

/-! ### C27: definitions of the module -/

/-- **C27.** A name that the program defines at the level of the module, before or after its uses, is reported neither as a
module nor as a member.  `env.order` lists the names in any order.

Missing: names defined by the targets or in the bodies of loops and `with` statements or in handlers, relative imports and
definitions on marked lines (`C27_false_for`, `C27_false_relative`). -/
theorem C27_definitions_partial (env : Env) (n m : Node) (x : String) (s : S) (h : tour env n S.init = .ok s)
    (ho : ∀ l, (env.order l).Perm l) (hr : ReachFlat env m n) (hm : ¬ Marked env m) (hi : Introduces m x) : x ∉ s.modules ∧ x ∉ s.members := by
  obtain ⟨u, o, hv, rfl⟩ := tour_run h
  obtain ⟨a, b, _, h2, h3⟩ := reachFlat_runs hr _ _ hv
  obtain ⟨a', b', _, h2', h3'⟩ := introduces_runs hi hm _ _ h2
  rw [upd_run h2'] at h3'
  have hx : x ∈ u.userDefs := h3.defs (h3'.defs (mem_addSet_self _ _))
  have hx : (env.order u.userDefs).contains x = true := List.contains_iff_mem.mpr ((ho _).mem_iff.mpr hx)
  refine ⟨fun h => ?_, fun h => ?_⟩ <;>
  · have := (List.mem_filter.mp h).2
    rw [hx] at this
    cases this

/-- An environment that knows the member `all`. -/
def allEnv : Env := { exampleEnv (Config.init 1) with
  tables := { (exampleEnv (Config.init 1)).tables with mem := fun m => if m = "all" then some ⟨some ⟨2, 5⟩, some ⟨3, 0⟩⟩ else none } }

/-- A call of `all` in a statement on a line -/
def callAll (line : Nat) : Node := st line (nd .value .call line [nm .func "all" line])

/-- Example: `all()` before and after `all, x = y`. -/
theorem C27_witness : (∃ s, tour allEnv (prog [callAll 1, nd .body .assign 2 [nd .targets (.tuple .store) 2 [nd .elts (.name "all" .store) 2 [],
      nd .elts (.name "x" .store) 2 []], nm .value "y"], callAll 3]) S.init = .ok s ∧ s.members = []) ∧
    (∃ s, tour allEnv (prog [callAll 1]) S.init = .ok s ∧ s.members = ["all"]) ∧
    Introduces (nd .body .assign 2 [nd .targets (.tuple .store) 2 [nd .elts (.name "all" .store) 2 [], nd .elts (.name "x" .store) 2 []], nm .value "y"]) "all" :=
  ⟨⟨_, rfl, by decide +kernel⟩, ⟨_, rfl, by decide +kernel⟩, .assign rfl (.head _) (.part nofun nofun (.head _) (.name rfl))⟩

/-- The claim is false of names that a loop defines: `for all in y: pass` followed by `all()`. -/
theorem C27_false_for : ∃ s, tour allEnv (prog [nd .body .for 1 [nd .target (.name "all" .store) 1 [], nm .iter "y", nd .body .pass 1 []], callAll 2]) S.init
    = .ok s ∧ s.members = ["all"] := ⟨_, rfl, by decide +kernel⟩
/-- The claim is false of relative imports: `from .m import all` followed by `all()`. -/
theorem C27_false_relative : ∃ s, tour allEnv (prog [nd .body (.importFrom (some "m") 1) 1 [nd .names (.alias "all" none) 1 []], callAll 2]) S.init
    = .ok s ∧ s.members = ["all"] := ⟨_, rfl, by decide +kernel⟩

end Vermin.Props
