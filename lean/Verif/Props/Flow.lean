import Verif.Lemmas.Flow
import Verif.Props.Relaxed
/-
C94: the flow of control has no influence on what is found.
-/
namespace Vermin.Props
open Vermin Vermin.Py Vermin.Spec Vermin.V

/-- **C94.** Statements that differ in the flow of control only are visited alike, one after another: the same state results, which has all findings and the
output, or the same exception. -/
theorem C94_statements {env : Env} (hp : env.cfg.printVisits = false) {l m : List Node} (h : SameFlow env l m) :
    each (visit env) l = each (visit env) m := by
  have key : ∀ l : List Node, visits env l = each (visit env) l := fun l => by
    induction l with
    | nil => rfl
    | cons k l ih => simp only [visits, visitKids, each] at ih ⊢; rw [ih]; rfl
  rw [← key, ← key, visits_flow hp h]

/-- **C94.** So are programs: touring them gives the same result. -/
theorem C94_program {env : Env} (hp : env.cfg.printVisits = false) {i : Info} {l m : List Node} (hi : i.kind = .module) (hl : ∀ k ∈ l ++ m, k.fld = .body)
    (h : SameFlow env l m) : tour env (.mk i l) = tour env (.mk i m) := by
  refine tour_flow hp (.inside ?_)
  have := SameInside.compound (env := env) (i := i) (pre := []) (post := []) (f := .body) (.inl hi) (.inl rfl) hl h
  simpa using this

/-- **C94.** Hence the same is required. -/
theorem C94_requirement {cfg : Config} (hp : cfg.printVisits = false) {l m : List Node} (hl : ∀ k ∈ l ++ m, k.fld = .body) (h : SameFlow (exampleEnv cfg) l m) :
    requirement cfg (prog l) = requirement cfg (prog m) := by
  unfold requirement
  rw [show prog l = .mk ⟨.body, .module, none, 0, 0⟩ l from rfl, C94_program (env := exampleEnv cfg) hp rfl hl h]
  rfl

/-! ### An example -/

/-- `x := 1` -/
def walrus (f : Fld) (line : Nat) : Node := nd f .namedExpr line [nd .target (.name "x" .store) line [], nd .value (.const (.int 1)) line []]

/-- A method whose body is given. -/
def method (body : List Node) : Node := nd .body (.functionDef "f") 2 (nd .args .arguments 2 [] :: body)

/-- ```
class C:
  def f():
    if (x := 1):
      import argparse
      pass
    else:
      return y
``` -/
def branches : List Node := [nd .body (.classDef "C") 1 [method [nd .body .if 3 [walrus .test 3,
  nd .body .import 4 [nd .names (.alias "argparse" none) 4 []], nd .body .pass 5 [], nd .orelse .ret 7 [nm .value "y" 7]]]]]
/-- ```
class C:
  def f():
    (x := 1)
    import argparse
    y
``` -/
def straight : List Node := [nd .body (.classDef "C") 1 [method [nd .body .expr 3 [walrus .value 3],
  nd .body .import 4 [nd .names (.alias "argparse" none) 4 []], nd .body .expr 7 [nm .value "y" 7]]]]

theorem C94_witness : SameFlow (exampleEnv (Config.init 1)) branches straight ∧
    requirement (Config.init 1) (prog branches) = some ⟨none, some ⟨3, 8⟩⟩ := by
  let imp := nd .body .import 4 [nd .names (.alias "argparse" none) 4 []]
  have h1 : SameFlow (exampleEnv (Config.init 1)) _ _ := .cond (i := ⟨.body, .if, some 3, 0, 0⟩) (e := walrus .test 3) (l := [imp, nd .body .pass 5 []])
    (m := [nd .orelse .ret 7 [nm .value "y" 7]]) rfl ⟨3, rfl, List.not_mem_nil⟩ fun _ _ _ _ h => absurd h (by decide)
  have h2 : SameFlow (exampleEnv (Config.init 1)) ([nd .body .expr 3 [walrus .value 3], imp] ++ ([nd .body .pass 5 []] ++ [nd .body .ret 7 [nm .value "y" 7]]))
      ([nd .body .expr 3 [walrus .value 3], imp] ++ ([] ++ [nd .body .expr 7 [nm .value "y" 7]])) :=
    .seq (.refl _) (.seq (.nothing (.inl rfl)) (.plain (i := ⟨.body, .ret, some 7, 0, 0⟩) (.inl rfl)))
  have h3 := SameInside.compound (i := ⟨.body, .functionDef "f", some 2, 0, 0⟩) (pre := [nd .args .arguments 2 []]) (post := []) (f := .body)
    (.inr (.inl ⟨_, .inl rfl⟩)) (.inl rfl) (by simp [imp, nd, asStmt, putIn, Node.fld, Node.info]) (.trans h1 h2)
  have h4 := SameInside.cls (i := ⟨.body, .classDef "C", some 1, 0, 0⟩) (pre := []) (post := []) rfl rfl rfl h3
  exact ⟨.inside h4, by decide +kernel⟩

/-! ### What is left out -/

/-- ```
class C:
  if 1:
    def f(argparse): pass
import argparse
``` -/
def classIf : Node := prog [nd .body (.classDef "C") 1 [nd .body .if 2 [nd .test (.const (.int 1)) 2 [],
    nd .body (.functionDef "f") 3 [nd .args .arguments 3 [nd .args (.arg "argparse") 3 []], nd .body .pass 3 []]]],
  nd .body .import 4 [nd .names (.alias "argparse" none) 4 []]]
/-- The same without `if`. -/
def classFlat : Node := prog [nd .body (.classDef "C") 1 [nd .body .expr 2 [nd .value (.const (.int 1)) 2 []],
    nd .body (.functionDef "f") 3 [nd .args .arguments 3 [nd .args (.arg "argparse") 3 []], nd .body .pass 3 []]],
  nd .body .import 4 [nd .names (.alias "argparse" none) 4 []]]

/-- Why statements directly in the body of a class are left out: they are visited once more, without their own visitor, by which parameters of methods become
names that the program defines. -/
theorem C94_class : requirement (Config.init 1) classIf = some ⟨some ⟨2, 7⟩, some ⟨3, 2⟩⟩ ∧
    requirement (Config.init 1) classFlat = some ⟨some ⟨0, 0⟩, some ⟨0, 0⟩⟩ := by decide +kernel

/-- `if 1: ...` around an import, and without. -/
def importIf : Node := prog [nd .body .if 1 [nd .test (.const (.int 1)) 1 [], nd .body .import 2 [nd .names (.alias "argparse" none) 2 []]]]
def importFlat : Node := prog [nd .body .expr 1 [nd .value (.const (.int 1)) 1 []], nd .body .import 2 [nd .names (.alias "argparse" none) 2 []]]

/-- Why conditions on lines marked by comments are left out: what is in them is excluded too. -/
theorem C94_marked : requirementWithout [1] importIf = some ⟨some ⟨0, 0⟩, some ⟨0, 0⟩⟩ ∧
    requirementWithout [1] importFlat = some ⟨some ⟨2, 7⟩, some ⟨3, 2⟩⟩ := by decide +kernel

/-- `def __dir__(): pass` on line 2 -/
def dirFunc : Node := nd .body (.functionDef "__dir__") 2 [nd .args .arguments 2 [], nd .body .pass 2 []]
/-- Whether `__dir__` of the module is found. -/
def findsDir (n : Node) : Option Bool :=
  match tour { exampleEnv (Config.init 1) with path := "__init__.py" } n S.init with
  | .error _ => none
  | .ok s => some (s.flags.contains .moduleDirFunc)

/-- Why `__dir__` and `__getattr__` of a file `__init__.py` are left out: they are found only where they are not in another statement. -/
theorem C94_dir : findsDir (prog [nd .body .if 1 [nd .test (.const (.int 1)) 1 [], dirFunc]]) = some false ∧
    findsDir (prog [nd .body .expr 1 [nd .value (.const (.int 1)) 1 []], dirFunc]) = some true := by decide +kernel

end Vermin.Props
