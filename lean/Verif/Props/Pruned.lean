import Verif.Lemmas.Pruned
import Verif.Props.Visit
import Verif.Model.File
/-
C24: statements on marked lines.
-/
namespace Vermin.Props
open Vermin Vermin.Py Vermin.Spec Vermin.V

/-- **C24.** Marked statements, at any depth of the program, do not influence the analysis: without them the visitor ends in the same state, or with
the same exception.  `Pruned` drops statements and clauses of the kinds that are markable.

Missing: statements of the other kinds (`C24_false_return`) and those directly in the body of a class (`C24_false_class`); the text of `--dump`,
which shows the statements. -/
theorem C24_partial (env : Env) (n m : Node) (hp : env.cfg.printVisits = false) (h : Pruned env n m) : tour env m = tour env n := by
  unfold tour
  rw [pruned_visit hp h]

/-- So the results of the file are the same. -/
theorem C24_analyse_partial (env : Env) (n m : Node) (hp : env.cfg.printVisits = false) (h : Pruned env n m) : analyse env m = analyse env n := by
  unfold analyse
  rw [C24_partial env n m hp h]

/-- And the minimum versions of `detect`. -/
theorem C24_detect_partial (cfg : Config) (h : Host) (path : String) (toks : List Tok) (n m : Node) (hp : cfg.printVisits = false)
    (hm : Pruned (Env.make cfg h path toks) n m) : detectSource cfg h path m toks = detectSource cfg h path n toks := by
  unfold detectSource visitSource
  rw [C24_partial (Env.make cfg h path toks) n m hp hm]

/-! ### Examples -/

/-- The third line is marked. -/
def markedEnv : Env := { exampleEnv (Config.init 1) with noLines := [3] }
/-- `x = f""` -/
def fAssign (line : Nat) : Node := nd .body .assign line [nd .targets (.name "x" .store) line [], nd .value .joinedStr line []]

/-- `def f(): if b: [x = f""  # novm]; y` -/
def markedProg (ks : List Node) : Node :=
  prog [nd .body (.functionDef "f") 1 [nd .args .arguments 1 [], nd .body .if 2 (nm .test "b" 2 :: ks ++ [st 4 (nm .value "y" 4)])]]

/-- Without the mark the f-string is found; with it the program is like the one without the statement. -/
theorem C24_witness : Pruned markedEnv (markedProg [fAssign 3]) (markedProg []) ∧ (∃ s, tour markedEnv (markedProg [fAssign 3]) S.init = .ok s ∧ s.flags = []) ∧
    (∃ s, tour (exampleEnv (Config.init 1)) (markedProg [fAssign 3]) S.init = .ok s ∧ s.flags = [.fstrings]) := by
  refine ⟨?_, ⟨_, rfl, by decide +kernel⟩, ⟨_, rfl, by decide +kernel⟩⟩
  exact .node trivial (.into rfl (.node trivial (.keep (.into rfl (.node trivial (.keep (.drop rfl nofun ⟨trivial, .head _⟩ (.keep .nil)))) .nil))) .nil)

/-- The claim is false of statements in the body of a class, which are visited a second time: `class A: x = f""  # novm`. -/
theorem C24_false_class : Marked markedEnv (fAssign 3) ∧
    (∃ s, tour markedEnv (prog [nd .body (.classDef "A") 1 [fAssign 3, nd .body .pass 4 []]]) S.init = .ok s ∧ s.flags = [.fstrings]) ∧
    (∃ s, tour markedEnv (prog [nd .body (.classDef "A") 1 [nd .body .pass 4 []]]) S.init = .ok s ∧ s.flags = []) :=
  ⟨⟨trivial, .head _⟩, ⟨_, rfl, by decide +kernel⟩, ⟨_, rfl, by decide +kernel⟩⟩

/-- The claim is false of the other statements: `def f(): return f""  # novm`. -/
theorem C24_false_return :
    (∃ s, tour markedEnv (prog [nd .body (.functionDef "f") 1 [nd .args .arguments 1 [], nd .body .ret 3 [nd .value .joinedStr 3 []]]]) S.init = .ok s ∧
      s.flags = [.fstrings]) := ⟨_, rfl, by decide +kernel⟩

end Vermin.Props
