import Verif.Props.Settled
/-
Self-documenting expressions in f-strings (C70, C30).
-/
namespace Vermin.Props
open Vermin Vermin.Py Vermin.Spec Vermin.V

/-- `f(x + 1) if not y else [a.b, z["k"], 5 < c <= d]` -/
def writtenExpr : Node := nd .value .ifExp 1
  [nd .test .unaryOp 1 [nd .op (.op .not) 1 [], nm .operand "y"],
   nd .ifBody .call 1 [nm .func "f", nd .args .binOp 1 [nm .left "x", nd .op (.op .add) 1 [], nd .right (.const (.int 1)) 1 []]],
   nd .ifOrelse (.list .load) 1 [attr .elts "a" "b" 1, nd .elts .subscript 1 [nm .value "z", nd .slice (.const (.str "k")) 1 []],
     nd .elts .compare 1 [nd .left (.const (.int 5)) 1 [], nd .ops (.op .lt) 1 [], nd .ops (.op .ltE) 1 [], nm .comparators "c", nm .comparators "d"]]]

/-- `f"v: {f(x + 1) if not y else [a.b, z["k"], 5 < c <= d] = }"` -/
def writtenProg : Node := prog [st 1 (nd .value .joinedStr 1 [
  nd .values (.const (.str "v: f(x + 1) if not y else [a.b, z[\"k\"], 5 < c <= d] = ")) 1 [], nd .values .formattedValue 1 [writtenExpr]])]

theorem writtenExpr_text : Written writtenProg writtenExpr (compact "f(x + 1) if not y else [a.b, z[\"k\"], 5 < c <= d] ".toList) := by
  have h1 : Written writtenProg _ _ := .callArg (n := nd .ifBody .call 1 [nm .func "f", nd .args .binOp 1 [nm .left "x", nd .op (.op .add) 1 [], nd .right (.const (.int 1)) 1 []]])
    rfl rfl rfl rfl rfl rfl (.binOp rfl rfl rfl rfl rfl rfl (.name rfl rfl) (.const rfl rfl (.int 1))) nofun nofun
  have h2 : Written writtenProg _ _ := .unaryOp (n := nd .test .unaryOp 1 [nd .op (.op .not) 1 [], nm .operand "y"]) rfl rfl rfl rfl rfl (.name rfl rfl)
  have h3 : Written writtenProg _ _ := .compare (n := nd .elts .compare 1 [nd .left (.const (.int 5)) 1 [], nd .ops (.op .lt) 1 [], nd .ops (.op .ltE) 1 [], nm .comparators "c", nm .comparators "d"])
    (ops := [.lt, .ltE]) (ts := [compact "c".toList, compact "d".toList]) rfl rfl (.const rfl rfl (.int 5)) rfl
    (by intro q hq; cases hq with | head => exact ⟨rfl, rfl⟩ | tail _ hq => cases hq with | head => exact ⟨rfl, rfl⟩ | tail _ hq => cases hq) rfl
    (by intro q hq; cases hq with | head => exact .name rfl rfl | tail _ hq => cases hq with | head => exact .name rfl rfl | tail _ hq => cases hq)
  have h4 : Written writtenProg _ _ := .subscript (n := nd .elts .subscript 1 [nm .value "z", nd .slice (.const (.str "k")) 1 []]) rfl rfl rfl (.name rfl rfl)
    (.const rfl rfl (.str "k"))
  have h5 : Written writtenProg _ _ := .attr (chain_attr_nd .elts "a" "b" 1) (notAs_of (by decide +kernel))
  have h6 : Written writtenProg _ _ := .list (n := nd .ifOrelse (.list .load) 1 [attr .elts "a" "b" 1, nd .elts .subscript 1 [nm .value "z", nd .slice (.const (.str "k")) 1 []],
     nd .elts .compare 1 [nd .left (.const (.int 5)) 1 [], nd .ops (.op .lt) 1 [], nd .ops (.op .ltE) 1 [], nm .comparators "c", nm .comparators "d"]])
     (ts := [_, _, _]) rfl rfl
     (by intro q hq
         cases hq with
         | head => exact h5
         | tail _ hq => cases hq with
           | head => exact h4
           | tail _ hq => cases hq with
             | head => exact h3
             | tail _ hq => cases hq)
  have := Written.ifExp (p := writtenProg) (n := writtenExpr) rfl rfl rfl rfl h1 h2 h6
  refine Eq.mp ?_ this
  congr 1

/-- The expression is recognised. -/
theorem C70_witness_selfDoc : ∃ s, tour settledEnv writtenProg S.init = .ok s ∧ s.has .fstringsSelfDoc = true := by
  have : (tour settledEnv writtenProg S.init).toBool = true := by decide +kernel
  cases h : tour settledEnv writtenProg S.init with
  | error e => rw [h] at this; cases this
  | ok s =>
    refine ⟨s, rfl, C70_reported settledEnv writtenProg _ _ [] [] _ s h rfl rfl (seen_at 0 rfl rfl (.self _)) (fun h => by cases h.2)
      (.selfDoc (xs := []) (ys := []) (by decide +kernel) rfl rfl
        ⟨_, _, "v: ".toList, "f(x + 1) if not y else [a.b, z[\"k\"], 5 < c <= d] ".toList, [' '], rfl, rfl, rfl, by decide +kernel, by decide, by decide +kernel, writtenExpr_text⟩)⟩

/-- The claim of C30 is false of calls with more than one argument: `f"{f(x, y)=}"` is not recognised, as the arguments are not separated. -/
def callDoc : Node := prog [st 1 (nd .value .joinedStr 1 [nd .values (.const (.str "f(x, y)=")) 1 [],
  nd .values .formattedValue 1 [nd .value .call 1 [nm .func "f", nm .args "x", nm .args "y"]]])]
theorem C30_false_selfDoc_call : ∃ s, tour settledEnv callDoc S.init = .ok s ∧ s.has .fstrings = true ∧ s.has .fstringsSelfDoc = false :=
  ⟨_, rfl, by decide +kernel, by decide +kernel⟩

/-- And of comprehensions with conditions: `f"{[x for x in y if x]=}"`. -/
def compDoc : Node := prog [st 1 (nd .value .joinedStr 1 [nd .values (.const (.str "[x for x in y if x]=")) 1 [],
  nd .values .formattedValue 1 [nd .value .listComp 1 [nm .elt "x", nd .generators (.comprehension false) 1 [nd .target (.name "x" .store) 1 [], nm .iter "y", nm .ifs "x"]]]])]
theorem C30_false_selfDoc_comprehension : ∃ s, tour settledEnv compDoc S.init = .ok s ∧ s.has .fstrings = true ∧ s.has .fstringsSelfDoc = false :=
  ⟨_, rfl, by decide +kernel, by decide +kernel⟩

end Vermin.Props
