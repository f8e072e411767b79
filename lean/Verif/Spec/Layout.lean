import Verif.Spec.Constructs
/-
Specification of programs that differ in their layout only.
-/
namespace Vermin.Spec
open Vermin Vermin.Py

/-- New positions and identities for the nodes of a program. -/
structure Layout where
  line : Info → Option Nat
  col : Info → Nat
  uid : Nat → Nat

mutual
/-- The program with every node at its new position. -/
def _root_.Vermin.Node.moved (g : Layout) : Node → Node
  | .mk i ks => .mk { i with line := g.line i, col := g.col i, uid := g.uid i.uid } (movedAll g ks)
def movedAll (g : Layout) : List Node → List Node
  | [] => []
  | k :: ks => k.moved g :: movedAll g ks
end

/-- The line `l` of the source has the text `with` and, after white space and backslashes that may go on to the following
lines (`l + 10` of them at most), `(`. -/
def WithParenHere (env : Env) (l : Nat) : Prop :=
  ∃ t all first rest a ws b, env.source = some t ∧ Lines t all ∧ 1 ≤ l ∧ (all.drop (l - 1)).take (l + 11) = first :: rest ∧
    Py.join ['\n'] (first :: rest) = a ++ "with".toList ++ ws ++ '(' :: b ∧ (∀ c ∈ ws, Space c ∨ c = '\\') ∧ a.length < first.length

/-- Whether comments exclude the line of the node, and what the source says about handlers and `with` statements of several
items, are the same for the node `k` of a program visited under `env` and the node `k'` of another one visited under `env'`. -/
structure SameSource (env env' : Env) (k k' : Node) : Prop where
  excluded : k'.line ∈ env'.noLines ↔ k.line ∈ env.noLines
  star : (∃ x, k.kind = .exceptHandler x) → (ExceptStarText env' k'.line k'.col ↔ ExceptStarText env k.line k.col)
  paren : k.kind = .with ∨ k.kind = .asyncWith → 2 ≤ (k.fields .items).length → 1 ≤ k.line ∧ 1 ≤ k'.line ∧ (WithParenHere env' k'.line ↔ WithParenHere env k.line)

end Vermin.Spec
