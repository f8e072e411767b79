import Verif.Spec.Nodes
/-
Specification of trees of Python 3.8.  Up to 3.8 an index is within `ast.Index`, and several of which one is a slice are within
`ast.ExtSlice`; from 3.9 on an index is there by itself, and several are an `ast.Tuple`.
-/
namespace Vermin.Spec
open Vermin Vermin.Py

/-- The same node in another field. -/
def putIn (f : Fld) : Node → Node
  | .mk i ks => .mk { i with fld := f } ks

mutual
/-- What Python 3.9 has in place of a node of 3.8. -/
def modern : Node → Node
  | .mk i ks =>
    match i.kind, modernAll ks with
    | .index, m :: _ => putIn i.fld m
    | .extSlice, ms => .mk { i with kind := .tuple .load } (ms.map (putIn .elts))
    | _, ms => .mk i ms
def modernAll : List Node → List Node
  | [] => []
  | k :: ks => modern k :: modernAll ks
end

/-- Breadth first the nodes are the same in Python 3.9, except for those of `ast.Index`.  (The field a node is in is of no account.) -/
def SameWalk (n : Node) : Prop :=
  (walk (modern n)).map (putIn .value) = ((walk n).filter fun m => decide (m.kind ≠ .index)).map fun m => putIn .value (modern m)

/-- A node of a program of Python 3.8. -/
structure OldNode (n : Node) : Prop where
  /-- not several subscripts of which one is a slice -/
  slices : n.kind ≠ .extSlice
  /-- `ast.Index` is the slice of a subscript and has no position -/
  index : n.kind = .index → n.fld = .slice ∧ n.info.line = none
  /-- it has a value, which is not `True` or `False` -/
  value : n.kind = .index → ∃ w, n.kids = [w] ∧ w.fld = .value ∧ w.kind ≠ .index ∧ ∀ b, w.kind ≠ .const (.bool b)
  /-- no statements are in it -/
  functions : n.kind = .index → ∀ m, In m n → ∀ x, m.kind ≠ .functionDef x ∧ m.kind ≠ .asyncFunctionDef x
  subscript : ∀ k ∈ n.kids, k.kind = .index → n.kind = .subscript
  /-- names are made up from the nodes breadth first -/
  attrs : ∀ a, n.kind = .attribute a → SameWalk n
  params : ∀ as, n.field .args = some as → ∀ a ∈ as.fields .args, ∀ t, a.field .annotation = some t → SameWalk t
  raised : n.kind = .raise → ∀ e, n.field .exc = some e ∨ n.field .cause = some e → SameWalk e
  handled : ∀ x, n.kind = .exceptHandler x → ∀ e, n.field .type = some e → SameWalk e

/-- A tree of such nodes. -/
def Old (n : Node) : Prop := ∀ m, In m n → OldNode m

end Vermin.Spec
