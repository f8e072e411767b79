import Verif.Lemmas.Enum
import Verif.Props.Keywords
/-
Examples and counterexamples for C37, C56, C59 and C60.
-/
namespace Vermin.Props
open Vermin Vermin.Py Vermin.Spec Vermin.V

/-- Rules for some members -/
def namesEnv : Env := { exampleEnv (Config.init 1) with
  tables := { (exampleEnv (Config.init 1)).tables with
    mem := fun m => if m ∈ ["all", "long.x", "os.path.join", "str.isascii", "argparse.FileType"] then some ⟨none, some ⟨3, 7⟩⟩ else none } }

theorem namesEnv_order : SetOrder namesEnv := fun l => .refl l

/-- `a.b` as a field, on a line -/
def attr (f : Fld) (a b : String) (line : Nat) : Node := nd f (.attribute b) line [nm .value a line]
/-- `k=1` as an argument -/
def kwd (k : String) (line : Nat) : Node := nd .keywords (.keyword (some k)) line [nd .value (.const (.int 1)) line []]

theorem chain_attr_nd (f : Fld) (a b : String) (line : Nat) : Chain (attr f a b line) a [b] := .one rfl rfl rfl rfl rfl

/-- A program:
```
import argparse
from os import path
import long as l
s = "a"
def f():
  all(k=1)
l.x(k=1)
path.join(k=1)
s.isascii(k=1)
argparse.FileType
``` -/
def names : Node := prog [
  nd .body .import 1 [nd .names (.alias "argparse" none) 1 []],
  nd .body (.importFrom (some "os") 0) 2 [nd .names (.alias "path" none) 2 []],
  nd .body .import 3 [nd .names (.alias "long" (some "l")) 3 []],
  nd .body .assign 4 [nd .targets (.name "s" .store) 4 [], nd .value (.const (.str "a")) 4 []],
  nd .body (.functionDef "f") 5 [nd .args .arguments 5 [], st 6 (nd .value .call 6 [nm .func "all" 6, kwd "k" 6])],
  st 7 (nd .value .call 7 [attr .func "l" "x" 7, kwd "k" 7]),
  st 8 (nd .value .call 8 [attr .func "path" "join" 8, kwd "k" 8]),
  st 9 (nd .value .call 9 [attr .func "s" "isascii" 9, kwd "k" 9]),
  st 10 (attr .value "argparse" "FileType" 10)]

theorem names_run : ∃ s, tour namesEnv names S.init = .ok s := by
  have : (tour namesEnv names S.init).toBool = true := by decide +kernel
  cases h : tour namesEnv names S.init with
  | ok s => exact ⟨s, rfl⟩
  | error e => rw [h] at this; cases this

theorem unmarked_names (n : Node) : ¬ Marked namesEnv n := fun h => by cases h.2

/-- Example of C59: `import argparse` -/
theorem C59_witness : ∃ s, tour namesEnv names S.init = .ok s ∧ "argparse" ∈ s.modules ∧ "os" ∈ s.modules ∧ "os.path" ∈ s.modules := by
  obtain ⟨s, hs⟩ := names_run
  have hfrom := C59_from (m := "os") namesEnv_order hs (seen_at 1 rfl rfl (.self _)) (unmarked_names _) rfl
  exact ⟨s, hs, C59_import namesEnv_order hs (seen_at 0 rfl rfl (.self _)) (unmarked_names _) rfl (a := nd .names (.alias "argparse" none) 1 []) (.head _) rfl
    (undefined_of (by decide +kernel)) (by decide +kernel), hfrom.1 (undefined_of (by decide +kernel)) (by decide +kernel),
    (hfrom.2 (nd .names (.alias "path" none) 2 []) (.head _) "path" none rfl (by decide) (undefined_of (by decide +kernel)) (by decide +kernel)).1⟩

/-- The claim is false of `import argparse as argparse`: the new name counts as defined by the program. -/
theorem C59_false_alias : (tour namesEnv (prog [nd .body .import 1 [nd .names (.alias "argparse" (some "argparse")) 1 []]]) S.init).map (·.modules) = .ok [] := by
  decide +kernel

/-- Example of C60: `all(..)` -/
theorem C60_witness_call : ∃ s, tour namesEnv names S.init = .ok s ∧ "all" ∈ s.members := by
  obtain ⟨s, hs⟩ := names_run
  exact ⟨s, hs, C60_call namesEnv_order hs (seen_at 4 rfl rfl (seen_at 1 rfl rfl (seen_at 0 rfl rfl (.self _)))) (unmarked_names _) ⟨rfl, rfl⟩
    (undefined_of (by decide +kernel)) (by decide +kernel) (by decide +kernel)⟩

/-- Example of C60: `argparse.FileType` -/
theorem C60_witness_attribute : ∃ s, tour namesEnv names S.init = .ok s ∧ "argparse.FileType" ∈ s.members := by
  obtain ⟨s, hs⟩ := names_run
  exact ⟨s, hs, C60_attribute (bs := ["FileType"]) namesEnv_order hs (seen_at 8 rfl rfl (seen_at 0 rfl rfl (.self _))) (chain_attr_nd .value "argparse" "FileType" 10)
    (notAs_of (by decide +kernel)) (undefined_of (by decide +kernel)) (by decide +kernel) (by decide +kernel)⟩

/-- The statement `j` comes after the statement `i`. -/
theorem after_names {n j : Node} (i : Nat) {l₁ l₂ : List Node} {k : Node} (h : names.kids = l₁ ++ k :: l₂) (hj : l₂[i]? = some j) (hr : Seen namesEnv names n j) :
    After namesEnv names k n := ⟨rfl, l₁, l₂, j, h, List.mem_of_getElem? hj, hr⟩

theorem importsAs_names {y m : String} : ∀ k, In k names → ImportsAs k m y → m = "long" ∧ y = "l" := by
  rintro k hk ⟨a, ha, x, hx, h⟩
  have hs := mem_subs (In.trans (.kid (mem_fields ha).1 (.self a)) hk)
  have key : ∀ n ∈ names.subs, n.kind = .alias "long" (some "l") ∨ ∀ x y, n.kind ≠ .alias x (some y) := by
    have : names.subs.all (fun n => match n.kind with | .alias x (some y) => x = "long" ∧ y = "l" | _ => true) = true := by decide +kernel
    intro n hn
    have := List.all_eq_true.mp this n hn
    split at this
    · rename_i h
      obtain ⟨rfl, rfl⟩ := of_decide_eq_true this
      exact .inl h
    · rename_i h
      exact .inr fun x y hxy => h x y hxy
  rcases key a hs with h1 | h1
  · rw [hx] at h1
    injection h1 with h1 h2
    injection h2 with h2
    rcases h with ⟨_, rfl⟩ | ⟨s, hf, _⟩
    · exact ⟨h1, h2⟩
    · exfalso
      have : names.subs.all (fun n => match n.kind with | .importFrom _ _ => n.kids.all fun a => a.kind = .alias "path" none | _ => true) = true := by decide +kernel
      have := List.all_eq_true.mp this k (mem_subs hk)
      rw [hf] at this
      have := of_decide_eq_true (List.all_eq_true.mp this a (mem_fields ha).1)
      rw [hx] at this
      cases this
  · exact absurd hx (h1 _ _)

/-- Example of C60: `l.x` after `import long as l` -/
theorem C60_witness_renamed : ∃ s, tour namesEnv names S.init = .ok s ∧ "long.x" ∈ s.members := by
  obtain ⟨s, hs⟩ := names_run
  exact ⟨s, hs, C60_renamed (bs := ["x"]) (m := "long") (y := "l") namesEnv_order hs
    (after_names (l₁ := names.kids.take 2) (l₂ := names.kids.drop 3) 2 rfl rfl (seen_at 0 rfl rfl (seen_at 0 rfl rfl (.self _))))
    ⟨_, .head _, "long", rfl, .inl ⟨rfl, rfl⟩⟩ (unmarked_names _) (fun k m hk h => (importsAs_names k hk h).1) (chain_attr_nd .func "l" "x" 7)
    (undefined_of (by decide +kernel)) (by decide +kernel) (by decide +kernel)⟩

theorem importsFrom_names {m x : String} : ∀ k, In k names → ImportsFrom k m x → m = "os" := by
  rintro k hk ⟨hf, _⟩
  have : names.subs.all (fun n => match n.kind with | .importFrom m _ => m = some "os" | _ => true) = true := by decide +kernel
  have := List.all_eq_true.mp this k (mem_subs hk)
  rw [hf] at this
  injection of_decide_eq_true this

/-- Example of C60: `path.join` after `from os import path` -/
theorem C60_witness_from : ∃ s, tour namesEnv names S.init = .ok s ∧ "os.path.join" ∈ s.members := by
  obtain ⟨s, hs⟩ := names_run
  exact ⟨s, hs, C60_from (bs := ["join"]) (m := "os") (x := "path") namesEnv_order hs
    (after_names (l₁ := names.kids.take 1) (l₂ := names.kids.drop 2) 4 rfl rfl (seen_at 0 rfl rfl (seen_at 0 rfl rfl (.self _))))
    ⟨rfl, _, .head _, none, rfl⟩ (unmarked_names _) (fun k m hk h => importsFrom_names k hk h) (by decide) (by decide) (by decide)
    (undefined_of (by decide +kernel)) (by decide +kernel) (notAs_of (by decide +kernel)) (chain_attr_nd .func "path" "join" 8)
    (undefined_of (by decide +kernel)) (by decide +kernel) (by decide +kernel)⟩

/-- Example of C60: `argparse.FileType` after `import argparse` -/
theorem C60_witness_module : ∃ s, tour namesEnv names S.init = .ok s ∧ "argparse.FileType" ∈ s.modules := by
  obtain ⟨s, hs⟩ := names_run
  exact ⟨s, hs, C60_module (bs := ["FileType"]) namesEnv_order hs
    (after_names (l₁ := []) (l₂ := names.kids.drop 1) 7 rfl rfl (seen_at 0 rfl rfl (.self _)))
    rfl (.head _) rfl (unmarked_names _) (undefined_of (by decide +kernel)) (by decide +kernel) (chain_attr_nd .value "argparse" "FileType" 10)
    (undefined_of (by decide +kernel)) (by decide +kernel)⟩

theorem always_names : Always names "s" "str" := by
  refine ⟨?_, ?_⟩
  · rintro k v hk ⟨_, hv, t, ht, hf, c, hc⟩
    have : names.subs.all (fun n => match n.field .value with
      | some v => n.kids.all fun t => match t.kind with | .name "s" _ => v.kind = .const (.str "a") ∨ ¬ (t.fld = .targets ∨ t.fld = .target) | _ => true
      | none => true) = true := by decide +kernel
    have := List.all_eq_true.mp this k (mem_subs hk)
    rw [hv] at this
    have := List.all_eq_true.mp this t ht
    rw [hc] at this
    rcases of_decide_eq_true this with h | h
    · exact .inl <| .str h
    · exact absurd hf h
  · intro k t c hk hf _ _
    have : names.subs.all (fun n => !decide (n.kind = .for) && !decide (n.kind = .asyncFor)) = true := by decide +kernel
    have := List.all_eq_true.mp this k (mem_subs hk)
    rcases hf with hf | hf <;> rw [hf] at this <;> cases this

/-- Example of C60: `s.isascii` after `s = "a"` -/
theorem C60_witness_variable : ∃ s, tour namesEnv names S.init = .ok s ∧ "str.isascii" ∈ s.members := by
  obtain ⟨s, hs⟩ := names_run
  exact ⟨s, hs, C60_variable (bs := ["isascii"]) (x := "s") (y := "str") namesEnv_order hs
    (after_names (l₁ := names.kids.take 3) (l₂ := names.kids.drop 4) 3 rfl rfl (seen_at 0 rfl rfl (seen_at 0 rfl rfl (.self _))))
    rfl (unmarked_names _) rfl (.head _) rfl always_names (fun k m hk h => absurd (importsAs_names k hk h).2 (by decide)) (notFrom_of (by decide +kernel)) (by decide)
    (chain_attr_nd .func "s" "isascii" 9) (undefined_of (by decide +kernel)) (by decide +kernel) (by decide +kernel)⟩

/-! ### C37 -/

theorem ident (x : String) (h : (x != "" && !x.toList.contains '.') = true) : Identifier x := by
  rw [Bool.and_eq_true] at h
  refine ⟨by simpa using h.1, by simpa using h.2⟩

/-- Example of C37: `all(k=1)` -/
theorem C37_witness_keyword : ∃ s, tour namesEnv names S.init = .ok s ∧ ("all", some "k") ∈ s.kwargs := by
  obtain ⟨s, hs⟩ := names_run
  exact ⟨s, hs, C37_keyword (bs := []) (a := "all") hs (seen_at 4 rfl rfl (seen_at 1 rfl rfl (seen_at 0 rfl rfl (.self _)))) (unmarked_names _)
    (named_of (by decide +kernel)) ⟨rfl, rfl, .tail _ (.head _), rfl⟩ (.inl ⟨.load, rfl, rfl⟩) (ident _ (by decide)) nofun (notAs_of (by decide +kernel))
    (notFrom_of (by decide +kernel)) (notFrom_of (by decide +kernel)) (unassigned_of (by decide +kernel)) (undefined_of (by decide +kernel)) (by decide +kernel)⟩

/-- Example of C37: `l.x(k=1)` after `import long as l` -/
theorem C37_witness_renamed : ∃ s, tour namesEnv names S.init = .ok s ∧ ("long.x", some "k") ∈ s.kwargs := by
  obtain ⟨s, hs⟩ := names_run
  exact ⟨s, hs, C37_renamed (a := "long") (as := []) (bs := ["x"]) (y := "l") hs
    (after_names (l₁ := names.kids.take 2) (l₂ := names.kids.drop 3) 2 rfl rfl (seen_at 0 rfl rfl (.self _)))
    ⟨_, .head _, "long", rfl, .inl ⟨rfl, rfl⟩⟩ (unmarked_names _) (fun k m hk h => (importsAs_names k hk h).1) (unmarked_names _)
    (named_of (by decide +kernel)) ⟨rfl, rfl, .tail _ (.head _), rfl⟩ (chain_attr_nd .func "l" "x" 7).path (ident _ (by decide)) nofun
    (fun b hb => by cases List.mem_singleton.mp hb; exact ident _ (by decide))
    -- "long" is not imported from a module
    (fun k m hk h => by
      obtain ⟨hf, a, ha, y, hy⟩ := h
      have : names.subs.all (fun n => match n.kind with | .importFrom _ _ => n.kids.all fun a => a.kind = .alias "path" none | _ => true) = true := by decide +kernel
      have := List.all_eq_true.mp this k (mem_subs hk)
      rw [hf] at this
      have := of_decide_eq_true (List.all_eq_true.mp this a (mem_fields ha).1)
      rw [hy] at this
      injection this with h1
      exact absurd h1 (by decide))
    (notFrom_of (by decide +kernel)) (unassigned_of (by decide +kernel)) (undefined_of (by decide +kernel)) (by decide +kernel)⟩

/-- Example of C37: `path.join(k=1)` after `from os import path` -/
theorem C37_witness_from : ∃ s, tour namesEnv names S.init = .ok s ∧ ("os.path.join", some "k") ∈ s.kwargs := by
  obtain ⟨s, hs⟩ := names_run
  exact ⟨s, hs, C37_from (m := "os") (a := "path") (bs := ["join"]) hs
    (after_names (l₁ := names.kids.take 1) (l₂ := names.kids.drop 2) 4 rfl rfl (seen_at 0 rfl rfl (.self _)))
    ⟨rfl, _, .head _, none, rfl⟩ (unmarked_names _) (fun k m hk h => importsFrom_names k hk h) (by decide) (unmarked_names _)
    (named_of (by decide +kernel)) ⟨rfl, rfl, .tail _ (.head _), rfl⟩ (.inr (chain_attr_nd .func "path" "join" 8).path) (ident _ (by decide))
    (fun b hb => by cases List.mem_singleton.mp hb; exact ident _ (by decide))
    (notAs_of (by decide +kernel)) (fun _ => notFrom_of (by decide +kernel)) (undefined_of (by decide +kernel)) (by decide +kernel)⟩

/-- Example of C37: `s.isascii(k=1)` after `s = "a"` -/
theorem C37_witness_method : ∃ s, tour namesEnv names S.init = .ok s ∧ ("str.isascii", some "k") ∈ s.kwargs := by
  obtain ⟨s, hs⟩ := names_run
  exact ⟨s, hs, C37_method (x := "s") (y := "str") (bs := ["isascii"]) hs
    (after_names (l₁ := names.kids.take 3) (l₂ := names.kids.drop 4) 3 rfl rfl (seen_at 0 rfl rfl (.self _)))
    rfl (unmarked_names _) rfl (.head _) rfl always_names (fun k m hk h => absurd (importsAs_names k hk h).2 (by decide)) (notFrom_of (by decide +kernel)) (notFrom_of (by decide +kernel))
    (notFrom_of (by decide +kernel)) (by decide) (unmarked_names _)
    (named_of (by decide +kernel)) ⟨rfl, rfl, .tail _ (.head _), rfl⟩ (chain_attr_nd .func "s" "isascii" 9).path (ident _ (by decide))
    (fun b hb => by cases List.mem_singleton.mp hb; exact ident _ (by decide)) (undefined_of (by decide +kernel)) (by decide +kernel)⟩

/-- `f(g(k=1))`: the keyword argument of the inner call is found with the outer function too. -/
theorem C37_false_outer : (tour namesEnv (prog [st 1 (nd .value .call 1 [nm .func "f",
    nd .args .call 1 [nm .func "g", kwd "k" 1]])]) S.init).map (·.kwargs) = .ok [("f", some "k"), ("g", some "k")] := by decide +kernel

/-- `f(h()(), k=1)`: the call of what `h()` yields makes the keyword argument be lost. -/
theorem C37_false_unnamed : (tour namesEnv (prog [st 1 (nd .value .call 1 [nm .func "f",
    nd .args .call 1 [nd .func .call 1 [nm .func "h"]], kwd "k" 1])]) S.init).map (·.kwargs) = .ok [] := by decide +kernel

/-- `from m import f as g` and `g(k=1)`: the keyword argument is found with `g`, not with `m.f`. -/
theorem C37_false_renamed : (tour namesEnv (prog [nd .body (.importFrom (some "m") 0) 1 [nd .names (.alias "f" (some "g")) 1 []],
    st 2 (nd .value .call 2 [nm .func "g" 2, kwd "k" 2])]) S.init).map (·.kwargs) = .ok [] := by decide +kernel

end Vermin.Props
