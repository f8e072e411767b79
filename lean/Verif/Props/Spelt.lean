import Verif.Props.Members
import Verif.Lemmas.Walks
/-
C73: names of attributes of calls and of literals.
-/
namespace Vermin.Props
open Vermin Vermin.Py Vermin.Spec Vermin.V

/-- **C73.** The names considered for an attribute end with its own, and all of them are names of parts of its expression (`Spec.Contributes`): names of
attributes, names that these are attributes of or that are called, and types of literals. -/
theorem C73_parts {ms : Table} {n : Node} {full : List (Option String)} (h : attributeName ms n = .ok full) :
    (∀ x ∈ full, ∃ m, In m n ∧ Contributes ms m x) ∧ ∀ b, n.kind = .attribute b → full.getLast? = some (some b) := names_from h

/-- **C73 (partial).** For an attribute that is spelt `a.b.c` when arguments and elements are left out, these are the names, in order, with `a` replaced if
it is a name of a module that is renamed: attributes of calls are attributes of what is called, attributes of displays are attributes of their type.

*Missing:* arguments and elements that contain attributes, calls, or displays (see `C73_false_argument` and `C73_false_element`), and attributes of
other expressions (see `C73_false_subscript`). -/
theorem C73_spelt_partial {n : Node} {k : Base} {a b : String} {bs : List String} (h : Spelt n k a bs) (hn : n.kind = .attribute b) (ms : Table) :
    attributeName ms n = .ok (some (if k = .name then (Dict.get? ms a).getD a else a) :: bs.map some) := by
  rw [spelt_names h hn ms]
  cases k <;> rfl

/-- **C73 (partial).** Attributes of constants are attributes of their type.

*Missing:* attributes of attributes of constants (see `C73_false_literal`). -/
theorem C73_literal_partial {n : Node} {t b : String} (h : OfLiteral n t b) (ms : Table) : attributeName ms n = .ok [some t, some b] := literal_names h ms

/-- **C73.** The parts of an expression are considered in the order of the queue of `ast.walk`. -/
theorem C73_walk (n : Node) (out : List Node) : Queue (fun _ => False) [n] out ↔ out = walk n := by
  have h := queue_imp (q := fun _ => False) (fun _ => ⟨nofun, False.elim⟩) (levels_queue (stop := fun _ => false) n)
  exact ⟨fun h' => h'.unique h, fun e => e ▸ h⟩
/-- **C73.** The targets of assignments are walked in the same order, without attributes and subscripts. -/
theorem C73_targets (n : Node) (out : List Node) : Queue (fun m => m.kind = .subscript ∨ ∃ a, m.kind = .attribute a) [n] out ↔ out = assignTargetWalk n := by
  have h := queue_imp (q := fun m => m.kind = .subscript ∨ ∃ a, m.kind = .attribute a) (fun m => by
    unfold isSubOrAttr
    cases m.kind <;> simp) (levels_queue (stop := isSubOrAttr) n)
  exact ⟨fun h' => h'.unique h, fun e => e ▸ h⟩
/-- Example: the target `(a[i], *b), c` -/
theorem C73_witness_targets : ∃ t out, Queue (fun m => m.kind = .subscript ∨ ∃ a, m.kind = .attribute a) [t] out ∧
    out.map (·.kind) = [.tuple .store, .tuple .store, .name "c" .store, .starred .store, .name "b" .store] :=
  ⟨nd .targets (.tuple .store) 1 [nd .elts (.tuple .store) 1 [nd .elts .subscript 1 [nm .value "a", nm .slice "i"], nd .elts (.starred .store) 1 [nd .value (.name "b" .store) 1 []]],
    nd .elts (.name "c" .store) 1 []], _, (C73_targets _ _).mpr rfl, by decide +kernel⟩

section
variable {env : Env} {p k n : Node} {l₁ l₂ : List Node} {s : S}

/-- **C73 (partial).** So they are found as members of what is called or of the type if there is a rule, wherever they are in the program. -/
theorem C73_found_partial (ho : SetOrder env) (h : tour env p S.init = .ok s) (hp : p.kind = .module) (hk : p.kids = l₁ ++ k :: l₂) (hr : Seen env p n k)
    {c : Base} {a b x : String} {bs : List String} (hn : n.kind = .attribute b) (hu : (Spelt n c a bs ∧ c ≠ .name ∧ x = dottedText a bs) ∨ (OfLiteral n a b ∧ x = a ++ "." ++ b))
    (hd : Undefined p x) (he : env.cfg.isExcluded x = false) (hrule : (env.tables.mem x).isSome = true) : x ∈ s.members := by
  have hm : ¬ Marked env n := fun h => by have := h.1; rw [hn] at this; exact this
  rcases hu with ⟨h1, h2, rfl⟩ | ⟨h1, rfl⟩
  · exact C60_members ho h hp hk hr hm (.value hn h1 h2) hd he hrule
  · exact C60_members ho h hp hk hr hm (.literal h1) hd he hrule
end

/-! ### Examples -/

/-- Rules for the members in the programs below -/
def speltEnv : Env := { exampleEnv (Config.init 1) with
  tables := { (exampleEnv (Config.init 1)).tables with
    mem := fun m => if m ∈ ["Fraction.as_integer_ratio", "dict.iteritems", "str.isascii", "list.clear", "fractions.Fraction.limit.as_integer_ratio"] then some ⟨none, some ⟨3, 8⟩⟩ else none } }

/-- The constant `"t"` -/
def strConst (f : Fld) (t : String) (l : Nat) : Node := nd f (.const (.str t)) l []

/-- The program
```
Fraction(42, k=1).as_integer_ratio
{}.iteritems
"t".isascii
fractions.Fraction(x).limit(1).as_integer_ratio
"t".encode(k=1)
``` -/
def spelt : Node := prog [
  st 1 (nd .value (.attribute "as_integer_ratio") 1 [nd .value .call 1 [nm .func "Fraction" 1, nd .args (.const (.int 42)) 1 [], kwd "k" 1]]),
  st 2 (nd .value (.attribute "iteritems") 2 [nd .value (.dict []) 2 []]),
  st 3 (nd .value (.attribute "isascii") 3 [strConst .value "t" 3]),
  st 4 (nd .value (.attribute "as_integer_ratio") 4 [nd .value .call 4 [nd .func (.attribute "limit") 4 [nd .value .call 4 [attr .func "fractions" "Fraction" 4, nm .args "x" 4]],
    nd .args (.const (.int 1)) 4 []]]),
  st 5 (nd .value .call 5 [nd .func (.attribute "encode") 5 [strConst .value "t" 5], kwd "k" 5])]

theorem spelt_run : ∃ s, tour speltEnv spelt S.init = .ok s := by
  have : (tour speltEnv spelt S.init).toBool = true := by decide +kernel
  cases h : tour speltEnv spelt S.init with
  | ok s => exact ⟨s, rfl⟩
  | error e => rw [h] at this; cases this

theorem plain_of {n : Node} (h : n.subs.all (fun m => !loud m) = true) : Plain n := fun m hm => by
  have := List.all_eq_true.mp h m (mem_subs hm)
  unfold loud at this
  refine ⟨fun a ha => ?_, fun ha => ?_, fun t ht => ?_⟩
  · rw [ha] at this; cases this
  · rw [ha] at this; cases this
  · cases ht <;> rename_i ha <;> rw [ha] at this <;> cases this
theorem plains_of {l : List Node} (h : (l.all fun n => n.subs.all fun m => !loud m) = true) : ∀ n ∈ l, Plain n := fun n hn => plain_of (List.all_eq_true.mp h n hn)

theorem spelt_at (i : Nat) {n : Node} {x : String} (hn : ∃ k, spelt.kids[i]? = some k ∧ Seen speltEnv spelt n k)
    (hg : Uses speltEnv spelt (spelt.kids.take i) n x) (hm : ¬ Marked speltEnv n) (hd : Undefined spelt x) (he : speltEnv.cfg.isExcluded x = false)
    (hrule : (speltEnv.tables.mem x).isSome = true) {s : S} (h : tour speltEnv spelt S.init = .ok s) : x ∈ s.members := by
  obtain ⟨k, hk, hr⟩ := hn
  exact C60_members (fun l => .refl l) h (l₁ := spelt.kids.take i) (l₂ := spelt.kids.drop (i + 1)) rfl
    (by obtain ⟨hi, rfl⟩ := List.getElem?_eq_some_iff.mp hk; rw [List.getElem_cons_drop, List.take_append_drop]) hr hm hg hd he hrule

/-- Example: `Fraction(42, k=1).as_integer_ratio`, `{}.iteritems`, `"t".isascii`, `fractions.Fraction(x).limit(1).as_integer_ratio` -/
theorem C73_witness : ∃ s, tour speltEnv spelt S.init = .ok s ∧ "Fraction.as_integer_ratio" ∈ s.members ∧ "dict.iteritems" ∈ s.members ∧ "str.isascii" ∈ s.members ∧
    "fractions.Fraction.limit.as_integer_ratio" ∈ s.members := by
  obtain ⟨s, hs⟩ := spelt_run
  have hu := fun x (h : (spelt.subs.map boundAt).contains (some x) = false) => undefined_of (p := spelt) (x := x) h
  have hm : ∀ n, ¬ Marked speltEnv n := fun n h => by cases h.2
  refine ⟨s, hs, ?_, ?_, ?_, ?_⟩
  · exact spelt_at 0 ⟨_, rfl, seen_at 0 rfl rfl (.self _)⟩ (.value (bs := ["as_integer_ratio"]) rfl (.attr (bs := []) rfl rfl rfl (.calls rfl rfl rfl rfl rfl (plains_of (by decide +kernel))) nofun) nofun)
      (hm _) (hu _ (by decide +kernel)) (by decide +kernel) (by decide +kernel) hs
  · exact spelt_at 1 ⟨_, rfl, seen_at 0 rfl rfl (.self _)⟩ (.value (bs := ["iteritems"]) rfl (.attr (bs := []) rfl rfl rfl (.display (.dict rfl) nofun) (fun _ => by decide)) nofun)
      (hm _) (hu _ (by decide +kernel)) (by decide +kernel) (by decide +kernel) hs
  · exact spelt_at 2 ⟨_, rfl, seen_at 0 rfl rfl (.self _)⟩ (.literal ⟨_, _, rfl, rfl, rfl, rfl, rfl, .str _, by decide⟩)
      (hm _) (hu _ (by decide +kernel)) (by decide +kernel) (by decide +kernel) hs
  · exact spelt_at 3 ⟨_, rfl, seen_at 0 rfl rfl (.self _)⟩ (.chain (a := "fractions") (bs := ["Fraction", "limit", "as_integer_ratio"])
      ⟨⟨_, rfl⟩, .attr (bs := ["Fraction", "limit"]) rfl rfl rfl (.call rfl rfl rfl rfl (.attr (bs := ["Fraction"]) rfl rfl rfl
        (.call rfl rfl rfl rfl (chain_attr_nd ..).spelt (plains_of (by decide +kernel))) nofun) (plains_of (by decide +kernel))) nofun⟩ (notAs_of (by decide +kernel)))
      (hm _) (hu _ (by decide +kernel)) (by decide +kernel) (by decide +kernel) hs

/-- Example of C37: `"t".encode(k=1)` -/
theorem C73_witness_keyword : ∃ s, tour speltEnv spelt S.init = .ok s ∧ ("str.encode", some "k") ∈ s.kwargs := by
  obtain ⟨s, hs⟩ := spelt_run
  exact ⟨s, hs, C37_passed (p := spelt) hs (l₁ := spelt.kids.take 4) (l₂ := []) rfl rfl (seen_at 0 rfl rfl (.self _)) (fun h => by cases h.2)
    (named_of (by decide +kernel)) ⟨rfl, rfl, .tail _ (.head _), rfl⟩ (.literal (t := "str") (b := "encode") ⟨_, _, rfl, rfl, rfl, rfl, rfl, .str _, by decide⟩ (ident _ (by decide))
      (notFrom_of (by decide +kernel)) (notFrom_of (by decide +kernel)) (unassigned_of (by decide +kernel))) (undefined_of (by decide +kernel)) (by decide +kernel)⟩

/-! ### Counterexamples -/

/-- `d["t"].isascii` is taken for an attribute of the index: `str.isascii` is found whatever `d` is. -/
theorem C73_false_subscript : (tour speltEnv (prog [st 1 (nd .value (.attribute "isascii") 1 [nd .value .subscript 1 [nm .value "d" 1, strConst .slice "t" 1]])]) S.init).map
    (·.members) = .ok ["str.isascii"] := by decide +kernel

/-- `[{}].clear` is not found as `list.clear`: the type of the element is a part of the name. -/
theorem C73_false_element : (tour speltEnv (prog [st 1 (nd .value (.attribute "clear") 1 [nd .value (.list .load) 1 [nd .elts (.dict []) 1 []]])]) S.init).map
    (·.members) = .ok [] ∧ attributeName [] (nd .value (.attribute "clear") 1 [nd .value (.list .load) 1 [nd .elts (.dict []) 1 []]]) = .ok [some "dict", some "list", some "clear"] := by
  decide +kernel

/-- `Fraction(f()).as_integer_ratio` is not found as `Fraction.as_integer_ratio`: the function called for the argument is a part of the name. -/
theorem C73_false_argument : (tour speltEnv (prog [st 1 (nd .value (.attribute "as_integer_ratio") 1 [nd .value .call 1 [nm .func "Fraction" 1,
    nd .args .call 1 [nm .func "f" 1]]])]) S.init).map (·.members) = .ok [] := by decide +kernel

/-- `"t".a.b` is considered by the name `a.b`. -/
theorem C73_false_literal : attributeName [] (nd .value (.attribute "b") 1 [nd .value (.attribute "a") 1 [strConst .value "t" 1]]) = .ok [some "a", some "b"] := by
  decide +kernel

end Vermin.Props
