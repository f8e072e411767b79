import Verif.Lemmas.Settled
import Verif.Props.Reach
import Verif.Props.Names
/-
Constructs that depend on names or on what is around them (C70), and constructs that are missed (C30).
-/
namespace Vermin.Props
open Vermin Vermin.Py Vermin.Spec Vermin.V

/-! ### C70: constructs that depend on names or context -/

/-- **C70.** A construct that depends on names or on what is around it is reported if the program settles that it is one (`Spec.Settled`):
wherever it is in a statement `k` of the program that is looked at, given the statements `l₁` before. -/
theorem C70_reported (env : Env) (p k n : Node) (l₁ l₂ : List Node) (f : Flag) (s : S) (h : tour env p S.init = .ok s) (hp : p.kind = .module)
    (hk : p.kids = l₁ ++ k :: l₂) (hr : Seen env p n k) (hm : ¬ Marked env n) (hs : Settled env p l₁ n f) : s.has f = true := by
  obtain ⟨u, o, hv, rfl⟩ := tour_run h
  have := settled_reported hp hk hr hm hs hv
  exact List.contains_iff_mem.mpr this

/-- Functions of packages: `__dir__()` and `__getattr__(name)` at the level of the module, in a file `__init__.py`. -/
theorem C70_module (env : Env) (p n : Node) (s : S) (h : tour env p S.init = .ok s) (hp : p.kind = .module) (hk : n ∈ p.kids)
    (hm : ¬ Marked env n) (hi : env.isInitFile = true) :
    (ModuleFunction n "__dir__" 0 → s.has .moduleDirFunc = true) ∧ (ModuleFunction n "__getattr__" 1 → s.has .moduleGetattrFunc = true) := by
  obtain ⟨l₁, l₂, hl⟩ := List.append_of_mem hk
  obtain ⟨u, o, hv, rfl⟩ := tour_run h
  refine ⟨fun hf => ?_, fun hf => ?_⟩
  all_goals
    have hline : n.line ∉ env.noLines := fun h => hm ⟨by rcases hf.1 with h | h <;> rw [h] <;> trivial, h⟩
    have := module_reported hp hl hline hi hv
  · exact List.contains_iff_mem.mpr (this.1 hf)
  · exact List.contains_iff_mem.mpr (this.2 hf)

/-- The features of `C70_reported` and `C70_module` -/
def settledFlags : List Flag :=
  [.longv2, .modInversePow, .superNoArgs, .literalAnnotations, .maybeAnnotations, .builtinGenericTypeAnnotations, .dictUnion, .dictUnionMerge,
   .unionTypes, .asyncGenerator, .awaitInComprehension, .ellipsisOutOfSlices, .fstringsSelfDoc, .withParentheses, .moduleDirFunc, .moduleGetattrFunc]

/-- Together with the features of C30 these are all: `continue` in `finally` is the matter of C42, and the `print` statement is an error of syntax
(C63). -/
theorem C70_features (f : Flag) : f ∈ certain ∨ f ∈ settledFlags ∨ f = .continueInFinally ∨ f = .printv2 := by cases f <;> decide

/-- Annotations are evaluated, and the features in question are enabled. -/
def settledCfg : Config := { Config.init 1 with evalAnnotations := true, features := ["union-types", "fstring-self-doc"] }
/-- Rules for two classes of `collections`, in a package. -/
def settledEnv : Env := { exampleEnv settledCfg with
  path := "a/__init__.py", source := some "with (a, b): long".toList
  tables := { (exampleEnv settledCfg).tables with genericTypes := ["collections.deque"], dictUnion := ["collections.OrderedDict"] } }

/-- The program
```
with (a, b): long
x = {}
from collections import deque, OrderedDict
def f(): x | OrderedDict()
deque[int]
y | None
async def g():
  yield
  await z
f"{a.b = }"
...
def __getattr__(name): pass
``` -/
def settled : Node := prog [
  nd .body .with 1 [nd .items .withItem 1 [nm .contextExpr "a"], nd .items .withItem 1 [nm .contextExpr "b"], st 1 (nm .value "long")],
  nd .body .assign 2 [nd .targets (.name "x" .store) 2 [], nd .value (.dict []) 2 []],
  nd .body (.importFrom (some "collections") 0) 3 [nd .names (.alias "deque" none) 3 [], nd .names (.alias "OrderedDict" none) 3 []],
  nd .body (.functionDef "f") 4 [nd .args .arguments 4 [],
    st 4 (nd .value .binOp 4 [nm .left "x" 4, nd .op (.op .bitOr) 4 [], nd .right .call 4 [nm .func "OrderedDict" 4]])],
  st 5 (nd .value .subscript 5 [nm .value "deque" 5, nm .slice "int" 5]),
  st 6 (nd .value .binOp 6 [nm .left "y" 6, nd .op (.op .bitOr) 6 [], nd .right (.const .none) 6 []]),
  nd .body (.asyncFunctionDef "g") 7 [nd .args .arguments 7 [], st 8 (nd .value .yield 8 []), st 9 (nd .value .await 9 [nm .value "z" 9])],
  st 10 (nd .value .joinedStr 10 [nd .values (.const (.str "a.b = ")) 10 [],
    nd .values .formattedValue 10 [nd .value (.attribute "b") 10 [nm .value "a" 10]]]),
  st 11 (.mk ⟨.value, .const .ellipsis, some 11, 0, 1⟩ []),
  nd .body (.functionDef "__getattr__") 12 [nd .args .arguments 12 [nd .args (.arg "name") 12 []], nd .body .pass 12 []]]

theorem settled_run : ∃ s, tour settledEnv settled S.init = .ok s := by
  have : (tour settledEnv settled S.init).toBool = true := by decide +kernel
  cases h : tour settledEnv settled S.init with
  | ok s => exact ⟨s, rfl⟩
  | error e => rw [h] at this; cases this

theorem settled_unmarked (n : Node) : ¬ Marked settledEnv n := fun h => by cases h.2

/-- The construct `n` at the statement of index `i`. -/
theorem settled_at (i : Nat) {k n : Node} {f : Flag} (hk : settled.kids[i]? = some k) (hr : Seen settledEnv settled n k) (hs : Settled settledEnv settled (settled.kids.take i) n f)
    {s : S} (h : tour settledEnv settled S.init = .ok s) : s.has f = true :=
  C70_reported settledEnv settled k n (settled.kids.take i) (settled.kids.drop (i + 1)) f s h rfl
    (by obtain ⟨hi, rfl⟩ := List.getElem?_eq_some_iff.mp hk; rw [List.getElem_cons_drop, List.take_append_drop]) hr (settled_unmarked n) hs

theorem settled_always : Always settled "x" "dict" := by
  refine ⟨?_, ?_⟩
  · rintro k v hk ⟨_, hv, t, ht, hf, c, hc⟩
    have : settled.subs.all (fun n => match n.field .value with
      | some v => n.kids.all fun t => match t.kind with | .name "x" _ => v.kind = .dict [] ∨ ¬ (t.fld = .targets ∨ t.fld = .target) | _ => true
      | none => true) = true := by decide +kernel
    have := List.all_eq_true.mp this k (mem_subs hk)
    rw [hv] at this
    have := List.all_eq_true.mp this t ht
    rw [hc] at this
    rcases of_decide_eq_true this with h | h
    · exact .inl (.dict h)
    · exact absurd hf h
  · intro k t c hk hf _ _
    have : settled.subs.all (fun n => !decide (n.kind = .for) && !decide (n.kind = .asyncFor)) = true := by decide +kernel
    have := List.all_eq_true.mp this k (mem_subs hk)
    rcases hf with hf | hf <;> rw [hf] at this <;> cases this

theorem settled_from {k : Node} {m x : String} (hk : In k settled) (h : ImportsFrom k m x) : m = "collections" := by
  have : settled.subs.all (fun n => match n.kind with | .importFrom m _ => m = some "collections" | _ => true) = true := by decide +kernel
  have := List.all_eq_true.mp this k (mem_subs hk)
  rw [h.1] at this
  injection of_decide_eq_true this

/-- Every kind of construct in the program is found. -/
theorem C70_witness : ∃ s, tour settledEnv settled S.init = .ok s ∧ s.has .withParentheses = true ∧ s.has .longv2 = true ∧ s.has .dictUnion = true ∧
    s.has .builtinGenericTypeAnnotations = true ∧ s.has .unionTypes = true ∧ s.has .asyncGenerator = true ∧ s.has .fstringsSelfDoc = true ∧
    s.has .ellipsisOutOfSlices = true ∧ s.has .moduleGetattrFunc = true := by
  obtain ⟨s, hs⟩ := settled_run
  refine ⟨s, hs, ?_, ?_, ?_, ?_, ?_, ?_, ?_, ?_, ?_⟩
  · exact settled_at 0 rfl (.self _) (.withParentheses (a := []) (ws := [' ']) (b := "a, b): long".toList) (.inl rfl) (by decide) ⟨_, _, rfl, splitlines_lines _, by decide, rfl⟩
      (by decide) (by decide +kernel)) hs
  · exact settled_at 0 rfl (seen_at 2 rfl rfl (seen_at 0 rfl rfl (.self _))) (.long ⟨_, rfl⟩ rfl (undefined_of (by decide +kernel))) hs
  · exact settled_at 3 rfl (seen_at 1 rfl rfl (seen_at 0 rfl rfl (.self _))) (.dictUnion rfl ⟨_, rfl, rfl⟩ rfl rfl
      (.inl <| .var ⟨_, rfl⟩ ⟨settled_always, _, .tail _ (.head _), nofun, _, ⟨.inl rfl, rfl, _, .head _, .inl rfl, _, rfl⟩, .dict rfl⟩)
      (.inr ⟨"OrderedDict", "OrderedDict", _, .inr (.inl ⟨rfl, rfl⟩), .inr ⟨unassigned_of (by decide +kernel), rfl⟩, .origin (m := "collections") (notAs_of (by decide +kernel))
        ⟨ident _ (by decide), by decide, fun _ _ hk h => settled_from hk h, _, .tail _ (.tail _ (.head _)), ⟨rfl, _, .tail _ (.head _), _, rfl⟩, nofun⟩, by decide +kernel⟩)) hs
  · exact settled_at 4 rfl (seen_at 0 rfl rfl (.self _)) (.generic rfl ⟨rfl, _, "deque", rfl, ⟨_, rfl⟩, .inr (.inl ⟨by decide, "collections",
      ⟨ident _ (by decide), by decide, fun _ _ hk h => settled_from hk h, _, .tail _ (.tail _ (.head _)), ⟨rfl, _, .head _, _, rfl⟩, nofun⟩,
      by decide +kernel, undefined_of (by decide +kernel)⟩)⟩) hs
  · exact settled_at 5 rfl (seen_at 0 rfl rfl (.self _)) (.union (by decide +kernel) rfl ⟨_, rfl, rfl⟩ rfl rfl
      (.inr (.inr (.inl (.name (x := "y") ⟨_, rfl⟩ (undefined_of (by decide +kernel)) (unassigned_of (by decide +kernel)))))) (.inl rfl)) hs
  · have hv : ∀ {n : Node}, n.kind = .expr → ∀ k ∈ n.kids, Visits settledEnv n k := fun hn k hk =>
      ⟨hk, settled_unmarked _, by rw [hn]; exact id, fun h => by cases h.1⟩
    exact settled_at 6 rfl (.self _) (.asyncGenerator rfl
      ⟨_, _, ⟨.tail _ (.head _), settled_unmarked _, id, fun h => by cases h.1⟩, .kid (hv rfl _ (.head _)) id (.self _), rfl, settled_unmarked _⟩
      ⟨_, _, ⟨.tail _ (.tail _ (.head _)), settled_unmarked _, id, fun h => by cases h.1⟩, .kid (hv rfl _ (.head _)) id (.self _), rfl, settled_unmarked _⟩) hs
  · exact settled_at 7 rfl (seen_at 0 rfl rfl (.self _)) (.selfDoc (xs := []) (ys := []) (by decide +kernel) rfl rfl
      ⟨_, _, [], "a.b ".toList, [' '], rfl, rfl, rfl, by decide +kernel, by decide, by decide,
        .attr (a := "a") (bs := ["b"]) (.one rfl rfl rfl rfl rfl) (notAs_of (by decide +kernel))⟩) hs
  · refine settled_at 8 rfl (seen_at 0 rfl rfl (.self _)) (.ellipsis rfl ?_) hs
    rintro k e hk ⟨h1, sl, h2, h3⟩ he
    have : settled.subs.all (fun n => match n.kind, n.field .slice with
      | .subscript, some sl => decide (sl.info.uid = 0) && decide (sl.kind = .name "int" .load) | _, _ => true) = true := by decide +kernel
    have := List.all_eq_true.mp this k (mem_subs hk)
    rw [h1, h2] at this
    obtain ⟨h4, h5⟩ := Bool.and_eq_true .. ▸ this
    rcases h3 with ⟨h3, _⟩ | ⟨h3, _⟩ | ⟨-, -, rfl | ⟨⟨c, h3⟩, _⟩⟩
    · rw [of_decide_eq_true h5] at h3
      cases h3
    · rw [of_decide_eq_true h5] at h3
      cases h3
    · rw [of_decide_eq_true h4] at he
      cases he
    · rw [of_decide_eq_true h5] at h3
      cases h3
  · exact (C70_module settledEnv settled _ s hs rfl (List.mem_of_getElem? (i := 9) rfl) (settled_unmarked _) (by decide +kernel)).2
      ⟨.inl rfl, _, rfl, rfl, rfl, rfl, rfl⟩

/-- Lists are generic. -/
def typedEnv : Env := { settledEnv with tables := { settledEnv.tables with genericTypes := ["list"] } }
/-- The program, with classes and variables that are types
```
x = list
class C: pass
x[int]
x | C
a = 1
a = int
a |= str
``` -/
def typed : Node := prog [
  nd .body .assign 1 [nd .targets (.name "x" .store) 1 [], nm .value "list" 1],
  nd .body (.classDef "C") 2 [nd .body .pass 2 []],
  st 3 (nd .value .subscript 3 [nm .value "x" 3, nm .slice "int" 3]),
  st 4 (nd .value .binOp 4 [nm .left "x" 4, nd .op (.op .bitOr) 4 [], nm .right "C" 4]),
  nd .body .assign 5 [nd .targets (.name "a" .store) 5 [], nd .value (.const (.int 1)) 5 []],
  nd .body .assign 6 [nd .targets (.name "a" .store) 6 [], nm .value "int" 6],
  nd .body .augAssign 7 [nd .target (.name "a" .store) 7 [], nd .op (.op .bitOr) 7 [], nm .value "str" 7]]
theorem typed_given (l : List Node) {i v : Node} {x y : String} (hi : i ∈ l) (h1 : i.kind = .assign) (h2 : i.field .value = some v)
    (h3 : ∃ t ∈ i.kids, (t.fld = .targets ∨ t.fld = .target) ∧ ∃ c, t.kind = .name x c) (h4 : ∃ c, v.kind = .name y c) : GivenType typedEnv l x y :=
  ⟨i, hi, nofun, .inl ⟨v, ⟨.inl h1, h2, h3⟩, .inl h4⟩⟩
/-- Subscripts and unions of them are found, each by itself. -/
theorem C70_witness_types (s : S) (hs : tour typedEnv typed S.init = .ok s) :
    GenericSubscript typedEnv typed (typed.kids.take 2) (nd .value .subscript 3 [nm .value "x" 3, nm .slice "int" 3]) ∧
    (∀ k ∈ typed.kids[3]?, ∃ n ∈ k.kids, Settled typedEnv typed (typed.kids.take 3) n .unionTypes) ∧
    (∀ n ∈ typed.kids[6]?, Settled typedEnv typed (typed.kids.take 6) n .unionTypes) ∧
    s.has .builtinGenericTypeAnnotations = true ∧ s.has .unionTypes = true := by
  have h1 : GenericSubscript typedEnv typed (typed.kids.take 2) (nd .value .subscript 3 [nm .value "x" 3, nm .slice "int" 3]) :=
    ⟨rfl, _, "x", rfl, ⟨_, rfl⟩, .inr (.inr ⟨by decide, notFrom_of (by decide +kernel), by decide, fun _ _ h => h, "list",
      typed_given _ (.head _) rfl rfl ⟨_, .head _, .inl rfl, _, rfl⟩ ⟨_, rfl⟩, by decide, undefined_of (by decide +kernel)⟩)⟩
  have h2 : Settled typedEnv typed (typed.kids.take 6) (nd .body .augAssign 7 [nd .target (.name "a" .store) 7 [], nd .op (.op .bitOr) 7 [], nm .value "str" 7]) .unionTypes :=
    .unionMerge (by decide +kernel) rfl ⟨_, rfl, rfl⟩ rfl rfl rfl (.inr (.inr ⟨"int", "str", by decide,
      typed_given _ (.tail _ (.tail _ (.tail _ (.tail _ (.tail _ (.head _)))))) rfl rfl ⟨_, .head _, .inl rfl, _, rfl⟩ ⟨_, rfl⟩, .inl ⟨_, rfl⟩⟩))
      (.inl (.name ⟨_, rfl⟩ (undefined_of (by decide +kernel)) (unassigned_of (by decide +kernel))))
  refine ⟨h1, ?_, ?_, ?_, ?_⟩
  · rintro k hk
    cases hk
    refine ⟨_, .head _, .union (by decide +kernel) rfl ⟨_, rfl, rfl⟩ rfl rfl (.inr (.inr (.inr ⟨"x", "list", ⟨_, rfl⟩, ?_⟩)))
      (.inr (.inr (.inr ⟨"C", "C", ⟨_, rfl⟩, _, .tail _ (.head _), nofun, .inr ⟨rfl, rfl⟩⟩)))⟩
    exact typed_given _ (.head _) rfl rfl ⟨_, .head _, .inl rfl, _, rfl⟩ ⟨_, rfl⟩
  · rintro n hn
    cases hn
    exact h2
  · exact C70_reported typedEnv typed _ _ (typed.kids.take 2) _ _ s hs rfl rfl (seen_at 0 rfl rfl (.self _)) (fun h => by cases h.2) (.generic rfl h1)
  · exact C70_reported typedEnv typed _ _ (typed.kids.take 6) _ _ s hs rfl rfl (.self _) (fun h => by cases h.2) h2
theorem C70_witness_typed : ∃ s, tour typedEnv typed S.init = .ok s := by
  have : (tour typedEnv typed S.init).toBool = true := by decide +kernel
  cases h : tour typedEnv typed S.init with
  | ok s => exact ⟨s, rfl⟩
  | error e => rw [h] at this; cases this

/-- Some types that support `|` and `|=` -/
def dictsEnv : Env := { settledEnv with tables := { settledEnv.tables with dictUnion := ["collections.OrderedDict"], dictUnionMerge := ["collections.OrderedDict", "os.environ"] } }
/-- The program
```
from collections import OrderedDict
x = OrderedDict()
y = {}
x | [5, {}][1]
os.environ |= y
x |= y
``` -/
def dicts : Node := prog [
  nd .body (.importFrom (some "collections") 0) 1 [nd .names (.alias "OrderedDict" none) 1 []],
  nd .body .assign 2 [nd .targets (.name "x" .store) 2 [], nd .value .call 2 [nm .func "OrderedDict" 2]],
  nd .body .assign 3 [nd .targets (.name "y" .store) 3 [], nd .value (.dict []) 3 []],
  st 4 (nd .value .binOp 4 [nm .left "x" 4, nd .op (.op .bitOr) 4 [],
    nd .right .subscript 4 [nd .value (.list .load) 4 [nd .elts (.const (.int 5)) 4 [], nd .elts (.dict []) 4 []], nd .slice (.const (.int 1)) 4 []]]),
  nd .body .augAssign 5 [attr .target "os" "environ" 5, nd .op (.op .bitOr) 5 [], nm .value "y" 5],
  nd .body .augAssign 6 [nd .target (.name "x" .store) 6 [], nd .op (.op .bitOr) 6 [], nm .value "y" 6]]

theorem dicts_run : ∃ s, tour dictsEnv dicts S.init = .ok s := by
  have : (tour dictsEnv dicts S.init).toBool = true := by decide +kernel
  cases h : tour dictsEnv dicts S.init with
  | ok s => exact ⟨s, rfl⟩
  | error e => rw [h] at this; cases this
theorem dicts_from {k : Node} {m x : String} (hk : In k dicts) (h : ImportsFrom k m x) : m = "collections" := by
  have : dicts.subs.all (fun n => match n.kind with | .importFrom m _ => m = some "collections" | _ => true) = true := by decide +kernel
  have := List.all_eq_true.mp this k (mem_subs hk)
  rw [h.1] at this
  injection of_decide_eq_true this
theorem dicts_x {l : List Node} (hl : dicts.kids.take 3 ⊆ l) : ValVar dictsEnv dicts l "x" "OrderedDict" := by
  refine ⟨⟨?_, ?_⟩, _, hl (.tail _ (.head _)), nofun, _, ⟨.inl rfl, rfl, _, .head _, .inl rfl, _, rfl⟩, .call ⟨rfl, rfl⟩⟩
  · rintro k v hk ⟨h1, hv, t, ht, hf, c, hc⟩
    have : dicts.subs.all (fun n => match n.field .value with
      | some v => n.kids.all fun t => match t.kind with
        | .name "x" _ => decide (v.kind = .call ∧ (v.field .func).bind Node.nameId = some "OrderedDict") || decide (n.kind = .augAssign ∧ v.kind = .name "y" .load) || !decide (t.fld = .targets ∨ t.fld = .target)
        | _ => true
      | none => true) = true := by decide +kernel
    have := List.all_eq_true.mp this k (mem_subs hk)
    rw [hv] at this
    have := List.all_eq_true.mp this t ht
    rw [hc] at this
    simp only [Bool.or_eq_true, decide_eq_true_eq, Bool.not_eq_true', decide_eq_false_iff_not] at this
    rcases this with (h | h) | h
    · exact .inl (.call h)
    · exact .inr ⟨h.1, _, _, h.2⟩
    · exact absurd hf h
  · intro k t c hk hf _ _
    have : dicts.subs.all (fun n => !decide (n.kind = .for) && !decide (n.kind = .asyncFor)) = true := by decide +kernel
    have := List.all_eq_true.mp this k (mem_subs hk)
    rcases hf with hf | hf <;> rw [hf] at this <;> cases this
theorem dicts_y {l : List Node} (hl : dicts.kids.take 3 ⊆ l) : DictVar dictsEnv dicts l "y" :=
  ⟨always_of (fun v => match v.kind with | .dict _ => true | _ => false) (fun v hv => by split at hv; exact .dict ‹_›; cases hv) (by decide +kernel),
    _, hl (.tail _ (.tail _ (.head _))), nofun, _, ⟨.inl rfl, rfl, _, .head _, .inl rfl, _, rfl⟩, .dict rfl⟩

/-- The operators of the program are operators of dictionaries, for various reasons. -/
theorem C70_witness_dicts : ∃ s n, tour dictsEnv dicts S.init = .ok s ∧ (dicts.kids[3]?.bind (·.field .value)) = some n ∧
    Settled dictsEnv dicts (dicts.kids.take 3) n .dictUnion ∧ s.has .dictUnion = true ∧
    (∀ m, dicts.kids[4]? = some m → Settled dictsEnv dicts (dicts.kids.take 4) m .dictUnionMerge) ∧
    (∀ m, dicts.kids[5]? = some m → Settled dictsEnv dicts (dicts.kids.take 5) m .dictUnionMerge) ∧ s.has .dictUnionMerge = true := by
  have hx : ∀ l, dicts.kids.take 3 ⊆ l → FullName dictsEnv dicts l "OrderedDict" ("collections" ++ "." ++ "OrderedDict") := fun l hl =>
    .origin (notAs_of (by decide +kernel)) ⟨ident _ (by decide), by decide, fun _ _ hk h => dicts_from hk h, _, hl (.head _), ⟨rfl, _, .head _, _, rfl⟩, nofun⟩
  obtain ⟨s, hs⟩ := dicts_run
  have h3 : Settled dictsEnv dicts (dicts.kids.take 3) (nd .value .binOp 4 [nm .left "x" 4, nd .op (.op .bitOr) 4 [],
      nd .right .subscript 4 [nd .value (.list .load) 4 [nd .elts (.const (.int 5)) 4 [], nd .elts (.dict []) 4 []], nd .slice (.const (.int 1)) 4 []]]) .dictUnion :=
    .dictUnion rfl ⟨_, rfl, rfl⟩ rfl rfl (.inr ⟨"x", _, _, .inl ⟨_, rfl⟩, .inl (dicts_x fun _ h => h), hx _ fun _ h => h, by decide +kernel⟩)
      (.inl (.item (j := 1) rfl rfl ⟨_, rfl, .inl ⟨_, rfl, .inl rfl⟩⟩ rfl (.display rfl)))
  have h4 : ∀ m, dicts.kids[4]? = some m → Settled dictsEnv dicts (dicts.kids.take 4) m .dictUnionMerge := by
    intro m hm
    cases hm
    refine .dictMerge rfl ⟨_, rfl, rfl⟩ rfl rfl (.var ⟨_, rfl⟩ (dicts_y ?_)) (.inr (.inl ⟨"os.environ", _, _, .inr (.inr ⟨"os", ["environ"], chain_attr_nd .., notAs_of (by decide +kernel), by decide⟩),
      .inr ⟨unassigned_of (by decide +kernel), rfl⟩, .own (by decide) (notAs_of (by decide +kernel)) (notFrom_of (by decide +kernel)), by decide +kernel⟩))
    exact fun _ h => List.mem_append_left [_] h
  have h5 : ∀ m, dicts.kids[5]? = some m → Settled dictsEnv dicts (dicts.kids.take 5) m .dictUnionMerge := by
    intro m hm
    cases hm
    have hl : dicts.kids.take 3 ⊆ dicts.kids.take 5 := fun _ h => List.mem_append_left [_, _] h
    exact .dictMerge rfl ⟨_, rfl, rfl⟩ rfl rfl (.var ⟨_, rfl⟩ (dicts_y hl)) (.inr (.inl ⟨"x", _, _, .inl ⟨_, rfl⟩, .inl (dicts_x hl), hx _ hl, by decide +kernel⟩))
  refine ⟨s, _, hs, rfl, h3, ?_, h4, h5, ?_⟩
  · exact C70_reported dictsEnv dicts _ _ (dicts.kids.take 3) _ _ s hs rfl rfl (seen_at 0 rfl rfl (.self _)) (fun h => by cases h.2) h3
  · exact C70_reported dictsEnv dicts _ _ (dicts.kids.take 5) _ _ s hs rfl rfl (.self _) (fun h => by cases h.2) (h5 _ rfl)

/-! ### C30: constructs that are missed -/

/-- The claim of C30 is false of `await` in the element of a comprehension: only the clauses are considered. -/
def awaitElement : Node := prog [nd .body (.asyncFunctionDef "f") 1 [nd .args .arguments 1 [],
  st 2 (nd .value .listComp 2 [nd .elt .await 2 [nm .value "x" 2], nd .generators (.comprehension false) 2 [nd .target (.name "x" .store) 2 [], nm .iter "y" 2]])]]
theorem C30_false_await : ∃ s, tour (exampleEnv (Config.init 1)) awaitElement S.init = .ok s ∧ s.has .coroutines = true ∧ s.has .awaitInComprehension = false ∧
    ∃ m k, Reach (exampleEnv (Config.init 1)) m awaitElement ∧ m.kind = .listComp ∧ m.field .elt = some k ∧ k.kind = .await :=
  ⟨_, rfl, by decide +kernel, by decide +kernel, _, _, reach_at 0 rfl rfl (reach_at 1 rfl rfl (reach_at 0 rfl rfl (.self _))), rfl, rfl, rfl⟩

/-- And of an asynchronous generator whose only `await` is in a clause of a comprehension:
`async def f(): yield [x for x in await y]` -/
def awaitClause : Node := prog [nd .body (.asyncFunctionDef "f") 1 [nd .args .arguments 1 [], st 2 (nd .value .yield 2 [nd .value .listComp 2 [nm .elt "x" 2,
  nd .generators (.comprehension false) 2 [nd .target (.name "x" .store) 2 [], nd .iter .await 2 [nm .value "y" 2]]]])]]
theorem C30_false_asyncGenerator : ∃ s, tour (exampleEnv (Config.init 1)) awaitClause S.init = .ok s ∧ s.has .awaitInComprehension = true ∧ s.has .asyncGenerator = false ∧
    ∃ f y a, Reach (exampleEnv (Config.init 1)) f awaitClause ∧ f.kind = .asyncFunctionDef "f" ∧ In y f ∧ y.kind = .yield ∧ In a y ∧ a.kind = .await :=
  ⟨_, rfl, by decide +kernel, by decide +kernel, _, _, _, reach_at 0 rfl rfl (.self _), rfl, .kid (.tail _ (.head _)) (.kid (.head _) (.self _)), rfl,
    .kid (.head _) (.kid (.tail _ (.head _)) (.kid (.tail _ (.head _)) (.self _))), rfl⟩

/-- The parameter of `def f(a: Literal) -> int` is not considered, although annotations are evaluated: parameters are if there is no
annotation of the result. -/
def literalResult : Node := prog [nd .body (.functionDef "f") 1 [nd .args .arguments 1 [nd .args (.arg "a") 1 [nm .annotation "Literal"]],
  nd .body .pass 1 [], nm .returns "int"]]
theorem C30_false_literal : ∃ s, tour settledEnv literalResult S.init = .ok s ∧ s.has .literalAnnotations = false ∧
    ∃ f a, Reach settledEnv f literalResult ∧ f.kind = .functionDef "f" ∧ ParamAnn f a ∧ AnnIs a "Literal" :=
  ⟨_, rfl, by decide +kernel, _, _, reach_at 0 rfl rfl (.self _), rfl, ⟨_, _, rfl, .head _, rfl⟩, .inl ⟨_, rfl⟩⟩

/-- Values of keyword arguments are looked at: `os.walk(top, onerror=sorted(x, key={y}))` -/
def passedValue : Node := prog [st 1 (nd .value .call 1 [attr .func "os" "walk" 1, nm .args "top" 1, nd .keywords (.keyword (some "onerror")) 1
  [nd .value .call 1 [nm .func "sorted" 1, nm .args "x" 1, nd .keywords (.keyword (some "key")) 1 [nd .value .set 1 [nm .elts "y" 1]]]]])]
theorem C30_witness_passed : ∃ m s, Seen (exampleEnv (Config.init 1)) passedValue m passedValue ∧ ¬ Marked (exampleEnv (Config.init 1)) m ∧
    Construct (exampleEnv (Config.init 1)) .setLiterals m ∧ tour (exampleEnv (Config.init 1)) passedValue S.init = .ok s ∧ s.has .setLiterals = true := by
  have hm : ∀ n, ¬ Marked (exampleEnv (Config.init 1)) n := fun n h => by cases h.2
  have hx : ∀ g k, (Config.init 1).isExcludedKwarg g k = false := fun g k => by rfl
  have hr : Seen (exampleEnv (Config.init 1)) passedValue (nd .value .set 1 [nm .elts "y" 1]) passedValue := by
    refine seen_at 0 rfl rfl (seen_at 0 rfl rfl (.value (kw := nd .keywords (.keyword (some "onerror")) 1 [nd .value .call 1 [nm .func "sorted" 1, nm .args "x" 1,
      nd .keywords (.keyword (some "key")) 1 [nd .value .set 1 [nm .elts "y" 1]]]]) ?_ (.head _)
      (.value (kw := nd .keywords (.keyword (some "key")) 1 [nd .value .set 1 [nm .elts "y" 1]]) ?_ (.head _) (.self _))))
    · exact ⟨rfl, hm _, named_of (by decide +kernel), .tail _ (.tail _ (.head _)), ⟨_, rfl, fun g => hx g _⟩, dotless_of (by decide +kernel),
        _, rfl, .inl ⟨_, _, chain_attr_nd ..⟩⟩
    · exact ⟨rfl, hm _, named_of (by decide +kernel), .tail _ (.tail _ (.head _)), ⟨_, rfl, fun g => hx g _⟩, dotless_of (by decide +kernel),
        _, rfl, .inr ⟨"sorted", ⟨_, rfl⟩, undefined_of (by decide +kernel), unassigned_of (by decide +kernel)⟩⟩
  have ht : ∃ s, tour (exampleEnv (Config.init 1)) passedValue S.init = .ok s := ⟨_, rfl⟩
  obtain ⟨s, hs⟩ := ht
  exact ⟨_, s, hr, hm _, rfl, hs, C30_reported_partial _ _ _ _ s hs hr (hm _) (by decide) rfl⟩

/-- But not if the function is one that the program defines: `def f(k): pass` and `f(k={y})` -/
def ownValue : Node := prog [nd .body (.functionDef "f") 1 [nd .args .arguments 1 [nd .args (.arg "k") 1 []], nd .body .pass 1 []],
  st 2 (nd .value .call 2 [nm .func "f" 2, nd .keywords (.keyword (some "k")) 2 [nd .value .set 2 [nm .elts "y" 2]]])]
theorem C30_false_keyword : ∃ m s, In m ownValue ∧ Construct (exampleEnv (Config.init 1)) .setLiterals m ∧ tour (exampleEnv (Config.init 1)) ownValue S.init = .ok s ∧
    s.has .setLiterals = false :=
  ⟨nd .value .set 2 [nm .elts "y" 2], _, .kid (.tail _ (.head _)) (.kid (.head _) (.kid (.tail _ (.head _)) (.kid (.head _) (.self _)))), rfl, rfl, by decide +kernel⟩

/-- Calls of dictionary classes by their full name are missed: `collections.OrderedDict() | {}` -/
def spelledDict : Node := prog [st 1 (nd .value .binOp 1 [nd .left .call 1 [attr .func "collections" "OrderedDict" 1], nd .op (.op .bitOr) 1 [], nd .right (.dict []) 1 []])]
theorem C30_false_dict : ∃ s, tour dictsEnv spelledDict S.init = .ok s ∧ s.has .dictUnion = false ∧ "collections.OrderedDict" ∈ dictsEnv.tables.dictUnion :=
  ⟨_, rfl, by decide +kernel, by decide +kernel⟩

end Vermin.Props
